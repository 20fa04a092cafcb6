import Verif.Common.Outcome
import Verif.Common.Sort
import Verif.Common.Epetra
import Verif.Field.Model
import Verif.Field.Spec
import Verif.Field.Lemmas
import Verif.Field.Props
import Verif.Data.Model
import Verif.Data.Alloc
import Verif.Data.Invariant
import Verif.Data.Create
import Verif.Data.Create2
import Verif.Data.SysInv
import Verif.Data.Props
import Verif.Redist.Model
import Verif.Redist.Spec
import Verif.Redist.Lemmas
import Verif.Redist.Import
import Verif.Redist.Rebalance
import Verif.Redist.Props
import Verif.Neigh.Model
import Verif.Neigh.Spec
import Verif.Neigh.Lemmas
import Verif.Neigh.Blocks
import Verif.Neigh.Props
import Verif.Neigh.Rebalance
import Verif.Neigh.RebalanceLemmas
import Verif.Neigh.RebalanceProps
import Verif.Assembly.Lemmas
import Verif.Assembly.Model
import Verif.Assembly.Props
import Verif.Assembly.Spec
import Verif.Mech.Defined
import Verif.Mech.Frame
import Verif.Mech.FrameProps
import Verif.Mech.HistoryProps
import Verif.Mech.Lemmas
import Verif.Mech.Model
import Verif.Mech.Momentum
import Verif.Mech.Plastic
import Verif.Mech.Props
import Verif.Mech.Spec
import Verif.Filter.Lemmas
import Verif.Filter.Model
import Verif.Filter.Props
import Verif.Filter.Spec
import Verif.Search.Lemmas
import Verif.Search.Model
import Verif.Search.Props
import Verif.Search.Spec
import Verif.Damage.InitialProps
import Verif.Damage.Lemmas
import Verif.Damage.Model
import Verif.Damage.Props
import Verif.Damage.Spec
import Verif.Damage.StressLemmas
import Verif.Damage.StressProps
import Verif.Contact.InteractionsModel
import Verif.Contact.InteractionsProps
import Verif.Contact.Lemmas
import Verif.Contact.Model
import Verif.Contact.Props
import Verif.Contact.RebalanceLemmas
import Verif.Contact.RebalanceModel
import Verif.Contact.RebalanceProps
import Verif.Contact.RebalanceSpec
import Verif.Contact.Spec
import Verif.BC.KinLemmas
import Verif.BC.Lemmas
import Verif.BC.Model
import Verif.BC.Props
import Verif.BC.Spec
import Verif.Dof.Model
import Verif.Dof.Props
import Verif.Explicit.Lemmas
import Verif.Explicit.Model
import Verif.Body.Lemmas
import Verif.Body.Model
import Verif.Body.Props
import Verif.Body.Spec
import Verif.Explicit.Props
import Verif.Explicit.Spec
import Verif.BC.InitialProps
import Verif.BC.ThermalProps
import Verif.QuasiStatic.Demo
import Verif.QuasiStatic.Lemmas
import Verif.QuasiStatic.Model
import Verif.QuasiStatic.SolveLemmas
import Verif.QuasiStatic.SolveProps
import Verif.QuasiStatic.Spec
import Verif.QuasiStatic.StepLemmas
import Verif.QuasiStatic.TimeProps
import Verif.Implicit.Lemmas
import Verif.Implicit.Model
import Verif.Implicit.Props
import Verif.LineSearch.Lemmas
import Verif.LineSearch.Model
import Verif.LineSearch.Props
import Verif.LineSearch.Spec
import Verif.Nox.Model
import Verif.Nox.Props
import Verif.Nox.ResidualProps
import Verif.Nox.StepProps
import Verif.Tensor.Lemmas
import Verif.Tensor.Model
import Verif.Correspondence.Defined
import Verif.Correspondence.ForceLemmas
import Verif.Correspondence.ForceProps
import Verif.Correspondence.HardProps
import Verif.Correspondence.KinProps
import Verif.Correspondence.Lemmas
import Verif.Correspondence.Model
import Verif.Correspondence.RotLemmas
import Verif.Correspondence.RotProps
import Verif.Correspondence.Spec
import Verif.Correspondence.StressLemmas
import Verif.Correspondence.StressModel
import Verif.Correspondence.StressProps
import Verif.Correspondence.StressSpec
import Verif.Correspondence.StretchProps
import Verif.Params.BlockProps
import Verif.Params.ConstProps
import Verif.Params.HorizonProps
import Verif.Params.InfluenceProps
import Verif.Params.Model
import Verif.Params.Spec
import Verif.Tangent.Demo
import Verif.Tangent.FdAssembly
import Verif.Tangent.FdLemmas
import Verif.Tangent.FdLocal
import Verif.Tangent.FdProps
import Verif.Tangent.ImplicitProps
import Verif.Tangent.KindProps
import Verif.Tangent.Lemmas
import Verif.Tangent.Model
import Verif.Tangent.SparsityProps
import Verif.Tangent.Spec
import Verif.Outputs.EnergyProps
import Verif.Outputs.GlobalLemmas
import Verif.Outputs.GlobalModel
import Verif.Outputs.GlobalSpec
import Verif.Outputs.Lemmas
import Verif.Outputs.Model
import Verif.Outputs.MomentumProps
import Verif.Outputs.NearestLemmas
import Verif.Outputs.NearestProps
import Verif.Outputs.ReduceProps
import Verif.Outputs.Spec
import Verif.Outputs.TimeStepProps
import Verif.Storage.InterfaceLemmas
import Verif.Storage.InterfaceModel
import Verif.Storage.InterfaceProps
import Verif.Storage.InterfaceSpec
import Verif.Storage.LoaderLemmas
import Verif.Storage.LoaderModel
import Verif.Storage.LoaderProps
import Verif.Storage.LoaderSpec
import Verif.Storage.RestartLemmas
import Verif.Storage.RestartModel
import Verif.Storage.RestartProps
import Verif.Storage.RestartSpec
import Verif.Energy.Lemmas
import Verif.Energy.Model
import Verif.Energy.Props
import Verif.Energy.Spec
import Verif.Outputs.FieldsLemmas
import Verif.Outputs.FieldsModel
import Verif.Outputs.FieldsProps
import Verif.Outputs.FieldsSpec
import Verif.Diffusion.FlowProps
import Verif.Diffusion.Lemmas
import Verif.Diffusion.Model
import Verif.Diffusion.PoissonProps
import Verif.Diffusion.Props
import Verif.Diffusion.Spec
import Verif.Thermal.Lemmas
import Verif.Thermal.Model
import Verif.Thermal.Props
import Verif.Thermal.SolveProps
import Verif.Thermal.Spec
import Verif.Grid.BoxLemmas
import Verif.Grid.Count
import Verif.Grid.CylinderLemmas
import Verif.Grid.CylinderProps
import Verif.Grid.Lemmas
import Verif.Grid.Model
import Verif.Grid.Props
import Verif.Grid.Spec
import Verif.Grid.Walk
import Verif.Geometry.ElementLemmas
import Verif.Geometry.ElementProps
import Verif.Geometry.HexProps
import Verif.Geometry.Lemmas
import Verif.Geometry.Model
import Verif.Geometry.SolidLemmas
import Verif.Geometry.Spec
import Verif.Geometry.SphereLemmas
import Verif.Geometry.SphereProps
import Verif.Geometry.VolumeIdentity
import Verif.Geometry.VolumeLemmas
import Verif.Geometry.VolumeProps
import Verif.Mesh.BlockLemmas
import Verif.Mesh.ExodusLemmas
import Verif.Mesh.ExodusModel
import Verif.Mesh.ExodusProps
import Verif.Mesh.ExodusSpec
import Verif.Mesh.FilterLemmas
import Verif.Mesh.FilterModel
import Verif.Mesh.FilterProps
import Verif.Mesh.IntersectLemmas
import Verif.Mesh.IntersectModel
import Verif.Mesh.IntersectProps
import Verif.Mesh.SetLemmas
import Verif.Mesh.TextLemmas
import Verif.Mesh.TextModel
import Verif.Mesh.TextProps
import Verif.Mesh.TextSpec
import Verif.Search.GlobalLemmas
import Verif.Search.GlobalModel
import Verif.Search.GlobalProps
import Verif.Balance.Lemmas
import Verif.Balance.Model
import Verif.Balance.Moves
import Verif.Balance.Props
import Verif.Balance.Spec
import Verif.Damage.InterfaceModel
import Verif.Damage.InterfaceProps
import Verif.Hardening.Cubic
import Verif.Hardening.Lemmas
import Verif.Hardening.Model
import Verif.Hardening.Props
import Verif.Hardening.Root
import Verif.Hardening.Spec
import Verif.Damage.InterfaceLemmas
import Verif.Damage.InterfaceSpec
import Verif.Pals.Forces
import Verif.Pals.Lemmas
import Verif.Pals.Model
import Verif.Pals.Props
import Verif.Pals.Spec
import Verif.Lps.CaseProps
import Verif.Lps.Lemmas
import Verif.Lps.Model
import Verif.Lps.Props
import Verif.Lps.Spec
import Verif.Lps.TangentProps
import Verif.Assoc.BalanceLemmas
import Verif.Assoc.BalanceProps
import Verif.Assoc.Cases
import Verif.Assoc.DefinedLemmas
import Verif.Assoc.ExactLemmas
import Verif.Assoc.Exists
import Verif.Assoc.ForceLemmas
import Verif.Assoc.Model
import Verif.Assoc.MotionProps
import Verif.Assoc.PairLemmas
import Verif.Assoc.PolyLemmas
import Verif.Assoc.Spec
import Verif.Assoc.WeightLemmas
import Verif.Assoc.WeightProps
import Verif.Return.Lemmas
import Verif.Return.Model
import Verif.Return.Props
import Verif.Return.ReturnLemmas
import Verif.Return.RunLemmas
import Verif.Return.RunProps
import Verif.Return.Spec
import Verif.Setup.ComputeModel
import Verif.Setup.ComputeProps
import Verif.Setup.ComputeSpec
import Verif.Setup.DeficientModel
import Verif.Setup.DeficientProps
import Verif.Setup.Lemmas
import Verif.Setup.Model
import Verif.Setup.Props
import Verif.Setup.Spec
import Verif.Setup.TimeLemmas
import Verif.Setup.TimeModel
import Verif.Setup.TimeProps
import Verif.Needleman.Lemmas
import Verif.Needleman.Model
import Verif.Needleman.PointLemmas
import Verif.Needleman.Props
import Verif.Needleman.RateProps
import Verif.Needleman.RootProps
import Verif.Needleman.RunProps
import Verif.Needleman.Spec
import Verif.Hypo.Cases
import Verif.Hypo.ForceProps
import Verif.Hypo.Lemmas
import Verif.Hypo.Model
import Verif.Hypo.MotionProps
import Verif.Hypo.PlasticProps
import Verif.Hypo.RunLemmas
import Verif.Hypo.Spec
import Verif.KdTree.BuildProps
import Verif.KdTree.Lemmas
import Verif.KdTree.Model
import Verif.KdTree.QueryLemmas
import Verif.KdTree.QueryProps
import Verif.KdTree.Spec
import Verif.KdTree.TreeLemmas
import Verif.Post.ErrorLemmas
import Verif.Post.ErrorProps
import Verif.Post.GradProps
import Verif.Post.Model
import Verif.Post.Spec
import Verif.Post.VisLemmas
import Verif.Post.VisProps
import Verif.ShearFactor.EnergyProps
import Verif.ShearFactor.FactorProps
import Verif.ShearFactor.Lemmas
import Verif.ShearFactor.Model
import Verif.ShearFactor.PressureProps
import Verif.ShearFactor.Spec
import Verif.Exodus.DefinedLemmas
import Verif.Exodus.Demo
import Verif.Exodus.ElemLemmas
import Verif.Exodus.HeaderLemmas
import Verif.Exodus.MeshProps
import Verif.Exodus.Model
import Verif.Exodus.NameLemmas
import Verif.Exodus.NameProps
import Verif.Exodus.ReadProps
import Verif.Exodus.RequestProps
import Verif.Exodus.Spec
import Verif.Exodus.StepLemmas
import Verif.Exodus.WriteLemmas
import Verif.Touch.BlockLemmas
import Verif.Touch.Demo
import Verif.Touch.ForceLemmas
import Verif.Touch.FrictionProps
import Verif.Touch.InteractLemmas
import Verif.Touch.InteractModel
import Verif.Touch.InteractProps
import Verif.Touch.Model
import Verif.Touch.Props
import Verif.Touch.RunLemmas
import Verif.Touch.Spec
import Verif.Touch.StateLemmas
import Verif.Convert.FileProps
import Verif.Convert.Lemmas
import Verif.Convert.Model
import Verif.Convert.NeighborProps
import Verif.Convert.ReadLemmas
import Verif.Convert.SetProps
import Verif.Convert.Spec
import Verif.Synch.ForceProps
import Verif.Synch.Lemmas
import Verif.Synch.Model
import Verif.Synch.Props
import Verif.Synch.SetupProps
import Verif.Synch.Spec
import Verif.Synch.ThetaProps
import Verif.Assoc.OutputLemmas
import Verif.Assoc.OutputModel
import Verif.Assoc.OutputProps
import Verif.Assoc.OutputSpec
import Verif.Correspondence.StartLemmas
import Verif.Correspondence.StartModel
import Verif.Correspondence.StartProps
import Verif.Correspondence.StartSpec
import Verif.Fad.Assembly
import Verif.Fad.Demo
import Verif.Fad.Lemmas
import Verif.Fad.Model
import Verif.Fad.Props
import Verif.Fad.Spec
import Verif.Fad.SymLemmas
import Verif.Fad.SymProps
import Verif.Fad.WholeProps
import Verif.Tangent.IsolatedProps
import Verif.Fad.PlasticLemmas
import Verif.Fad.PlasticModel
import Verif.Fad.PlasticProps
import Verif.Fad.PlasticSpec
import Verif.Fad.PlasticTangent
import Verif.Fad.YieldProps
import Verif.Fad.FlowProps
import Verif.Fad.FlowSpec
import Verif.Fad.PlasticSkew
import Verif.Fad.PlasticSym
import Verif.Fad.RigidProps
import Verif.Mech.FlowProps
import Verif.Mech.FlowSpec
import Verif.Newton.DampProps
import Verif.Newton.Lemmas
import Verif.Newton.Model
import Verif.Newton.RunProps
import Verif.Newton.Spec
import Verif.Nox.DiagModel
import Verif.Nox.DiagProps
import Verif.Synch.StartModel
import Verif.Synch.StartProps
import Verif.Combine.Lemmas
import Verif.Combine.Model
import Verif.Combine.Parts
import Verif.Combine.Props
import Verif.Combine.Spec
import Verif.Combine.Table
import Verif.Sizes.Model
import Verif.Sizes.Props
import Verif.Porous.Assembly
import Verif.Porous.Lemmas
import Verif.Porous.Model
import Verif.Porous.Props
import Verif.Porous.Spec
import Verif.Porous.Structure
import Verif.Porous.StructureProps
import Verif.Grid.SolidLemmas
import Verif.Grid.SolidModel
import Verif.Grid.SolidProps
import Verif.Grid.SolidRuns
import Verif.Grid.SolidStatement
import Verif.BondVolume.BoxProps
import Verif.BondVolume.Lemmas
import Verif.BondVolume.Model
import Verif.BondVolume.RingProps
import Verif.BondVolume.Spec
import Verif.BondVolume.StateProps
import Verif.Assoc.PlasticLemmas
import Verif.Assoc.PlasticModel
import Verif.Assoc.PlasticProps
import Verif.Assoc.PlasticSpec
import Verif.Progress.Lemmas
import Verif.Progress.Model
import Verif.Progress.Props
import Verif.Progress.Spec
import Verif.Storage.InterfaceFileLemmas
import Verif.Storage.InterfaceFileModel
import Verif.Storage.InterfaceFileProps
import Verif.Storage.InterfaceFileSpec
import Verif.Mesh.GhostLemmas
import Verif.Mesh.GhostModel
import Verif.Mesh.GhostProps
import Verif.Mesh.GhostSpec
import Verif.BondVolume.MeshProps
import Verif.Quick.Lemmas
import Verif.Quick.Model
import Verif.Quick.Props
import Verif.Quick.Spec
import Verif.Record.Lemmas
import Verif.Record.Model
import Verif.Record.Objects
import Verif.Record.Props
import Verif.Record.Registry
import Verif.Record.Spec
import Verif.Deck.Lemmas
import Verif.Deck.ListLemmas
import Verif.Deck.Model
import Verif.Deck.Props
import Verif.Deck.ReadLemmas
import Verif.Deck.Spec
import Verif.Deck.ValueLemmas
import Verif.Sections.BuildLemmas
import Verif.Sections.DeckLemmas
import Verif.Sections.Lemmas
import Verif.Sections.Model
import Verif.Sections.Props
import Verif.Sections.Spec
import Verif.Visco.Lemmas
import Verif.Visco.Props
import Verif.Visco.Spec
import Verif.Conserve.Lemmas
import Verif.Conserve.Props
import Verif.Conserve.Spec
import Verif.Conserve.StepProps
import Verif.Conserve.NewmarkProps
import Verif.Conserve.NewmarkSpec
import Verif.Conserve.FrameProps
import Verif.Conserve.FrameSpec
import Verif.Conserve.UniqueProps
import Verif.Conserve.UniqueSpec
import Verif.Conserve.MinimumProps
import Verif.Conserve.MinimumSpec
import Verif.Deck.RefusalProps
import Verif.Conserve.CausalProps
import Verif.Conserve.CausalSpec
import Verif.Conserve.RestProps
import Verif.Conserve.LoadProps
import Verif.Conserve.LoadSpec
import Verif.Conserve.ReciprocalProps
import Verif.Conserve.ImplicitProps
import Verif.Conserve.ImplicitSpec
import Verif.Conserve.MomentumProps
import Verif.Conserve.MomentumSpec
import Verif.Conserve.SupportProps
import Verif.Conserve.SupportSpec
