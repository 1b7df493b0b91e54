import Verif.Adapt.Model
import Verif.Adapt.Props
import Verif.Agree.Model
import Verif.Agree.Props
import Verif.Aligned.Model
import Verif.Aligned.Props
import Verif.Amg.Model
import Verif.Amg.Props
import Verif.Art.Model
import Verif.Art.Props
import Verif.AuxModules.Model
import Verif.AuxModules.Props
import Verif.Balance.Lemmas
import Verif.Balance.Model
import Verif.Balance.Props
import Verif.Balance.Spec
import Verif.BlackOil.AppearProps
import Verif.BlackOil.AssignProps
import Verif.BlackOil.BoundLemmas
import Verif.BlackOil.ChopProps
import Verif.BlackOil.Count
import Verif.BlackOil.FluidState
import Verif.BlackOil.Indices
import Verif.BlackOil.IndicesProps
import Verif.BlackOil.Lemmas
import Verif.BlackOil.PrimaryVars
import Verif.BlackOil.SaltProps
import Verif.BlackOil.SatLemmas
import Verif.BlackOil.ScaleLemmas
import Verif.BlackOil.ScaleModel
import Verif.BlackOil.ScaleProps
import Verif.BlackOil.ScaleSpec
import Verif.BlackOil.SolventIQ
import Verif.BlackOil.SolventIQProps
import Verif.BlackOil.SwitchLemmas
import Verif.BlackOil.SwitchProps
import Verif.BlackOil.TempProps
import Verif.BlackOil.UpdateLemmas
import Verif.BlackOil.UpdateProps
import Verif.BlackOil.UpdateSpec
import Verif.Boundary.Model
import Verif.Boundary.Props
import Verif.Bounds.ChopLemmas
import Verif.Bounds.Lemmas
import Verif.Bounds.Props
import Verif.Bounds.Spec
import Verif.Buffers.Model
import Verif.Buffers.Props
import Verif.Cache.Model
import Verif.Cache.Props
import Verif.Cache.Refresh
import Verif.Cache.RefreshProps
import Verif.ConstraintMap.Lemmas
import Verif.ConstraintMap.Model
import Verif.ConstraintMap.Props
import Verif.Convergence.Model
import Verif.Convergence.Props
import Verif.Convergence.Spec
import Verif.Criteria.Model
import Verif.Criteria.Props
import Verif.Decks.Lemmas
import Verif.Decks.Model
import Verif.Decks.Props
import Verif.Deriv.Lemmas
import Verif.Deriv.Model
import Verif.Deriv.Props
import Verif.Deriv.SameProps
import Verif.Ecfv.Model
import Verif.Ecfv.Props
import Verif.ElemCtx.Model
import Verif.ElemCtx.Props
import Verif.EntityIter.Lemmas
import Verif.EntityIter.Model
import Verif.EntityIter.Props
import Verif.EntityIter.Spec
import Verif.Exchange.Model
import Verif.Exchange.Props
import Verif.Extend.CarryProps
import Verif.Extend.Diffusion
import Verif.Extend.DiffusionProps
import Verif.Extend.Dissolved
import Verif.Extend.DissolvedProps
import Verif.Extend.Energy
import Verif.Extend.EnergyProps
import Verif.Extend.Micp
import Verif.Extend.MicpProps
import Verif.Extend.Mixing
import Verif.Extend.MixingProps
import Verif.Extend.Model
import Verif.Extend.Polymer
import Verif.Extend.PolymerProps
import Verif.Extend.Quantities
import Verif.Extend.QuantitiesProps
import Verif.Extend.SatFunc
import Verif.Extend.SatFuncProps
import Verif.Extend.ShearProps
import Verif.Extend.SolventFlux
import Verif.Extend.SolventFluxProps
import Verif.Extend.ToddDensity
import Verif.Extend.ToddLemmas
import Verif.Extend.ToddLongstaff
import Verif.Extend.ToddProps
import Verif.Extend.ToddSpec
import Verif.Flows.Lemmas
import Verif.Flows.Model
import Verif.Flows.Props
import Verif.Flux.Agree
import Verif.Flux.AgreeProps
import Verif.Flux.Boundary
import Verif.Flux.BoundaryProps
import Verif.Flux.Content
import Verif.Flux.ContentProps
import Verif.Flux.Darcy
import Verif.Flux.DarcyProps
import Verif.Flux.Trans
import Verif.Flux.TransProps
import Verif.ForcedSteps.Model
import Verif.ForcedSteps.Props
import Verif.Forch.Lemmas
import Verif.Forch.Model
import Verif.Forch.Props
import Verif.Fracture.Model
import Verif.Fracture.Props
import Verif.FvLin.Model
import Verif.FvLin.Props
import Verif.FvLin.Props2
import Verif.FvLin.VertexProps
import Verif.GlobalIdx.Lemmas
import Verif.GlobalIdx.Model
import Verif.GlobalIdx.Owner
import Verif.GlobalIdx.Props
import Verif.GlobalIdx.Protocol
import Verif.GlobalIdx.Spec
import Verif.Gradient.Model
import Verif.Gradient.Props
import Verif.GridComm.Model
import Verif.GridComm.Props
import Verif.Guard.Model
import Verif.Guard.Props
import Verif.Hints.Model
import Verif.Hints.Props
import Verif.HumanTime.Model
import Verif.HumanTime.Props
import Verif.HumanTime.Spec
import Verif.Hybrid.Lemmas
import Verif.Hybrid.Model
import Verif.Hybrid.Props
import Verif.Hybrid.RunProps
import Verif.Hybrid.Spec
import Verif.Initial.Model
import Verif.Initial.Props
import Verif.Initial.Spec
import Verif.Inverse.Model
import Verif.Inverse.Props
import Verif.Krylov.BreakProps
import Verif.Krylov.Copies
import Verif.Krylov.Lemmas
import Verif.Krylov.Model
import Verif.Krylov.Props
import Verif.Krylov.Spec
import Verif.MassCons.BlackOilProps
import Verif.MassCons.Model
import Verif.MassCons.Props
import Verif.MassCons.PvsProps
import Verif.Mpi.Compose
import Verif.Mpi.Lemmas
import Verif.Mpi.Model
import Verif.Mpi.Rounds
import Verif.Mpi.Starve
import Verif.MpiUtil.Model
import Verif.MpiUtil.Props
import Verif.MpiUtil.Spec
import Verif.Names.Model
import Verif.Names.Props
import Verif.Ncp.Lemmas
import Verif.Ncp.Model
import Verif.Ncp.Props
import Verif.Newton.HandledProps
import Verif.Newton.Lemmas
import Verif.Newton.Model
import Verif.Newton.NanProps
import Verif.Newton.Props
import Verif.Newton.Spec
import Verif.Numbers.Lemmas
import Verif.Numbers.Model
import Verif.Numbers.Props
import Verif.Overlap.Border
import Verif.Overlap.BorderProps
import Verif.Overlap.ConstructLemmas
import Verif.Overlap.Constructed
import Verif.Overlap.DomesticLemmas
import Verif.Overlap.ForeignComm
import Verif.Overlap.ForeignLemmas
import Verif.Overlap.Model
import Verif.Overlap.Props
import Verif.Overlap.Spec
import Verif.Overlap.VertexConstructed
import Verif.Overlap.VertexDomestic
import Verif.Overlap.VertexForeign
import Verif.Overlap.VertexProps
import Verif.Overlap.VertexSpec
import Verif.OverlapMatrix.Copy
import Verif.OverlapMatrix.CopyProps
import Verif.OverlapMatrix.Lemmas
import Verif.OverlapMatrix.Model
import Verif.OverlapMatrix.Props
import Verif.OverlapMatrix.Spec
import Verif.OverlapMatrix.VertexLemmas
import Verif.OverlapMatrix.VertexProps
import Verif.OverlapMatrix.VertexSpec
import Verif.Pack.Model
import Verif.Pack.Props
import Verif.ParBalance.Lemmas
import Verif.ParBalance.Props
import Verif.ParBalance.Spec
import Verif.ParCache.Lemmas
import Verif.ParCache.Model
import Verif.ParCache.Props
import Verif.ParCache.Sinking
import Verif.ParCache.Spec
import Verif.ParNewton.Lemmas
import Verif.ParNewton.LoopLemmas
import Verif.ParNewton.Model
import Verif.ParNewton.PassLemmas
import Verif.ParNewton.Props
import Verif.ParNewton.Spec
import Verif.ParNewton.TiedProps
import Verif.ParRest.Lemmas
import Verif.ParRest.Props
import Verif.ParRest.Spec
import Verif.ParRestart.Files
import Verif.ParRestart.Hasty
import Verif.ParRestart.Lemmas
import Verif.ParRestart.Model
import Verif.ParRestart.Props
import Verif.ParRestart.Spec
import Verif.ParSim.Lemmas
import Verif.ParSim.Model
import Verif.ParSim.Props
import Verif.ParSim.Spec
import Verif.ParSim.TieProps
import Verif.ParSim.TiedModel
import Verif.ParSim.TiedProps
import Verif.ParSolve.BlockLemmas
import Verif.ParSolve.BlockModel
import Verif.ParSolve.BlockProps
import Verif.ParSolve.BlockSpec
import Verif.ParSolve.Lemmas
import Verif.ParSolve.Model
import Verif.ParSolve.Props
import Verif.ParSolve.Spec
import Verif.ParSolve.SweepsProps
import Verif.ParSolve.VertexLemmas
import Verif.ParSolve.VertexProps
import Verif.ParSolve.VertexSpec
import Verif.Params.BreakLemmas
import Verif.Params.FileLemmas
import Verif.Params.Lemmas
import Verif.Params.LinesLemmas
import Verif.Params.Model
import Verif.Params.MoreProps
import Verif.Params.Print
import Verif.Params.PrintProps
import Verif.Params.Props
import Verif.Params.RegLemmas
import Verif.Params.Spec
import Verif.Pff.Model
import Verif.Pff.Props
import Verif.PropSys.Lemmas
import Verif.PropSys.Model
import Verif.PropSys.Props
import Verif.PropSys.Spec
import Verif.PtFlash.Cell
import Verif.PtFlash.CellProps
import Verif.PtFlash.Model
import Verif.PtFlash.Props
import Verif.Pvs.Lemmas
import Verif.Pvs.Model
import Verif.Pvs.Props
import Verif.PvsSwitch.Lemmas
import Verif.PvsSwitch.Model
import Verif.PvsSwitch.Props
import Verif.Pvtsol.Lemmas
import Verif.Pvtsol.Model
import Verif.Pvtsol.Props
import Verif.Pvtsol.Spec
import Verif.Reservoir.ExampleProps
import Verif.Reservoir.Lemmas
import Verif.Reservoir.Model
import Verif.Reservoir.Props
import Verif.Reservoir.Spec
import Verif.Rest.Lemmas
import Verif.Rest.Props
import Verif.Rest.Spec
import Verif.Restart.Continue
import Verif.Restart.IntFormat
import Verif.Restart.Lemmas
import Verif.Restart.Model
import Verif.Restart.Props
import Verif.RestartSim.Lemmas
import Verif.RestartSim.Model
import Verif.RestartSim.Props
import Verif.Retry.Model
import Verif.Retry.Props
import Verif.Richards.Model
import Verif.Richards.Props
import Verif.ScalarProduct.Model
import Verif.ScalarProduct.Props
import Verif.Setup.Model
import Verif.Setup.Props
import Verif.Solver.Adapter
import Verif.Solver.AdapterProps
import Verif.Solver.Model
import Verif.Solver.Props
import Verif.StepSize.Model
import Verif.StepSize.Props
import Verif.Storage.Model
import Verif.Storage.Phase
import Verif.Storage.PhaseProps
import Verif.Storage.Props
import Verif.Sync.Lemmas
import Verif.Sync.Model
import Verif.Sync.NativeProps
import Verif.Sync.Props
import Verif.Sync.Spec
import Verif.Tasklets.Barrier
import Verif.Tasklets.Counts
import Verif.Tasklets.Lemmas
import Verif.Tasklets.Measure
import Verif.Tasklets.Model
import Verif.Tasklets.Progress
import Verif.Tasklets.Props
import Verif.Tasklets.Spec
import Verif.Tasklets.Steps
import Verif.ThreadSim.Model
import Verif.ThreadSim.Props
import Verif.ThreadSim.Spec
import Verif.Threads.Model
import Verif.Threads.Props
import Verif.TimeInt.Model
import Verif.TimeInt.Props
import Verif.TimeLoop.EndLemmas
import Verif.TimeLoop.Lemmas
import Verif.TimeLoop.Model
import Verif.TimeLoop.Props
import Verif.TimeLoop.Spec
import Verif.Timer.Model
import Verif.Timer.Props
import Verif.Todd.Lemmas
import Verif.Todd.Model
import Verif.Todd.Props
import Verif.Tpfa.Deriv
import Verif.Tpfa.Lemmas
import Verif.Tpfa.Model
import Verif.Tpfa.Props
import Verif.TpfaLife.Model
import Verif.TpfaLife.Props
import Verif.Transfer.Model
import Verif.Transfer.Props
import Verif.Util.Chars
import Verif.Vcfv.ColumnProps
import Verif.Vcfv.GeomModel
import Verif.Vcfv.GeomProps
import Verif.Vcfv.HexProps
import Verif.Vcfv.Integrals
import Verif.Vcfv.Model
import Verif.Vcfv.P1Props
import Verif.Vcfv.Plane
import Verif.Vcfv.PlaneProps
import Verif.Vcfv.Space
import Verif.Vcfv.SpaceProps
import Verif.Vcfv.Spec
import Verif.Volumes.Model
import Verif.Volumes.Props
import Verif.Volumes.Spec
import Verif.Vtk.FacesModel
import Verif.Vtk.FacesProps
import Verif.Vtk.Fields
import Verif.Vtk.FieldsProps
import Verif.Vtk.Invariant
import Verif.Vtk.Lemmas
import Verif.Vtk.Model
import Verif.Vtk.Props
import Verif.Vtk.RestartProps
import Verif.Vtk.Switches
import Verif.Vtk.SwitchesProps
import Verif.Weights.Model
import Verif.Weights.Props
