import Verif.Params.Props
import Verif.CFunction.Props
import Verif.GridData.Props
import Verif.IndexedExp.InvertersProps
import Verif.IndexedExp.SymmetrizeProps
import Verif.IndexedExp.NamesProps
import Verif.IndexedExp.LeviCivitaProps
import Verif.FD.CoeffsProps
import Verif.Helpers.FunctionalProps
import Verif.FD.NamesProps
import Verif.FD.PipelineProps
import Verif.MoL.ButcherProps
import Verif.MoL.AdamsBashforthProps
import Verif.MoL.DictProps
import Verif.Grid.IndexProps
import Verif.CSE.PostProps
import Verif.CSE.PreProps
import Verif.Sympy.Tree
import Verif.SIMD.DeclaredProps
import Verif.SIMD.ConvertedProps
import Verif.Loop.Props
import Verif.Loop.SimpleProps
import Verif.SuperB.CharesProps
import Verif.SuperB.HaloProps
import Verif.SuperB.NetworkProps
import Verif.Equations.FourMetricProps
import Verif.Equations.BoostProps
import Verif.Equations.RotationProps
import Verif.Equations.MinMaxProps
import Verif.Equations.RiemannProps
import Verif.Equations.JacobiansProps
import Verif.BHaH.CheckpointProps
import Verif.Helpers.FileUpdaterProps
import Verif.Helpers.CacheProps
import Verif.Helpers.ParallelProps
import Verif.Helpers.InlineProps
import Verif.BHaH.Parfile
import Verif.BHaH.ParfileProps
import Verif.BHaH.ParfileGen
import Verif.BHaH.ParfileGenProps
import Verif.BHaH.ParfileRoundTrip
import Verif.RefMetric.Coords
import Verif.RefMetric.CoordsProps
import Verif.RefMetric.CoordsClaims
import Verif.RefMetric.Hatted
import Verif.RefMetric.HattedProps
import Verif.CurviBC.Model
import Verif.CurviBC.Lists
import Verif.CurviBC.Partition
import Verif.CurviBC.Apply
import Verif.CurviBC.Claims
import Verif.CurviBC.Eigen
import Verif.CurviBC.EigenProps
import Verif.CurviBC.Fold
import Verif.CurviBC.FoldTP
import Verif.CurviBC.EigenClaims
import Verif.CurviBC.PartnerClaims
import Verif.CurviBC.Radiation
import Verif.CurviBC.RadiationProps
import Verif.CurviBC.RadiationClaims
import Verif.CurviBC.Bounds
import Verif.BSSN.Model
import Verif.BSSN.Geometry
import Verif.BSSN.Calculus
import Verif.BSSN.Algebra
import Verif.BSSN.Fields
import Verif.BSSN.Ricci
import Verif.BSSN.Flat
import Verif.BSSN.RoundTrip
import Verif.BSSN.RhsModel
import Verif.BSSN.Conformal
import Verif.BSSN.Physical
import Verif.BSSN.Constraints
import Verif.BSSN.Evolution
import Verif.BSSN.Claims
import Verif.BSSN.LambdaAlgebra
import Verif.BSSN.LambdaEvol
import Verif.BSSN.Algebraic
import Verif.BSSN.GaugeModel
import Verif.BSSN.EvolClaims
import Verif.CodeGen.Claims
import Verif.CodeGen.Kernel
import Verif.CodeGen.KernelLemmas
import Verif.CodeGen.KernelClaims
import Verif.CodeGen.KernelFn
import Verif.CodeGen.KernelFnClaims
import Verif.Wave.Radial
import Verif.Wave.Model
import Verif.Wave.Claims
import Verif.Initial.ConfFlat
import Verif.Initial.Poly
import Verif.Initial.Model
import Verif.Initial.BowenYork
import Verif.Initial.Claims
import Verif.Initial.BrillLindquist
import Verif.Initial.PolyCheck
import Verif.Initial.Jets
import Verif.Initial.Spherical
import Verif.Initial.SphCalc
import Verif.Initial.KerrSchildAlg
import Verif.Initial.UIUCAlg
import Verif.Initial.TrumpetAlg
import Verif.Initial.Trumpet
import Verif.Initial.KerrSchild
import Verif.Initial.UIUC
import Verif.Initial.SphClaims
import Verif.BSSN.Psi4Model
import Verif.BSSN.Psi4
import Verif.BSSN.Tetrad
import Verif.BSSN.Psi4Claims
import Verif.Hydro.Model
import Verif.Hydro.Spacetime
import Verif.Hydro.Algebra
import Verif.Hydro.Laws
import Verif.Hydro.Claims
import Verif.Horizon.Model
import Verif.Horizon.Spec
import Verif.Horizon.Expansion
import Verif.Horizon.Claims
import Verif.Horizon.FromADM
import Verif.Horizon.BlackHoles
import Verif.SWSH.Model
import Verif.SWSH.Spec
import Verif.SWSH.Coeff
import Verif.SWSH.Integral
import Verif.SWSH.Closed
import Verif.SWSH.Ladder
import Verif.SWSH.Props
import Verif.SWSH.Ortho
import Verif.SWSH.DecompModel
import Verif.SWSH.Decomp
import Verif.TOV.Model
import Verif.TOV.Radial
import Verif.TOV.Static
import Verif.TOV.Star
import Verif.TOV.Claims
import Verif.TOV.Exists
import Verif.TOV.SolveModel
import Verif.TOV.Loop
import Verif.TOV.Interp
import Verif.TOV.SolveClaims
import Verif.TP.Claims
import Verif.TP.CoordClaims
import Verif.TP.EqClaims
import Verif.TP.InterpClaims
import Verif.TP.SolveClaims
import Verif.TP.FDClaims
import Verif.Grids.TimestepClaims
import Verif.Reader.GridClaims
import Verif.Reader.Nearest
import Verif.Diag.Output
import Verif.Precompute.Claims
import Verif.Thorn.Claims
import Verif.Thorn.Files
import Verif.Thorn.Reads
import Verif.Elliptic.Model
import Verif.Elliptic.Claims
import Verif.Elliptic.Norm
import Verif.Elliptic.NormClaims
import Verif.Diag.Progress
import Verif.SuperB.Inner
import Verif.SuperB.InnerProps
import Verif.SuperB.InnerRounds
import Verif.SuperB.InnerClaims
import Verif.SuperB.Records
import Verif.SuperB.RecordsClaims
import Verif.GPU.Reduce
import Verif.GPU.ReduceClaims
import Verif.GPU.Kernel
import Verif.GPU.KernelClaims
import Verif.BHaH.Defaults
import Verif.BHaH.DefaultsClaims
import Verif.BHaH.Make
import Verif.BHaH.MakeClaims
import Verif.BHaH.Heap
import Verif.BHaH.HeapClaims
import Verif.BHaH.Header
import Verif.BHaH.HeaderClaims
import Verif.BHaH.MainLoop
