import Verif.AngInt.Model
import Verif.AngInt.Props
import Verif.Assemble.Analytic
import Verif.Assemble.AnalyticClaims
import Verif.Assemble.AnalyticStar
import Verif.Assemble.Claims
import Verif.Assemble.Claims2
import Verif.Assemble.Interp
import Verif.Assemble.Lemmas
import Verif.Assemble.Model
import Verif.Assemble.Numbers
import Verif.Assemble.Total
import Verif.Assemble.Uncut
import Verif.Cheby.Lemmas
import Verif.Cheby.Model
import Verif.Cheby.Props
import Verif.Cmp.Model
import Verif.Cmp.Props
import Verif.Combos.Exact
import Verif.Combos.Model
import Verif.Combos.Props
import Verif.Common
import Verif.CommonLemmas
import Verif.Comparer.Claims
import Verif.Comparer.Model
import Verif.Comparer.Profiles
import Verif.Coupling.Complex
import Verif.Coupling.Example
import Verif.Coupling.Lemmas
import Verif.Coupling.Model
import Verif.Coupling.Norms
import Verif.Coupling.Pipeline
import Verif.Coupling.Pipeline2
import Verif.Coupling.Pipeline3
import Verif.Coupling.Pipeline4
import Verif.Coupling.PipelineModel
import Verif.Coupling.Props
import Verif.Coupling.Props2
import Verif.Coupling.Relabel
import Verif.Coupling.Scaled
import Verif.Coupling.Scaling
import Verif.Coupling.Spec
import Verif.Coupling.Value
import Verif.Coupling.Value2
import Verif.Coupling.Value3
import Verif.Coupling.Value4
import Verif.Debug.Model
import Verif.Debug.Props
import Verif.Disc.Lemmas
import Verif.Disc.Model
import Verif.Disc.Props
import Verif.Disc.Spec
import Verif.Disc.Uneven
import Verif.Figs.Domain
import Verif.Figs.Model
import Verif.Figs.Threshold
import Verif.Fornberg.Lagrange
import Verif.Fornberg.Lemmas
import Verif.Fornberg.Model
import Verif.Fornberg.Props
import Verif.Freq.Model
import Verif.Freq.Props
import Verif.Freq.Spec
import Verif.Grid.Model
import Verif.Grid.Props
import Verif.Hist.Density
import Verif.Hist.Edges
import Verif.Hist.Model
import Verif.Hist.Props
import Verif.Hist.Search
import Verif.Hist.Spec
import Verif.Hough.Azimuth
import Verif.Hough.Field
import Verif.Hough.Handler
import Verif.Hough.Lemmas
import Verif.Hough.Model
import Verif.Hough.Props
import Verif.Hough.Range
import Verif.Hough.Second
import Verif.Hough.Select
import Verif.Hough.Spec
import Verif.Inlist.Model
import Verif.Inlist.Props
import Verif.Inlist.Spec
import Verif.Inlist.Typing
import Verif.InputGen.Exact
import Verif.InputGen.Model
import Verif.InputGen.Props
import Verif.Jacky.Auto
import Verif.Jacky.Claims
import Verif.Jacky.Counts
import Verif.Jacky.Ieee
import Verif.Jacky.Like
import Verif.Jacky.Log
import Verif.Jacky.LogClaims
import Verif.Jacky.LogModel
import Verif.Jacky.LogMore
import Verif.Jacky.LogOdd
import Verif.Jacky.LogSpec
import Verif.Jacky.Model
import Verif.Jacky.More
import Verif.Jacky.Search
import Verif.Jacky.Sharp
import Verif.Jacky.SharpModel
import Verif.Jacky.Spec
import Verif.Kernels.Claims
import Verif.Kernels.Combine
import Verif.Kernels.Model
import Verif.Kernels.Radial
import Verif.Kernels.Rows
import Verif.Kernels.Wrong
import Verif.Ld.Lemmas
import Verif.Ld.Model
import Verif.Ld.Props
import Verif.Load.Basic
import Verif.Load.Claims
import Verif.Load.Dirs
import Verif.Load.Folders
import Verif.Load.FoldersProps
import Verif.Load.Info
import Verif.Load.InfoModel
import Verif.Load.Known
import Verif.Load.Loads
import Verif.Load.Model
import Verif.Load.SI
import Verif.Load.Search
import Verif.Load.Units
import Verif.Mask.Exact
import Verif.Mask.Model
import Verif.Mask.Props
import Verif.Norm.Model
import Verif.Norm.Props
import Verif.NumDeriv.Model
import Verif.NumDeriv.Props
import Verif.NumDeriv.Props2
import Verif.NumInt.Lemmas
import Verif.NumInt.Lemmas2
import Verif.NumInt.Lemmas3
import Verif.NumInt.Model
import Verif.NumInt.Parallel
import Verif.NumInt.Props
import Verif.NumInt.Race
import Verif.NumInt.Spec
import Verif.Opts.Init
import Verif.Opts.Model
import Verif.Opts.Props
import Verif.Pairing.Lemmas
import Verif.Pairing.Model
import Verif.Pairing.Props
import Verif.Poll.Claims
import Verif.Poll.Model
import Verif.Poly.Centre
import Verif.Poly.Lemmas
import Verif.Poly.Model
import Verif.Poly.Props
import Verif.Poly.Spec
import Verif.Post.Claims
import Verif.Post.Columns
import Verif.Post.Counts
import Verif.Post.Files
import Verif.Post.Model
import Verif.Post.Overview
import Verif.Post.Sets
import Verif.PreCheck.Exact
import Verif.PreCheck.Model
import Verif.PreCheck.Props
import Verif.ProfRun.KernClaims
import Verif.ProfRun.KernFig
import Verif.ProfRun.KernModel
import Verif.ProfRun.Legends
import Verif.ProfRun.Names
import Verif.ProfRun.Run
import Verif.ProfRun.Terms
import Verif.Radial.Model
import Verif.Radial.Props
import Verif.Radial.Spec
import Verif.Round.Basic
import Verif.Round.Claims
import Verif.Round.Converge
import Verif.Round.Disc
import Verif.Round.Double
import Verif.Round.NumInt
import Verif.Round.Quad
import Verif.Round.Sums
import Verif.Runner.Claims
import Verif.Runner.Model
import Verif.Runner.Options
import Verif.Runner.Paths
import Verif.Runner.Run
import Verif.Runner.Solve
import Verif.Runner.Switches
import Verif.Select.Model
import Verif.Select.Props
import Verif.Select.Props2
import Verif.Stab.Char
import Verif.Stab.FP
import Verif.Stab.Harm
import Verif.Stab.Hurwitz
import Verif.Stab.Lemmas
import Verif.Stab.Model
import Verif.Stab.Props
import Verif.Stab.Ratio
import Verif.Stab.Spec
import Verif.Stab.Stat
import Verif.Store.Again
import Verif.Store.C169
import Verif.Store.C51
import Verif.Store.C71
import Verif.Store.C72
import Verif.Store.H5
import Verif.Store.Names
import Verif.Store.Save
import Verif.Store.SaveLemmas
import Verif.Store.TreeKept
import Verif.Struct.Model
import Verif.Struct.Props
import Verif.Tar.Adjust
import Verif.Tar.Claims
import Verif.Tar.Claims2
import Verif.Tar.Masks
import Verif.Tar.Model
import Verif.Tar.Print
import Verif.Tar.Profile
import Verif.Tar.Zones
