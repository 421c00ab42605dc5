import Verif.Cache.Props
import Verif.NpCache.Props
import Verif.Units.Props
import Verif.Par.Basic
import Verif.Par.Threads
import Verif.Catalogue.Props
import Verif.Periodic.Props
import Verif.Binning.Props
import Verif.Binning.EllProps
import Verif.Binning.Kernel
import Verif.Binning.Parallel
import Verif.Shapes.Props
import Verif.Stats.SplitProps
import Verif.Stats.ProfileProps
import Verif.Stats.HistProps
import Verif.Stats.ChiProps
import Verif.Stats.EpsProps
import Verif.Stats.ErrorProps
import Verif.Fits.CheckProps
import Verif.Fits.FitProps
import Verif.Fits.QualityProps
import Verif.Fits.Examples
import Verif.Gadget.FofProps
import Verif.Gadget.SnapProps
import Verif.Gadget.BlockProps
import Verif.Gadget.SnapExamples
import Verif.Stored.Crash
import Verif.Mock.HaloProps
import Verif.Mock.PointProps
import Verif.Misc.LabelProps
import Verif.Misc.Calls
import Verif.Api.Model
import Verif.Api.Spec
import Verif.Api.Lemmas
import Verif.Api.Props
import Verif.Api.DensProps
import Verif.Cache.Mpi
import Verif.Cache.Settings
import Verif.Api.Gadget
import Verif.Api.GadgetProps
import Verif.Api.Alias
import Verif.Shapes.Outcome
import Verif.Shapes.Scaling
import Verif.Api.Shapes
import Verif.Api.ShapesProps
import Verif.Cache.Key
import Verif.Fits.Structured
import Verif.Fits.Plot
import Verif.Api.Viz
import Verif.Api.VizProps
import Verif.Api.Ell
import Verif.Api.EllProps
import Verif.Api.Kernel
import Verif.Api.KernelProps
import Verif.Shapes.Spectral
import Verif.Shapes.Rotation
import Verif.Cosmo.Model
import Verif.Cosmo.Props
import Verif.Stats.ShapeCurve
import Verif.Api.Session
import Verif.Stats.BootProps
import Verif.Plots.Model
import Verif.Plots.NameProps
import Verif.Plots.HistProps
import Verif.Shapes.Velocity
import Verif.Api.Velocity
import Verif.Gadget.Blocks
import Verif.Gadget.BlocksProps
import Verif.Gadget.Layouts
import Verif.Gadget.LayoutExamples
import Verif.Api.Refuse
import Verif.Api.Centres
import Verif.Shapes.Round
import Verif.Api.RoundProps
import Verif.Misc.Ahf
import Verif.Misc.Axes
import Verif.Api.Info
import Verif.Stats.SplitV
import Verif.Stats.KS
import Verif.Periodic.Reflect
import Verif.Api.Formats
import Verif.Shapes.Similar
import Verif.Api.Moved
import Verif.Api.Renumber
import Verif.Api.Scaled
import Verif.Api.Axes
import Verif.Api.OutUnits
import Verif.Round.Model
import Verif.Round.Lemmas
import Verif.Round.Binary
import Verif.Round.Props
import Verif.Round.CentreProps
import Verif.Round.ShellProps
import Verif.Catalogue.Int32
import Verif.Shapes.Tolerance
import Verif.Cache.Impure
import Verif.Gadget.CachedUnits
import Verif.Api.Locality
import Verif.Cache.Counters
import Verif.Api.Open
import Verif.Round.Unwrap
import Verif.Shapes.Sampling
import Verif.Api.Sampling
import Verif.Cache.Locks
import Verif.Shapes.Within
import Verif.Api.Within
import Verif.Shapes.Boost
import Verif.Round.TotalMass
import Verif.Round.MeanVelocity
import Verif.Api.Ellipticity
import Verif.Api.Mode
import Verif.Stats.Pinned
import Verif.Mock.ShellCounts
import Verif.Api.ModeDepth
import Verif.Api.Flag
import Verif.Api.Whole
import Verif.Api.WholeVel
import Verif.Mock.Enclosed
import Verif.Mock.Uniform
import Verif.Mock.Arguments
import Verif.Shapes.Stratified
import Verif.Shapes.Homogeneous
import Verif.Shapes.Shells
import Verif.Shapes.Reduced
import Verif.Mock.Planar
import Verif.Round.Ratios
import Verif.Round.WholeShape
import Verif.Round.TrueCentre
import Verif.Round.Inexact
import Verif.Mock.Isotropic
import Verif.Mock.ShellLaw
import Verif.Mock.Seeds
import Verif.Shapes.Limit
import Verif.Mock.Recover
import Verif.Round.EdgeTest
import Verif.Round.LocalShape
import Verif.Mock.Profile
import Verif.Round.AtEdge
import Verif.Shapes.Determined
import Verif.Shapes.Continuity
import Verif.Binning.Continuity
import Verif.Round.Precision
import Verif.Api.Continuity
import Verif.Api.ContinuityDens
import Verif.Api.ContinuityCentres
import Verif.Api.ContinuityMode
import Verif.Api.ContinuityShapes
import Verif.Api.ContinuityBrink
import Verif.Round.Internal
import Verif.Api.Agree
import Verif.Api.AgreeFiles
import Verif.Api.AgreeBins
import Verif.Api.Margin
import Verif.Api.Neighbours
import Verif.Api.NeighbourShells
import Verif.Round.Clear
import Verif.Round.Mirror
import Verif.Round.Entry
import Verif.Api.NeighbourFiles
import Verif.Round.ShellSingle
import Verif.Round.CentreImage
import Verif.Round.Order
import Verif.Round.DensityValue
