import Verif.Py
import Verif.PyLemmas
import Verif.Eumopps.Checksum.Props
import Verif.Eumopps.Reference.Props
import Verif.Eumopps.Placeholder.Props
import Verif.Eumopps.Operation.Props
import Verif.Eumopps.Run.Props
import Verif.Eumopps.Catalogue.Props
import Verif.Eumopps.Build.Props
import Verif.Calendar
import Verif.Eumopps.Time.Props
import Verif.Float32
import Verif.Months
import Verif.Eumopps.Periods.Props
import Verif.Eustace.Dates.Props
import Verif.Eumopps.Names.Props
import Verif.Eumopps.Search.Props
import Verif.Eustace.Flags.Props
import Verif.Eustace.Smooth.Props
import Verif.Eustace.Percentiles.Props
import Verif.Eustace.Mesh.Topology
import Verif.Eustace.Locator.Design
import Verif.Eustace.Linear.Props
import Verif.Eustace.Components.Convergence
import Verif.Eustace.Components.Uncertainty
import Verif.Eustace.Qinv.Cancel
import Verif.Eustace.CostFunction.Cancel
import Verif.Eustace.SphereSpde.Derivative
import Verif.Eustace.SphereView.Locations
import Verif.Eustace.SphereView.Files
import Verif.Eustace.Lattice.Derivative
import Verif.Eustace.Geography.Props
import Verif.Eustace.Elements.HyperProps
import Verif.Eustace.Elements.DesignProps
import Verif.Eustace.Elements.Trees
import Verif.Eustace.Elements.Pos
import Verif.Eustace.Elements.PriorProps
import Verif.Eustace.Elements.DerivativeProps
import Verif.Eustace.Elements.Values
import Verif.Eustace.Dates.DecimalYear
import Verif.Eustace.Storage.Props
import Verif.Eustace.RawBinary.Props
import Verif.Eustace.RawBinary.Pointers
import Verif.Eustace.CppReader.Examples
import Verif.Eustace.ObsSource.Props
import Verif.Eustace.ObsSource.Breaks
import Verif.Eustace.ObsSource.Stations
import Verif.Eustace.ObsSource.Connector
import Verif.Eustace.Satgrid.Axis
import Verif.Eustace.Satgrid.Props
import Verif.Eustace.Satgrid.Held
import Verif.Eustace.Satgrid.Iris
import Verif.Eustace.Diagnostic.Run
import Verif.Eustace.Regrid.Outputs
import Verif.Eustace.AnnualBatch.Outputs
import Verif.Eumopps.Persist.JsonProps
import Verif.Eumopps.Persist.NetcdfEntries
import Verif.Eustace.BreakPoints.Element
import Verif.Eustace.Definitions.Props
import Verif.Eustace.Projector.Latent
import Verif.Eustace.Merge.Refuse
import Verif.Eustace.Ice.Cases
import Verif.Eustace.SurfaceAir.Runs
import Verif.Eustace.SurfaceAir.Lakes
import Verif.Eustace.Format.Names
import Verif.Eustace.Stations.Props
import Verif.Eustace.Submit.Violations
import Verif.Eustace.Submit.Suites
import Verif.Eustace.Insitu.RunDay
import Verif.Eustace.Insitu.OceanProps
import Verif.Eustace.Masking.Source
import Verif.Eustace.Descriptor.Period
import Verif.Eustace.MonthlyBatch.Outputs
import Verif.Eustace.MonthInput.Solve
import Verif.Eustace.Optimise.SplitProps
import Verif.Eustace.Optimise.View
import Verif.Eustace.Optimise.Inputs
import Verif.Eustace.MeshFile.Props
import Verif.Eustace.ObsCount.Props
import Verif.Eustace.OptimiseJobs.Props
import Verif.Eustace.SatgridFile.Props
import Verif.Eumopps.Version.Props
import Verif.Eustace.StationFiles.Findings
import Verif.Eustace.Descriptor.Bias
import Verif.Eustace.BreakPoints.Extract
import Verif.Eustace.ParseDoc.Tables
import Verif.Eustace.HadCRUT.Props
import Verif.Eustace.Geometry.Violations
import Verif.Eustace.Samples.Violations
import Verif.Eustace.Solver.Violations
import Verif.Eustace.Fit.Violations
import Verif.Eustace.Prepare.Chain
import Verif.Eustace.Prepare.Series
import Verif.Eustace.Projector.LatentDays
import Verif.Eustace.OceanModel.Props
import Verif.Eustace.LandModel.Props
import Verif.Eustace.LandSun.Dates
import Verif.Eustace.LandSun.Months
import Verif.Eustace.LandSun.Props
import Verif.Eustace.LandSun.Meridian
import Verif.Eustace.LandMask.Props
import Verif.Eustace.LandFiles.Dates
import Verif.Eustace.LandFiles.Props
import Verif.Eustace.RawScript.Props
import Verif.Eustace.SatgridJobs.Props
import Verif.Eustace.EnsureDir.Props
import Verif.Eustace.IceRun.Props
import Verif.Eustace.EnsureDir.Checked
import Verif.Eustace.Qinv.Marginal
import Verif.Eustace.MaskDirs.Props
import Verif.Eustace.FlagJobs.Props
import Verif.Eustace.FlagJobs.Months
import Verif.Eustace.FlagStages.Props
import Verif.Eustace.FlagStages.Scripts
import Verif.Eustace.FlagStages.Ends
import Verif.Eustace.Elements.Calendar
