import Verif.Basic.Dict
import Verif.Upgrade.Model
import Verif.Upgrade.Spec
import Verif.Upgrade.Lemmas
import Verif.Upgrade.Shipped
import Verif.Upgrade.Props
import Verif.Monitor.Model
import Verif.Monitor.Spec
import Verif.Monitor.Lemmas
import Verif.Monitor.ConsoleSpec
import Verif.Monitor.ConsoleLemmas
import Verif.Monitor.Props
import Verif.Monitor.Signal
import Verif.Monitor.SignalProps
import Verif.Names.Model
import Verif.Names.Lemmas
import Verif.Names.Props
import Verif.Workspace.FS
import Verif.Workspace.FSLemmas
import Verif.Workspace.Manager
import Verif.Workspace.Commands
import Verif.Workspace.Spec
import Verif.Workspace.Invariant
import Verif.Workspace.OpLemmas
import Verif.Workspace.CmdLemmas
import Verif.Workspace.Props
import Verif.Workspace.FrameLemmas
import Verif.Workspace.FrameProps
import Verif.Workspace.Files
import Verif.Workspace.FilesLemmas
import Verif.Workspace.FilesProps
import Verif.Reader.Model
import Verif.Reader.Lemmas
import Verif.Reader.Props
import Verif.Reader.Dataset
import Verif.Reader.DatasetProps
import Verif.Conf.Model
import Verif.Conf.Props
import Verif.Beams.Model
import Verif.Beams.Props
import Verif.Stack.Gathering
import Verif.Stack.GatheringProps
import Verif.Stack.Masking
import Verif.Stack.MaskingProps
import Verif.Signal.DFT
import Verif.Signal.Range
import Verif.Signal.RangeProps
import Verif.Azimuth.Model
import Verif.Azimuth.Props
import Verif.Multilook.Model
import Verif.Multilook.Props
import Verif.Process.Model
import Verif.Process.Rel
import Verif.Process.Control
import Verif.Process.Spec
import Verif.Process.Order
import Verif.Process.Ids
import Verif.Process.Seg
import Verif.Process.Cancel
import Verif.Process.Use
import Verif.Process.Demo
import Verif.Process.Props
import Verif.Process.History
import Verif.Process.Late
import Verif.Geo.Model
import Verif.Geo.Props
import Verif.Writer.Model
import Verif.Writer.Schema
import Verif.Writer.RecordProps
import Verif.Writer.ValueProps
import Verif.Writer.Tables
import Verif.Run.Model
import Verif.Run.Spec
import Verif.Run.Lemmas
import Verif.Run.Props
import Verif.Surface.Model
import Verif.Surface.Props
import Verif.Surface.Track
import Verif.Surface.Focus
import Verif.Surface.Witness
import Verif.Surface.Violations
import Verif.Surface.Backwards
import Verif.Surface.Between
import Verif.Figures.Model
import Verif.Figures.WriterProps
import Verif.Figures.FileProps
import Verif.Figures.PlotProps
import Verif.Calib.Model
import Verif.Calib.Doppler
import Verif.Calib.CalProps
import Verif.Calib.Sigma0
import Verif.Notebook.Model
import Verif.Notebook.Text
import Verif.Notebook.Shipped
import Verif.Notebook.Props
import Verif.Notebook.Shell
import Verif.Report.Model
import Verif.Report.Props
import Verif.Report.Size
import Verif.Web.Props
import Verif.Util.Parameter
import Verif.Util.Config
import Verif.Globals.Iso
import Verif.Globals.Model
import Verif.Globals.Props
import Verif.Util.Fetch
import Verif.Lineage.Model
import Verif.Lineage.Props
import Verif.Process.Count
import Verif.Dummy.Model
import Verif.Dummy.Props
import Verif.Conf.Declared
import Verif.Conf.DeclaredProps
import Verif.Conf.Coerced
import Verif.Conf.Options
import Verif.Conf.Derived
import Verif.Report.Outcome
import Verif.Report.OutcomeProps
import Verif.Report.Listing
import Verif.Report.ListingProps
import Verif.Chain.Model
import Verif.Chain.Echo
import Verif.Chain.Looks
import Verif.Chain.Props
import Verif.Chain.Demo
import Verif.Chain.Own
import Verif.Chain.Steering
import Verif.Chain.Single
import Verif.Chain.Settings
import Verif.Objects.Model
import Verif.Objects.Tables
import Verif.Objects.Spec
import Verif.Objects.Props
import Verif.Objects.Claims
import Verif.Objects.Demo
import Verif.Multilook.Stats
import Verif.Multilook.StatsProps
import Verif.Writer.Define
import Verif.Writer.Defs
import Verif.Writer.DefineProps
import Verif.Writer.Products
import Verif.Writer.Readback
import Verif.Writer.Sources
import Verif.Workspace.Crash
import Verif.Workspace.CrashLemmas
import Verif.Workspace.CrashProps
import Verif.Workspace.CrashRepeat
import Verif.Inputs.Pattern
import Verif.Inputs.Add
import Verif.Inputs.Props
import Verif.Inputs.Missing
import Verif.Workspace.Race
import Verif.Workspace.RaceLemmas
import Verif.Workspace.RaceProps
import Verif.Workspace.RaceFiles
import Verif.Chain.Scale
import Verif.Chain.Bound
import Verif.Surface.Meridian
import Verif.Surface.Hemisphere
import Verif.Process.Causal
import Verif.Workspace.CrashInputsProps
import Verif.Workspace.CrashConfigs
import Verif.Run.Products
import Verif.Run.Main
import Verif.Web.Json
import Verif.Workspace.CrashComplete
import Verif.Workspace.CrashConfigRepeat
import Verif.Geo.Iterative
import Verif.Web.JsonText
import Verif.Web.JsonTextProps
import Verif.Surface.Epoch
import Verif.Process.Epoch
import Verif.Process.Optional
import Verif.Web.JsonTextRead
import Verif.Upgrade.Text
import Verif.Upgrade.TextLemmas
import Verif.Upgrade.TextProps
import Verif.Whole.Model
import Verif.Whole.Refine
import Verif.Whole.Run
import Verif.Whole.Made
import Verif.Whole.Records
import Verif.Whole.Steps
import Verif.Whole.Props
import Verif.Whole.Demo
import Verif.Whole.Twin
import Verif.Whole.Echo
import Verif.Whole.Moved
import Verif.Whole.Local
import Verif.Whole.Aim
import Verif.Whole.Target
import Verif.Chain.AntennaModel
import Verif.Chain.Antenna
import Verif.Process.Every
import Verif.Whole.Every
import Verif.Lineage.Burst
import Verif.Whole.Weighted
import Verif.Chain.Renumber
import Verif.Whole.Renumber
import Verif.Whole.Region
import Verif.Process.Timely
import Verif.Whole.Grow
import Verif.Whole.Late
import Verif.Whole.Distorted
import Verif.Whole.Nadir
import Verif.Whole.Gaps
import Verif.Whole.Sight
import Verif.Whole.Product
import Verif.Whole.Times
import Verif.Whole.Rising
import Verif.Whole.History
import Verif.Args.Model
import Verif.Args.Table
import Verif.Args.Lines
import Verif.Args.Used
import Verif.Basic.Rounding
import Verif.Monitor.Rounded
import Verif.Monitor.RoundedProps
import Verif.Args.Session
import Verif.Args.SessionProps
import Verif.Args.SessionLines
import Verif.Multilook.Rounded
import Verif.Whole.Placed
import Verif.Args.Context
import Verif.Args.Spelling
import Verif.Writer.Rounded
import Verif.Whole.Twice
import Verif.Args.RunLine
import Verif.Whole.StackFile
import Verif.Whole.Superpose
import Verif.Whole.Delay
import Verif.Whole.Queue
import Verif.Whole.Failure
import Verif.Report.Info
import Verif.Workspace.RaceConfigs
import Verif.Workspace.Keep
