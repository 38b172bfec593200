import Verif.Model.Aero
import Verif.Model.Aircraft
import Verif.Model.AircraftJson
import Verif.Model.Book
import Verif.Model.Cli
import Verif.Model.Continuity
import Verif.Model.Cpacs
import Verif.Model.CpacsProgram
import Verif.Model.FileIO
import Verif.Model.Geometry
import Verif.Model.JsonProgram
import Verif.Model.Lattice
import Verif.Model.Native
import Verif.Model.NativeInts
import Verif.Model.NativeProgram
import Verif.Model.Normals
import Verif.Model.Plot
import Verif.Model.PrePanel
import Verif.Model.Program
import Verif.Model.Py
import Verif.Model.Run
import Verif.Model.SegmentAxes
import Verif.Model.Session
import Verif.Model.Settings
import Verif.Model.Setup
import Verif.Model.State
import Verif.Model.Strips
import Verif.Model.Vec
import Verif.Lemmas.Accept
import Verif.Lemmas.AcceptWing
import Verif.Lemmas.Aero
import Verif.Lemmas.Book
import Verif.Lemmas.Control
import Verif.Lemmas.CpacsImport
import Verif.Lemmas.DeviceEdge
import Verif.Lemmas.Geometry
import Verif.Lemmas.Lattice
import Verif.Lemmas.Native
import Verif.Lemmas.NativeInts
import Verif.Lemmas.NativeLattice
import Verif.Lemmas.NativeRun
import Verif.Lemmas.NativeSteps
import Verif.Lemmas.Normals
import Verif.Lemmas.PrePanel
import Verif.Lemmas.Program
import Verif.Lemmas.Renamed
import Verif.Lemmas.Run
import Verif.Lemmas.Settings
import Verif.Lemmas.Spans
import Verif.Lemmas.State
import Verif.Lemmas.StripChord
import Verif.Lemmas.StripTiling
import Verif.Lemmas.Strips
import Verif.Lemmas.Turned
import Verif.Lemmas.WingControls
import Verif.Props.Accept
import Verif.Props.Aero
import Verif.Props.Aircraft
import Verif.Props.AircraftAccept
import Verif.Props.AircraftFile
import Verif.Props.AircraftJson
import Verif.Props.Book
import Verif.Props.Cli
import Verif.Props.Continuity
import Verif.Props.Control
import Verif.Props.ControlWing
import Verif.Props.Cpacs
import Verif.Props.CpacsControls
import Verif.Props.CpacsFinish
import Verif.Props.CpacsImportable
import Verif.Props.CpacsProject
import Verif.Props.CpacsRun
import Verif.Props.Deflection
import Verif.Props.Doubled
import Verif.Props.FileIO
import Verif.Props.Fin
import Verif.Props.FlightConditions
import Verif.Props.FromAbove
import Verif.Props.Geometry
import Verif.Props.GivenTwice
import Verif.Props.Invariance
import Verif.Props.JsonFaults
import Verif.Props.JsonProgram
import Verif.Props.JsonSaved
import Verif.Props.Lattice
import Verif.Props.MovedFiles
import Verif.Props.Names
import Verif.Props.Native
import Verif.Props.NativeInts
import Verif.Props.NativeProject
import Verif.Props.NewProject
import Verif.Props.NoLoads
import Verif.Props.Normals
import Verif.Props.NormalsExamples
import Verif.Props.NormalsMirror
import Verif.Props.OnePanel
import Verif.Props.OpenWake
import Verif.Props.PanelOrder
import Verif.Props.Plot
import Verif.Props.PlotRun
import Verif.Props.PlotShows
import Verif.Props.PrePanel
import Verif.Props.Program
import Verif.Props.ProgramExamples
import Verif.Props.ProgramFiles
import Verif.Props.References
import Verif.Props.Rerun
import Verif.Props.Run
import Verif.Props.RunExamples
import Verif.Props.RunFiles
import Verif.Props.RunFinish
import Verif.Props.RunInvariance
import Verif.Props.RunMirror
import Verif.Props.RunMoved
import Verif.Props.RunRotated
import Verif.Props.RunScaled
import Verif.Props.RunSymmetry
import Verif.Props.SegmentNormals
import Verif.Props.Session
import Verif.Props.Settings
import Verif.Props.SettingsFile
import Verif.Props.Setup
import Verif.Props.State
import Verif.Props.Strips
import Verif.Props.Superposition
import Verif.Props.SurfaceCases
import Verif.Props.SurfaceFiles
import Verif.Props.Surfaces
import Verif.Props.SymmetricFiles
import Verif.Props.Tailplane
import Verif.Props.TurnedFiles
import Verif.Props.TwistedRun
import Verif.Props.UpsideDown
import Verif.Props.WingOrder
import Verif.Props.WingOrderProject
import Verif.Audit
