import Verif.Props.Interval
import Verif.Props.FreeSpace
import Verif.Props.Polygon
import Verif.Props.Sweep
import Verif.Props.Mesh
import Verif.Props.MeshConstants
import Verif.Props.Roadmap
import Verif.Props.Search
import Verif.Props.Nearest
import Verif.Props.Plan
import Verif.Props.Shape
import Verif.Props.Connect
import Verif.Props.MultiBody
import Verif.Props.Interp
import Verif.Props.TFE
import Verif.Props.Planner2D
import Verif.Props.KC
import Verif.Props.Separation
import Verif.Props.Ompl
import Verif.Props.OmplPlan
import Verif.Props.Planner3D
import Verif.Props.Sweep3D
import Verif.Props.Plan3DWitness
import Verif.Props.Slices3D
import Verif.Props.ProbPlanner
import Verif.Props.ProbWitness
import Verif.Props.Csv
import Verif.Props.Settings
import Verif.Props.Config
import Verif.Props.Grid
import Verif.Props.Grown
import Verif.Props.Grown3D
import Verif.Props.ProbCheck
import Verif.Props.Enclose3D
import Verif.Props.Enclose2D
import Verif.Props.MVCE
import Verif.Props.Convex
import Verif.Props.Collision
import Verif.Props.Kinematics
import Verif.Props.Instances
import Verif.Props.Setup
import Verif.Props.PathClear
import Verif.Props.PathWitness
import Verif.Props.Escape
import Verif.Props.PathClear3D
import Verif.Props.PathWitness3D
import Verif.Props.Disc
import Verif.Props.Rounded
import Verif.Props.PlanTime
import Verif.Props.ProbRun
import Verif.Props.InterpReport
import Verif.Props.Ball
import Verif.Props.KCSafe
import Verif.Props.ProbPath
import Verif.Props.PathBodies
import Verif.Props.OmplSession
import Verif.Props.AngleAxis
import Verif.Props.LinkDiscs
import Verif.Props.LinkBalls
import Verif.Props.LinkMotion
import Verif.Props.Examples
import Verif.Props.Demo
import Verif.Props.DemoWitness
import Verif.Props.DemoProb
import Verif.Props.DemoProbWitness
import Verif.Props.DemoSafe
import Verif.Props.Routines
import Verif.Props.DemoOmpl
import Verif.Props.Bench
import Verif.Props.BenchWitness
