import Verif.Storyboard.Examples
import Verif.LaneArith.Theorems
import Verif.Condition.TriggerTheorems
import Verif.Condition.EntityTheorems
import Verif.Condition.RewindTheorems
import Verif.Util.StringTheorems
import Verif.Util.PathTheorems
import Verif.Dat.CodecTheorems
import Verif.Replay.TimelineTheorems
import Verif.Dat.RecordingTheorems
import Verif.Replay.NavTheorems
import Verif.ParamDist.Theorems
import Verif.Params.TextTheorems
import Verif.Entities.Distance
import Verif.Router.Theorems
import Verif.AABB.Triangle
import Verif.Options.Theorems
import Verif.Config.Theorems
import Verif.Collision.ListTheorems
import Verif.Collision.BoxTheorems
import Verif.Engine.ClockTheorems
import Verif.Engine.DistanceTheorems
import Verif.Transition.Theorems
import Verif.Transition.MoreTheorems
import Verif.Geom.AngleTheorems
import Verif.Geom.LineTheorems
import Verif.Geom.SensorTheorems
import Verif.Geom.RotTheorems
import Verif.Road.ProfileTheorems
import Verif.Road.LaneTheorems
import Verif.Road.FindTheorems
import Verif.Junction.Theorems
import Verif.Semaphore.Theorems
import Verif.Signal.Theorems
import Verif.Lights.Theorems
import Verif.Control.Theorems
import Verif.Traj.PolyTheorems
import Verif.Traj.ShapeTheorems
import Verif.Traj.FilterTheorems
import Verif.Traj.ClothoidTheorems
import Verif.Traj.NurbsTheorems
import Verif.Profile.Theorems
import Verif.Move.Theorems
import Verif.Path.Theorems
import Verif.Transition.LaneChange
import Verif.Curve.Theorems
import Verif.Spring.Actions
import Verif.Sync.Theorems
import Verif.Vehicle.Theorems
import Verif.Acc.Theorems
import Verif.Measure.Theorems
import Verif.Ground.Theorems
import Verif.Follow.Theorems
import Verif.Osi.UdpTheorems
import Verif.Osi.Theorems
import Verif.Osi.CropTheorems
import Verif.Expr.Theorems
import Verif.Expr.StringTheorems
import Verif.Expr.WordTheorems
import Verif.Expr.BalanceTheorems
import Verif.Expr.PrintTheorems
import Verif.Var.Theorems
import Verif.File.Theorems
import Verif.Udp.Theorems
import Verif.Tc.Theorems
import Verif.Lib.Theorems
import Verif.Lib.Objects
import Verif.Nd.LaneTheorems
import Verif.Alks.Detect
import Verif.R157.Loop
import Verif.Rm.Theorems
import Verif.Rm.Ids
import Verif.Rm.Modes
import Verif.Rm.Look
import Verif.Env.Theorems
import Verif.Env.Time
import Verif.Sloppy.Theorems
import Verif.Ref.Theorems
import Verif.Loom.Theorems
import Verif.FollowRoute.Theorems
import Verif.Swarm.Theorems
import Verif.Swarm.PlaceTheorems
import Verif.Swarm.Ellipse
import Verif.Swarm.Pool
import Verif.Place.LaneTheorems
import Verif.Place.OriTheorems
import Verif.Place.ModeTheorems
import Verif.Place.ReadTheorems
import Verif.Spring.EntityTheorems
import Verif.Storyboard.Domains
import Verif.Override.Theorems
import Verif.Log.Theorems
import Verif.Catalog.Theorems
import Verif.Limit.Theorems
import Verif.Mark.Theorems
import Verif.Closest.Theorems
import Verif.Clock.Theorems
import Verif.Interact.Theorems
import Verif.Choice.Theorems
import Verif.FreeDist.Theorems
import Verif.FreeDist.RoadTheorems
import Verif.Entities.PointDist
import Verif.Visible.Theorems
import Verif.Teleport.Theorems
import Verif.Geom.Sector
import Verif.Offroad.Theorems
