import Verif.Aberr.Lemmas
import Verif.Aberr.Model
import Verif.Aberr.Props
import Verif.Aberr.Spec
import Verif.AbsMag.FitProps
import Verif.AbsMag.Lemmas
import Verif.AbsMag.Model
import Verif.AbsMag.Props
import Verif.AbsMag.Rows
import Verif.Ades.Build
import Verif.Ades.Context
import Verif.Ades.Data
import Verif.Ades.Model
import Verif.Ades.Props
import Verif.Ades.Spec
import Verif.Ades.Text
import Verif.Ades.Witness
import Verif.Band.Lemmas
import Verif.Band.Model
import Verif.Band.Packaged
import Verif.Band.PackagedProps
import Verif.Band.Props
import Verif.Band.Resolve
import Verif.Band.ResolveProps
import Verif.Band.ResolveSpec
import Verif.Band.Spec
import Verif.Basic
import Verif.Cart.Model
import Verif.Cart.Props
import Verif.Catalog.Float
import Verif.Catalog.FloatProps
import Verif.Catalog.Model
import Verif.Catalog.Props
import Verif.Chunk.Lemmas
import Verif.Chunk.Model
import Verif.Chunk.Props
import Verif.Chunk.Spec
import Verif.Chunk.Vector
import Verif.Chunk.VectorProps
import Verif.Collapse.Aberr
import Verif.Collapse.AberrProps
import Verif.Collapse.Lemmas
import Verif.Collapse.MajorProps
import Verif.Collapse.Model
import Verif.Collapse.Props
import Verif.Collapse.Spec
import Verif.Cov.Model
import Verif.Cov.Props
import Verif.Dates.Lemmas
import Verif.Dates.Model
import Verif.Dates.Props
import Verif.Dc.Model
import Verif.Dc.Props
import Verif.Elements.Model
import Verif.Elements.Props
import Verif.Eph2.Lemmas
import Verif.Eph2.Model
import Verif.Eph2.Props
import Verif.Eph2.Spec
import Verif.Eval.Model
import Verif.Eval.Props
import Verif.Eval.Spec
import Verif.F64
import Verif.Fit.Model
import Verif.Fit.Props
import Verif.Fit.Spec
import Verif.Gauss.Gibbs
import Verif.Gauss.Model
import Verif.Gauss.Props
import Verif.Gauss.Ranges
import Verif.Gauss.Velocity
import Verif.Hg.Lemmas
import Verif.Hg.Model
import Verif.Hg.Predict
import Verif.Hg.Props
import Verif.Hg.Spec
import Verif.Horizons.EphProps
import Verif.Horizons.Model
import Verif.Horizons.Props
import Verif.Impact.Distance
import Verif.Impact.DistanceProps
import Verif.Impact.MeanFloat
import Verif.Impact.MeanFloatProps
import Verif.Impact.Model
import Verif.Impact.Props
import Verif.Impact.Spec
import Verif.Iod.CompleteProps
import Verif.Iod.Lemmas
import Verif.Iod.Model
import Verif.Iod.Props
import Verif.Iod.SelectProps
import Verif.Iod.Spec
import Verif.Joins.Codes
import Verif.Joins.Lemmas
import Verif.Joins.Model
import Verif.Joins.Props
import Verif.Joins.Spec
import Verif.Kep.AnomalyProps
import Verif.Kep.ConvergeProps
import Verif.Kep.Elements
import Verif.Kep.ElementsProps
import Verif.Kep.Lemmas
import Verif.Kep.Model
import Verif.Kep.Orbit
import Verif.Kep.OrbitProps
import Verif.Kep.Spec
import Verif.Lambert.Algebra
import Verif.Lambert.Complete
import Verif.Lambert.CompleteProps
import Verif.Lambert.Deriv
import Verif.Lambert.IterProps
import Verif.Lambert.Model
import Verif.Lambert.Mono
import Verif.Lambert.Near
import Verif.Lambert.Props
import Verif.Lambert.Series
import Verif.Lambert.Time
import Verif.Lambert.Transfer
import Verif.Link.Model
import Verif.Link.Props
import Verif.Lru.Lemmas
import Verif.Lru.Model
import Verif.Lru.Props
import Verif.Lru.Spec
import Verif.Lsq.CovProps
import Verif.Lsq.Model
import Verif.Lsq.Props
import Verif.Lsq.Spec
import Verif.Lsq.Step
import Verif.Lsq.StepProps
import Verif.Moid.Lemmas
import Verif.Moid.Model
import Verif.Moid.Props
import Verif.Moid.Table
import Verif.Moid.Witness
import Verif.Mpc.Lemmas
import Verif.Mpc.Model
import Verif.Mpc.Props
import Verif.Mpc.Spec
import Verif.Neocc.Lemmas
import Verif.Neocc.Model
import Verif.Neocc.Props
import Verif.Neocc.Spec
import Verif.Obs80.Float
import Verif.Obs80.FloatProps
import Verif.Obs80.Lemmas
import Verif.Obs80.Model
import Verif.Obs80.Props
import Verif.Obs80.Spec
import Verif.Od.Lemmas
import Verif.Od.Model
import Verif.Od.Props
import Verif.Od.Spec
import Verif.Oem.Model
import Verif.Oem.Props
import Verif.Oem.Spec
import Verif.Openspace.Kepler
import Verif.Openspace.KeplerProps
import Verif.Openspace.LuaProps
import Verif.Openspace.Model
import Verif.Openspace.Props
import Verif.Openspace.Spec
import Verif.OrbitClass.Model
import Verif.OrbitClass.Props
import Verif.OrbitClass.Spec
import Verif.Origin.Model
import Verif.Origin.Props
import Verif.Origin.SharedProps
import Verif.Origin.Spec
import Verif.Porkchop.ColorProps
import Verif.Porkchop.Colors
import Verif.Porkchop.Lemmas
import Verif.Porkchop.Model
import Verif.Porkchop.OrbitProps
import Verif.Porkchop.Orbits
import Verif.Porkchop.Plot
import Verif.Porkchop.PlotLemmas
import Verif.Porkchop.PlotProps
import Verif.Porkchop.Props
import Verif.Ray.Model
import Verif.Ray.Props
import Verif.Resid.Lemmas
import Verif.Resid.Model
import Verif.Resid.Props
import Verif.Ric.Model
import Verif.Ric.Props
import Verif.Rot.Cluster
import Verif.Rot.ClusterProps
import Verif.Rot.Design
import Verif.Rot.Estimate
import Verif.Rot.EstimateProps
import Verif.Rot.Exists
import Verif.Rot.FitProps
import Verif.Rot.GridProps
import Verif.Rot.Jax
import Verif.Rot.JaxProps
import Verif.Rot.Metrics
import Verif.Rot.MetricsProps
import Verif.Rot.Model
import Verif.Rot.Search
import Verif.Rot.SearchProps
import Verif.Rot.Spec
import Verif.Rot.Verdict
import Verif.Rot.VerdictProps
import Verif.Rot.Wrap
import Verif.Rot.WrapProps
import Verif.Sbdb.Model
import Verif.Sbdb.Parse
import Verif.Sbdb.ParseProps
import Verif.Sbdb.Props
import Verif.Sbdb.Spec
import Verif.Sched.IndexProps
import Verif.Sched.Lemmas
import Verif.Sched.MixinProps
import Verif.Sched.Model
import Verif.Sched.OrbitProps
import Verif.Sched.Orbits
import Verif.Sched.Props
import Verif.Sched.Spec
import Verif.Sched.TwoBody
import Verif.Scout.Model
import Verif.Scout.Props
import Verif.Scout.Spec
import Verif.Sigma.Model
import Verif.Sigma.Props
import Verif.Sigma.Transform
import Verif.Sigma.TransformProps
import Verif.Sigma.VariantProps
import Verif.Sph.GeoProps
import Verif.Sph.Model
import Verif.Sph.Props
import Verif.Sph.Site
import Verif.Sph.SiteProps
import Verif.Sph.Spec
import Verif.Sph.Unit
import Verif.Sph.UnitProps
import Verif.Spice.Body
import Verif.Spice.BodyProps
import Verif.Spice.Caches
import Verif.Spice.Lemmas
import Verif.Spice.Model
import Verif.Spice.Props
import Verif.Spice.Spec
import Verif.Spk.Model
import Verif.Spk.Props
import Verif.Spk.Spec
import Verif.Spk.Type9
import Verif.Spk.Type9Props
import Verif.Time.AddFloatProps
import Verif.Time.AstropyFloat
import Verif.Time.AstropyFloatProps
import Verif.Time.DurationFloat
import Verif.Time.DurationFloatProps
import Verif.Time.EqualsProps
import Verif.Time.Float
import Verif.Time.FloatLemmas
import Verif.Time.FloatProps
import Verif.Time.Int64
import Verif.Time.Int64Props
import Verif.Time.Iso
import Verif.Time.IsoFloat
import Verif.Time.IsoFloatProps
import Verif.Time.IsoProps
import Verif.Time.LabelFloat
import Verif.Time.LabelFloatProps
import Verif.Time.Leap
import Verif.Time.LeapFloat
import Verif.Time.LeapFloatProps
import Verif.Time.LeapLemmas
import Verif.Time.LeapProps
import Verif.Time.Lemmas
import Verif.Time.Model
import Verif.Time.Props
import Verif.Time.RescaleLemmas
import Verif.Time.RescaleProps
import Verif.Time.RescaleSpec
import Verif.Time.Spec
import Verif.Tiss.Model
import Verif.Tiss.Props
import Verif.Traj.Float
import Verif.Traj.FloatProps
import Verif.Traj.Model
import Verif.Traj.Props
import Verif.Traj.Spec
import Verif.Tri.Model
import Verif.Tri.Props
import Verif.Units.Float
import Verif.Units.FloatProps
import Verif.Units.Model
import Verif.Units.Props
import Verif.Univ.Converge
import Verif.Univ.ConvergeProps
import Verif.Univ.Flow
import Verif.Univ.Frame
import Verif.Univ.FrameProps
import Verif.Univ.Model
import Verif.Univ.Motion
import Verif.Univ.OutboundProps
import Verif.Univ.Props
import Verif.Univ.Spec
import Verif.Univ.Stumpff
import Verif.V3
import Verif.Variants.Model
import Verif.Variants.Props
import Verif.Vendor.CurveProps
import Verif.Vendor.Model
import Verif.Vendor.Props
import Verif.Vendor.SunProps
import Verif.Vendor.TemplateProps
import Verif.Viz.CorridorProps
import Verif.Viz.Model
import Verif.Viz.OrbitPlot
import Verif.Viz.OrbitPlotProps
import Verif.Viz.Props
import Verif.Viz.SampleFloat
import Verif.Viz.SampleFloatProps
import Verif.Viz.ShapeProps
import Verif.Viz.Shapes
import Verif.Viz.Sim
import Verif.Viz.SimProps
import Verif.Xform.Lemmas
import Verif.Xform.Model
import Verif.Xform.Props
import Verif.Xform.Rotation
import Verif.Xform.Rows
import Verif.Xform.Spec
import Verif.Audit
