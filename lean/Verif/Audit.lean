import Verif.Aberr.Lemmas
import Verif.Aberr.Model
import Verif.Aberr.Props
import Verif.Aberr.Spec
import Verif.AbsMag.FitProps
import Verif.AbsMag.Lemmas
import Verif.AbsMag.Model
import Verif.AbsMag.Props
import Verif.AbsMag.Rows
import Verif.Ades.Build
import Verif.Ades.Context
import Verif.Ades.Data
import Verif.Ades.Model
import Verif.Ades.Props
import Verif.Ades.Spec
import Verif.Ades.Text
import Verif.Ades.Witness
import Verif.Band.Lemmas
import Verif.Band.Model
import Verif.Band.Packaged
import Verif.Band.PackagedProps
import Verif.Band.Props
import Verif.Band.Resolve
import Verif.Band.ResolveProps
import Verif.Band.ResolveSpec
import Verif.Band.Spec
import Verif.Basic
import Verif.Cart.Model
import Verif.Cart.Props
import Verif.Catalog.Float
import Verif.Catalog.FloatProps
import Verif.Catalog.Model
import Verif.Catalog.Props
import Verif.Chunk.Lemmas
import Verif.Chunk.Model
import Verif.Chunk.Props
import Verif.Chunk.Spec
import Verif.Chunk.Vector
import Verif.Chunk.VectorProps
import Verif.Collapse.Aberr
import Verif.Collapse.AberrProps
import Verif.Collapse.Lemmas
import Verif.Collapse.MajorProps
import Verif.Collapse.Model
import Verif.Collapse.Props
import Verif.Collapse.Spec
import Verif.Cov.Model
import Verif.Cov.Props
import Verif.Dates.Lemmas
import Verif.Dates.Model
import Verif.Dates.Props
import Verif.Dc.Model
import Verif.Dc.Props
import Verif.Elements.Model
import Verif.Elements.Props
import Verif.Eph2.Lemmas
import Verif.Eph2.Model
import Verif.Eph2.Props
import Verif.Eph2.Spec
import Verif.Eval.Model
import Verif.Eval.Props
import Verif.Eval.Spec
import Verif.F64
import Verif.Fit.Model
import Verif.Fit.Props
import Verif.Fit.Spec
import Verif.Gauss.Gibbs
import Verif.Gauss.Model
import Verif.Gauss.Props
import Verif.Gauss.Ranges
import Verif.Gauss.Velocity
import Verif.Hg.Lemmas
import Verif.Hg.Model
import Verif.Hg.Predict
import Verif.Hg.Props
import Verif.Hg.Spec
import Verif.Horizons.EphProps
import Verif.Horizons.Model
import Verif.Horizons.Props
import Verif.Impact.Distance
import Verif.Impact.DistanceProps
import Verif.Impact.MeanFloat
import Verif.Impact.MeanFloatProps
import Verif.Impact.Model
import Verif.Impact.Props
import Verif.Impact.Spec
import Verif.Iod.CompleteProps
import Verif.Iod.Lemmas
import Verif.Iod.Model
import Verif.Iod.Props
import Verif.Iod.SelectProps
import Verif.Iod.Spec
import Verif.Joins.Codes
import Verif.Joins.Lemmas
import Verif.Joins.Model
import Verif.Joins.Props
import Verif.Joins.Spec
import Verif.Kep.AnomalyProps
import Verif.Kep.ConvergeProps
import Verif.Kep.Elements
import Verif.Kep.ElementsProps
import Verif.Kep.Lemmas
import Verif.Kep.Model
import Verif.Kep.Orbit
import Verif.Kep.OrbitProps
import Verif.Kep.Spec
import Verif.Lambert.Algebra
import Verif.Lambert.Complete
import Verif.Lambert.CompleteProps
import Verif.Lambert.Deriv
import Verif.Lambert.IterProps
import Verif.Lambert.Model
import Verif.Lambert.Mono
import Verif.Lambert.Near
import Verif.Lambert.Props
import Verif.Lambert.Series
import Verif.Lambert.Time
import Verif.Lambert.Transfer
import Verif.Link.Model
import Verif.Link.Props
import Verif.Lru.Lemmas
import Verif.Lru.Model
import Verif.Lru.Props
import Verif.Lru.Spec
import Verif.Lsq.CovProps
import Verif.Lsq.Model
import Verif.Lsq.Props
import Verif.Lsq.Spec
import Verif.Lsq.Step
import Verif.Lsq.StepProps
import Verif.Moid.Lemmas
import Verif.Moid.Model
import Verif.Moid.Props
import Verif.Moid.Table
import Verif.Moid.Witness
import Verif.Mpc.Lemmas
import Verif.Mpc.Model
import Verif.Mpc.Props
import Verif.Mpc.Spec
import Verif.Neocc.Lemmas
import Verif.Neocc.Model
import Verif.Neocc.Props
import Verif.Neocc.Spec
import Verif.Obs80.Float
import Verif.Obs80.FloatProps
import Verif.Obs80.Lemmas
import Verif.Obs80.Model
import Verif.Obs80.Props
import Verif.Obs80.Spec
import Verif.Od.Lemmas
import Verif.Od.Model
import Verif.Od.Props
import Verif.Od.Spec
import Verif.Oem.Model
import Verif.Oem.Props
import Verif.Oem.Spec
import Verif.Openspace.Kepler
import Verif.Openspace.KeplerProps
import Verif.Openspace.LuaProps
import Verif.Openspace.Model
import Verif.Openspace.Props
import Verif.Openspace.Spec
import Verif.OrbitClass.Model
import Verif.OrbitClass.Props
import Verif.OrbitClass.Spec
import Verif.Origin.Model
import Verif.Origin.Props
import Verif.Origin.SharedProps
import Verif.Origin.Spec
import Verif.Porkchop.ColorProps
import Verif.Porkchop.Colors
import Verif.Porkchop.Lemmas
import Verif.Porkchop.Model
import Verif.Porkchop.OrbitProps
import Verif.Porkchop.Orbits
import Verif.Porkchop.Plot
import Verif.Porkchop.PlotLemmas
import Verif.Porkchop.PlotProps
import Verif.Porkchop.Props
import Verif.Ray.Model
import Verif.Ray.Props
import Verif.Resid.Lemmas
import Verif.Resid.Model
import Verif.Resid.Props
import Verif.Ric.Model
import Verif.Ric.Props
import Verif.Rot.Cluster
import Verif.Rot.ClusterProps
import Verif.Rot.Design
import Verif.Rot.Estimate
import Verif.Rot.EstimateProps
import Verif.Rot.Exists
import Verif.Rot.FitProps
import Verif.Rot.GridProps
import Verif.Rot.Jax
import Verif.Rot.JaxProps
import Verif.Rot.Metrics
import Verif.Rot.MetricsProps
import Verif.Rot.Model
import Verif.Rot.Search
import Verif.Rot.SearchProps
import Verif.Rot.Spec
import Verif.Rot.Verdict
import Verif.Rot.VerdictProps
import Verif.Rot.Wrap
import Verif.Rot.WrapProps
import Verif.Sbdb.Model
import Verif.Sbdb.Parse
import Verif.Sbdb.ParseProps
import Verif.Sbdb.Props
import Verif.Sbdb.Spec
import Verif.Sched.IndexProps
import Verif.Sched.Lemmas
import Verif.Sched.MixinProps
import Verif.Sched.Model
import Verif.Sched.OrbitProps
import Verif.Sched.Orbits
import Verif.Sched.Props
import Verif.Sched.Spec
import Verif.Sched.TwoBody
import Verif.Scout.Model
import Verif.Scout.Props
import Verif.Scout.Spec
import Verif.Sigma.Model
import Verif.Sigma.Props
import Verif.Sigma.Transform
import Verif.Sigma.TransformProps
import Verif.Sigma.VariantProps
import Verif.Sph.GeoProps
import Verif.Sph.Model
import Verif.Sph.Props
import Verif.Sph.Site
import Verif.Sph.SiteProps
import Verif.Sph.Spec
import Verif.Sph.Unit
import Verif.Sph.UnitProps
import Verif.Spice.Body
import Verif.Spice.BodyProps
import Verif.Spice.Caches
import Verif.Spice.Lemmas
import Verif.Spice.Model
import Verif.Spice.Props
import Verif.Spice.Spec
import Verif.Spk.Model
import Verif.Spk.Props
import Verif.Spk.Spec
import Verif.Spk.Type9
import Verif.Spk.Type9Props
import Verif.Time.AddFloatProps
import Verif.Time.AstropyFloat
import Verif.Time.AstropyFloatProps
import Verif.Time.DurationFloat
import Verif.Time.DurationFloatProps
import Verif.Time.EqualsProps
import Verif.Time.Float
import Verif.Time.FloatLemmas
import Verif.Time.FloatProps
import Verif.Time.Int64
import Verif.Time.Int64Props
import Verif.Time.Iso
import Verif.Time.IsoFloat
import Verif.Time.IsoFloatProps
import Verif.Time.IsoProps
import Verif.Time.LabelFloat
import Verif.Time.LabelFloatProps
import Verif.Time.Leap
import Verif.Time.LeapFloat
import Verif.Time.LeapFloatProps
import Verif.Time.LeapLemmas
import Verif.Time.LeapProps
import Verif.Time.Lemmas
import Verif.Time.Model
import Verif.Time.Props
import Verif.Time.RescaleLemmas
import Verif.Time.RescaleProps
import Verif.Time.RescaleSpec
import Verif.Time.Spec
import Verif.Tiss.Model
import Verif.Tiss.Props
import Verif.Traj.Float
import Verif.Traj.FloatProps
import Verif.Traj.Model
import Verif.Traj.Props
import Verif.Traj.Spec
import Verif.Tri.Model
import Verif.Tri.Props
import Verif.Units.Float
import Verif.Units.FloatProps
import Verif.Units.Model
import Verif.Units.Props
import Verif.Univ.Converge
import Verif.Univ.ConvergeProps
import Verif.Univ.Flow
import Verif.Univ.Frame
import Verif.Univ.FrameProps
import Verif.Univ.Model
import Verif.Univ.Motion
import Verif.Univ.OutboundProps
import Verif.Univ.Props
import Verif.Univ.Spec
import Verif.Univ.Stumpff
import Verif.V3
import Verif.Variants.Model
import Verif.Variants.Props
import Verif.Vendor.CurveProps
import Verif.Vendor.Model
import Verif.Vendor.Props
import Verif.Vendor.SunProps
import Verif.Vendor.TemplateProps
import Verif.Viz.CorridorProps
import Verif.Viz.Model
import Verif.Viz.OrbitPlot
import Verif.Viz.OrbitPlotProps
import Verif.Viz.Props
import Verif.Viz.SampleFloat
import Verif.Viz.SampleFloatProps
import Verif.Viz.ShapeProps
import Verif.Viz.Shapes
import Verif.Viz.Sim
import Verif.Viz.SimProps
import Verif.Xform.Lemmas
import Verif.Xform.Model
import Verif.Xform.Props
import Verif.Xform.Rotation
import Verif.Xform.Rows
import Verif.Xform.Spec

/-! Axioms used by every property theorem. Only `propext`, `Classical.choice` and `Quot.sound` may appear. -/

#print axioms Verif.Time.Props.C01_add_nanos_exact
#print axioms Verif.Time.Props.C01_add_nanos_rejects
#print axioms Verif.Time.Props.C01_length
#print axioms Verif.Time.Props.C01_empty_false
#print axioms Verif.Time.Props.C01_units_exact
#print axioms Verif.Time.Props.C01_units_rows
#print axioms Verif.Time.Props.C02_history
#print axioms Verif.Time.Props.C02_fractional_days_total
#print axioms Verif.Time.Props.C03_difference_exact
#print axioms Verif.Time.Props.C03_add_back
#print axioms Verif.Time.Props.C03_difference_rows
#print axioms Verif.Time.Props.C03_difference_scalar
#print axioms Verif.Time.Props.C03_scale_mismatch
#print axioms Verif.Time.Props.C04_rounded_floor
#print axioms Verif.Time.Props.C04_rounded_absorbs
#print axioms Verif.Time.Props.C04_rounded_rejects
#print axioms Verif.Time.EqualsProps.C05_equals_table
#print axioms Verif.Time.EqualsProps.C05_equals_errors
#print axioms Verif.Time.Props.C05_equals_window
#print axioms Verif.Time.Props.C05_not_symmetric
#print axioms Verif.Time.Props.C05_equals_ns_exact
#print axioms Verif.Time.Int64Props.C06_key_range
#print axioms Verif.Time.Int64Props.C06_key_order_false
#print axioms Verif.Time.Props.C06_key_order
#print axioms Verif.Time.Props.C06_max
#print axioms Verif.Time.Props.C06_min
#print axioms Verif.Time.Props.C06_empty
#print axioms Verif.Time.Props.C07_rescale_through_tai
#print axioms Verif.Time.Props.C07_same_scale
#print axioms Verif.Time.Props.C07_round_trip_exact
#print axioms Verif.Time.Props.C07_tdb_round_trip
#print axioms Verif.Time.Props.C07_path_independent
#print axioms Verif.Time.Props.C07_tt_utc
#print axioms Verif.Time.Props.C07_tt_utc_false
#print axioms Verif.Time.Props.C07_tdb_series_round_trip
#print axioms Verif.Time.Props.C08_unknown_scale
#print axioms Verif.Time.Props.C08_utc_accepts_anything
#print axioms Verif.Time.Props.C09_from_mjd
#print axioms Verif.Time.Props.C09_not_normal
#print axioms Verif.Time.Props.C09_mjd_round_trip
#print axioms Verif.Time.Props.C10_not_inverse
#print axioms Verif.Time.Props.C10_offset
#print axioms Verif.Time.Props.C10_from_et
#print axioms Verif.Kep.Props.C100_elliptic
#print axioms Verif.Kep.Props.C100_round_trip
#print axioms Verif.Kep.Props.C100_hyperbolic
#print axioms Verif.Kep.Props.C100_hyperbolic_false
#print axioms Verif.Sph.Props.C101_astrometric
#print axioms Verif.Sph.Props.C101_apparent
#print axioms Verif.Sph.Props.C101_turn
#print axioms Verif.Sph.Props.C102_geodetic
#print axioms Verif.Sph.Props.C102_columns
#print axioms Verif.Sph.Props.C102_position_exists
#print axioms Verif.Sph.Props.C102_latitude_false
#print axioms Verif.Sph.Props.C102_columns_false
#print axioms Verif.Sph.Props.C102_poles
#print axioms Verif.Sigma.Props.C103_error
#print axioms Verif.Sigma.Props.C103_unchanged
#print axioms Verif.Sigma.Props.C103_close
#print axioms Verif.Sigma.Props.C103_psd
#print axioms Verif.Sigma.Props.C103_random_error
#print axioms Verif.Sigma.Props.C103_tolerance_false
#print axioms Verif.Sigma.Props.C103_random
#print axioms Verif.Sigma.Props.C104_rows
#print axioms Verif.Sigma.Props.C104_defined
#print axioms Verif.Sigma.Props.C104_missing
#print axioms Verif.Sigma.Props.C104_auto
#print axioms Verif.Sigma.Props.C104_recover
#print axioms Verif.Sigma.Props.C104_seed
#print axioms Verif.Sigma.Props.C104_seed_false
#print axioms Verif.Sigma.Props.C104_single
#print axioms Verif.Porkchop.Props.C105_pairs
#print axioms Verif.Porkchop.Props.C105_order
#print axioms Verif.Porkchop.Props.C105_solution
#print axioms Verif.Porkchop.Props.C105_parallel
#print axioms Verif.Porkchop.Props.C105_errors
#print axioms Verif.Porkchop.Props.C105_origin_false
#print axioms Verif.Porkchop.Props.C105_scale_false
#print axioms Verif.Gauss.Props.C106_orbits
#print axioms Verif.Gauss.Props.C106_distance
#print axioms Verif.Gauss.Props.C106_three
#print axioms Verif.Gauss.Props.C106_table
#print axioms Verif.Gauss.Props.C106_errors
#print axioms Verif.Moid.Props.C107_rows
#print axioms Verif.Moid.Props.C107_once
#print axioms Verif.Moid.Props.C107_failure
#print axioms Verif.Moid.Props.C107_errors
#print axioms Verif.Gauss.Props.C108_gauss
#print axioms Verif.Gauss.Props.C108_gauss_false
#print axioms Verif.Gauss.Props.C108_herrick_gibbs
#print axioms Verif.Rot.Props.C109_columns
#print axioms Verif.Rot.Props.C109_zero_points
#print axioms Verif.Rot.Props.C109_model
#print axioms Verif.Rot.Props.C109_groups
#print axioms Verif.Rot.Props.C109_missing_false
#print axioms Verif.Mpc.Props.C11_numbered_round_trip
#print axioms Verif.Mpc.Props.C11_numbered_format
#print axioms Verif.Mpc.Props.C11_numbered_injective
#print axioms Verif.Mpc.Props.C11_numbered_rejects
#print axioms Verif.Rot.Props.C110_refused
#print axioms Verif.Rot.Props.C110_grid
#print axioms Verif.Rot.Props.C110_spacing
#print axioms Verif.Rot.Props.C110_near
#print axioms Verif.Rot.Props.C110_cap_false
#print axioms Verif.Rot.Props.C110_resolution_false
#print axioms Verif.Rot.Props.C111_none
#print axioms Verif.Rot.Props.C111_exact
#print axioms Verif.Rot.Props.C111_staged
#print axioms Verif.Rot.Props.C111_missed_false
#print axioms Verif.Rot.Props.C111_minima
#print axioms Verif.Rot.Props.C112_error
#print axioms Verif.Rot.Props.C112_best
#print axioms Verif.Rot.Props.C112_threshold
#print axioms Verif.Rot.Props.C112_partition
#print axioms Verif.Rot.Props.C112_clusters
#print axioms Verif.Rot.Props.C112_span
#print axioms Verif.Rot.Props.C112_neighbours
#print axioms Verif.Rot.Props.C112_primary
#print axioms Verif.Rot.Props.C112_period
#print axioms Verif.Rot.Props.C112_reliable
#print axioms Verif.Rot.Props.C112_even
#print axioms Verif.Rot.Props.C112_doubled
#print axioms Verif.Rot.Props.C113_coverage
#print axioms Verif.Rot.Props.C113_amplitude
#print axioms Verif.Rot.Props.C113_enough
#print axioms Verif.Rot.Props.C113_period
#print axioms Verif.Rot.Props.C113_consistent
#print axioms Verif.Rot.Props.C113_insufficient
#print axioms Verif.Rot.Props.C113_single
#print axioms Verif.Rot.Props.C113_flags
#print axioms Verif.Rot.Props.C113_reasons
#print axioms Verif.Rot.Props.C113_reason_false
#print axioms Verif.Rot.Props.C113_search
#print axioms Verif.Rot.Props.C113_flags_false
#print axioms Verif.Rot.Props.C114_validate
#print axioms Verif.Rot.Props.C114_refused
#print axioms Verif.Rot.Props.C114_screened
#print axioms Verif.Rot.Props.C114_errors
#print axioms Verif.Rot.Props.C114_raises
#print axioms Verif.Rot.Props.C114_safe
#print axioms Verif.Rot.Props.C114_sessions
#print axioms Verif.Rot.Props.C114_bic_false
#print axioms Verif.Rot.Props.C114_fidelity
#print axioms Verif.Rot.Props.C114_screen_false
#print axioms Verif.Rot.Props.C114_strings_false
#print axioms Verif.Rot.Props.C114_shift
#print axioms Verif.Rot.Props.C114_sigmas
#print axioms Verif.Rot.Props.C114_auto_false
#print axioms Verif.Rot.Props.C114_period_false
#print axioms Verif.Rot.Props.C115_groups
#print axioms Verif.Rot.Props.C115_same
#print axioms Verif.Rot.Props.C115_single
#print axioms Verif.Rot.Props.C115_best
#print axioms Verif.Rot.Props.C115_swallow_false
#print axioms Verif.Rot.Props.C115_order
#print axioms Verif.Rot.Props.C115_params_false
#print axioms Verif.Rot.Props.C116_rows
#print axioms Verif.Rot.Props.C116_errors
#print axioms Verif.Rot.Props.C116_swallow_false
#print axioms Verif.Rot.Props.C116_ids_false
#print axioms Verif.Rot.Props.C117_rows
#print axioms Verif.Rot.Props.C117_errors
#print axioms Verif.Rot.Props.C117_time_false
#print axioms Verif.Rot.Props.C118_night
#print axioms Verif.Rot.Props.C118_monotone
#print axioms Verif.Rot.Props.C118_early_false
#print axioms Verif.Rot.Props.C118_host_false
#print axioms Verif.Rot.Props.C119_same
#print axioms Verif.Rot.Props.C119_close
#print axioms Verif.Rot.Props.C119_ridge_false
#print axioms Verif.Rot.Props.C119_bucket
#print axioms Verif.Mpc.Props.C12_provisional_round_trip
#print axioms Verif.Mpc.Props.C12_provisional_injective
#print axioms Verif.Mpc.Props.C12_provisional_format
#print axioms Verif.Rot.Props.C120_harmonic
#print axioms Verif.Rot.Props.C120_adjusted
#print axioms Verif.Rot.Props.C120_bucket
#print axioms Verif.Rot.Props.C120_names
#print axioms Verif.Rot.Props.C120_label
#print axioms Verif.Rot.Props.C120_tolerance
#print axioms Verif.Rot.Props.C120_negative_false
#print axioms Verif.Rot.Props.C120_alias
#print axioms Verif.Rot.Props.C120_exact_false
#print axioms Verif.Cov.Props.C121_shape
#print axioms Verif.Cov.Props.C121_rows
#print axioms Verif.Cov.Props.C121_round_trip
#print axioms Verif.Cov.Props.C121_refuses
#print axioms Verif.Cov.Props.C121_one_each
#print axioms Verif.Cov.Props.C121_miscut
#print axioms Verif.Cov.Props.C121_nulls
#print axioms Verif.Cov.Props.C121_all_nan
#print axioms Verif.Cov.Props.C121_case
#print axioms Verif.Cov.Props.C122_entry
#print axioms Verif.Cov.Props.C122_diagonal
#print axioms Verif.Cov.Props.C122_zero_off_diagonal
#print axioms Verif.Cov.Props.C122_symmetric
#print axioms Verif.Cov.Props.C122_round_trip
#print axioms Verif.Cov.Props.C122_refuses
#print axioms Verif.Cov.Props.C122_case
#print axioms Verif.Ric.Props.C123_rotation
#print axioms Verif.Ric.Props.C123_axes
#print axioms Verif.Ric.Props.C123_unique
#print axioms Verif.Ric.Props.C123_frame
#print axioms Verif.Ric.Props.C123_degenerate
#print axioms Verif.Ric.Props.C123_tolerance_absolute
#print axioms Verif.Ric.Props.C123_six
#print axioms Verif.Ric.Props.C123_case
#print axioms Verif.Tiss.Props.C124_names
#print axioms Verif.Tiss.Props.C124_number
#print axioms Verif.Tiss.Props.C124_crossing
#print axioms Verif.Tiss.Props.C124_crossing_unbound
#print axioms Verif.Tiss.Props.C124_three
#print axioms Verif.Tiss.Props.C124_inclination
#print axioms Verif.Tiss.Props.C124_case
#print axioms Verif.Tiss.Props.C124_planets
#print axioms Verif.Catalog.Props.C125_objects
#print axioms Verif.Catalog.Props.C125_objects_order
#print axioms Verif.Catalog.Props.C125_exposures
#print axioms Verif.Catalog.Props.C125_exposure_groups
#print axioms Verif.Catalog.Props.C125_codes
#print axioms Verif.Catalog.Props.C125_pixels
#print axioms Verif.Catalog.Props.C125_case
#print axioms Verif.Catalog.Props.C126_detections
#print axioms Verif.Catalog.Props.C126_exposures_refused
#print axioms Verif.Catalog.Props.C126_exposures
#print axioms Verif.Catalog.Props.C126_exposures_conflict
#print axioms Verif.Catalog.Props.C126_covariance
#print axioms Verif.Catalog.Props.C126_covariance_missing
#print axioms Verif.Catalog.Props.C126_midpoints_agree
#print axioms Verif.Catalog.Props.C126_midpoints
#print axioms Verif.Catalog.Props.C126_midpoints_empty_false
#print axioms Verif.Catalog.Props.C126_midpoints_refused
#print axioms Verif.Catalog.Props.C126_case
#print axioms Verif.Link.Props.C127_refuses
#print axioms Verif.Link.Props.C127_every_row_once
#print axioms Verif.Link.Props.C127_linked
#print axioms Verif.Link.Props.C127_close
#print axioms Verif.Link.Props.C127_boundary
#print axioms Verif.Link.Props.C127_warning
#print axioms Verif.Link.Props.C127_warning_hidden
#print axioms Verif.Link.Props.C127_times
#print axioms Verif.Link.Props.C127_case
#print axioms Verif.Dates.Props.C128_round_trip
#print axioms Verif.Dates.Props.C128_refuses
#print axioms Verif.Dates.Props.C128_time
#print axioms Verif.Dates.Props.C128_fields
#print axioms Verif.Dates.Props.C128_fourteen_digits
#print axioms Verif.Dates.Props.C128_long_refused
#print axioms Verif.Dates.Props.C128_sixty_seconds
#print axioms Verif.Dates.Props.C128_lenient
#print axioms Verif.Dates.Props.C128_characters
#print axioms Verif.Dates.Props.C128_list
#print axioms Verif.Dates.Props.C128_case
#print axioms Verif.Dc.Props.C129_serial
#print axioms Verif.Dc.Props.C129_input
#print axioms Verif.Dc.Props.C129_ids_ignored
#print axioms Verif.Dc.Props.C129_ids_restrict
#print axioms Verif.Dc.Props.C129_parallel
#print axioms Verif.Dc.Props.C129_parallel_differs
#print axioms Verif.Dc.Props.C129_mixed_differs
#print axioms Verif.Dc.Props.C129_repeated_id
#print axioms Verif.Dc.Props.C129_chunk
#print axioms Verif.Dc.Props.C129_case
#print axioms Verif.Mpc.Props.C13_no_leading_zero
#print axioms Verif.Mpc.Props.C13_survey_round_trip
#print axioms Verif.Mpc.Props.C13_leading_zero_lost
#print axioms Verif.Dc.Props.C130_members
#print axioms Verif.Dc.Props.C130_same_members
#print axioms Verif.Dc.Props.C130_order
#print axioms Verif.Dc.Props.C130_unique
#print axioms Verif.Dc.Props.C130_linkages
#print axioms Verif.Dc.Props.C130_repeated
#print axioms Verif.Dc.Props.C130_case
#print axioms Verif.Elements.Props.C131_keplerian
#print axioms Verif.Elements.Props.C131_turn
#print axioms Verif.Elements.Props.C131_cometary
#print axioms Verif.Elements.Props.C131_parabola
#print axioms Verif.Elements.Props.C131_inconsistent
#print axioms Verif.Elements.Props.C131_case
#print axioms Verif.Sbdb.Props.C132_accepts
#print axioms Verif.Sbdb.Props.C132_matrix
#print axioms Verif.Sbdb.Props.C132_sigmas
#print axioms Verif.Sbdb.Props.C132_unchecked
#print axioms Verif.Sbdb.Props.C132_case
#print axioms Verif.Sbdb.Props.C133_same
#print axioms Verif.Sbdb.Props.C133_newer_reads_more
#print axioms Verif.Sbdb.Props.C133_case
#print axioms Verif.Scout.Props.C134_attempts
#print axioms Verif.Scout.Props.C134_negative_delay
#print axioms Verif.Scout.Props.C134_case
#print axioms Verif.Scout.Props.C135_classes
#print axioms Verif.Scout.Props.C135_attributes
#print axioms Verif.Scout.Props.C135_not_json
#print axioms Verif.Scout.Props.C136_one
#print axioms Verif.Scout.Props.C136_extra_field
#print axioms Verif.Scout.Props.C136_query
#print axioms Verif.Scout.Props.C136_ids_shared
#print axioms Verif.Scout.Props.C137_query
#print axioms Verif.Scout.Props.C137_one
#print axioms Verif.Scout.Props.C137_errors
#print axioms Verif.Scout.Props.C137_number_version
#print axioms Verif.Scout.Props.C137_case
#print axioms Verif.Horizons.Props.C138_rows
#print axioms Verif.Horizons.Props.C138_failure
#print axioms Verif.Horizons.Props.C138_arguments
#print axioms Verif.Horizons.Props.C138_order
#print axioms Verif.Horizons.Props.C138_origin
#print axioms Verif.Horizons.Props.C138_origin_false
#print axioms Verif.Horizons.Props.C138_case
#print axioms Verif.Horizons.EphProps.C139_rows
#print axioms Verif.Horizons.EphProps.C139_errors
#print axioms Verif.Horizons.EphProps.C139_pairs
#print axioms Verif.Horizons.EphProps.C139_frame
#print axioms Verif.Horizons.EphProps.C139_direction_false
#print axioms Verif.Horizons.EphProps.C139_case
#print axioms Verif.Mpc.Props.C14_other_exceptions
#print axioms Verif.Mpc.Props.C14_errors
#print axioms Verif.Kep.Props.C140_elliptic
#print axioms Verif.Kep.Props.C140_limit
#print axioms Verif.Kep.Props.C140_state
#print axioms Verif.Kep.Props.C141_limit
#print axioms Verif.Kep.Props.C141_default
#print axioms Verif.Kep.Props.C141_state
#print axioms Verif.Kep.Props.C141_default_false
#print axioms Verif.Univ.Props.C142_rotation
#print axioms Verif.Univ.Props.C142_frame
#print axioms Verif.Univ.Props.C142_epoch
#print axioms Verif.Univ.Props.C142_frame_false
#print axioms Verif.Sched.Props.C143_index
#print axioms Verif.Sched.Props.C143_index_false
#print axioms Verif.Neocc.Props.C144_document
#print axioms Verif.Neocc.Props.C144_accepts
#print axioms Verif.Neocc.Props.C145_rows
#print axioms Verif.Neocc.Props.C145_error
#print axioms Verif.Neocc.Props.C145_arguments
#print axioms Verif.Neocc.Props.C145_missing_false
#print axioms Verif.Lsq.Props.C146_result
#print axioms Verif.Lsq.Props.C146_edges
#print axioms Verif.Lsq.Props.C146_options
#print axioms Verif.Lsq.Props.C146_cost
#print axioms Verif.Lsq.Props.C146_not_worse
#print axioms Verif.Lsq.Props.C146_labels_false
#print axioms Verif.Lsq.Props.C147_inverse
#print axioms Verif.Lsq.Props.C147_few
#print axioms Verif.Lsq.Props.C147_six
#print axioms Verif.Lsq.Props.C147_information
#print axioms Verif.Lsq.Props.C147_information_false
#print axioms Verif.Lsq.Step.Props.C148_step
#print axioms Verif.Lsq.Step.Props.C148_columns
#print axioms Verif.Lsq.Step.Props.C148_limit
#print axioms Verif.Lsq.Step.Props.C148_limit_false
#print axioms Verif.Lsq.Step.Props.C149_minimum
#print axioms Verif.Lsq.Step.Props.C149_error
#print axioms Verif.Lsq.Step.Props.C149_rms
#print axioms Verif.Mpc.Props.C15_dispatch_round_trip
#print axioms Verif.Mpc.Props.C15_dispatch_injective
#print axioms Verif.Viz.Props.C150_errors
#print axioms Verif.Viz.Props.C150_tables
#print axioms Verif.Viz.Props.C150_order_false
#print axioms Verif.Viz.Props.C150_first_false
#print axioms Verif.Viz.Props.C151_times
#print axioms Verif.Viz.Props.C151_end_false
#print axioms Verif.Viz.Props.C151_tables
#print axioms Verif.Viz.Props.C151_errors
#print axioms Verif.Viz.Props.C151_orbits_false
#print axioms Verif.Viz.Props.C152_dates
#print axioms Verif.Viz.Props.C152_end_false
#print axioms Verif.Variants.Props.C153_create
#print axioms Verif.Variants.Props.C153_error
#print axioms Verif.Variants.Props.C153_round_trip
#print axioms Verif.Variants.Props.C153_position
#print axioms Verif.Variants.Props.C153_affine
#print axioms Verif.Variants.Props.C153_duplicates_false
#print axioms Verif.Vendor.Props.C154_curve
#print axioms Verif.Vendor.Props.C154_errors
#print axioms Verif.Vendor.Props.C154_order
#print axioms Verif.Vendor.Props.C154_again
#print axioms Verif.Vendor.Props.C154_first_false
#print axioms Verif.Vendor.Props.C155_curves
#print axioms Verif.Vendor.Props.C155_normal
#print axioms Verif.Vendor.Props.C156_order
#print axioms Verif.Vendor.Props.C156_spectrum
#print axioms Verif.Vendor.Props.C156_rows
#print axioms Verif.Vendor.Props.C156_registered
#print axioms Verif.Vendor.Props.C156_registered_false
#print axioms Verif.Vendor.Props.C156_mean
#print axioms Verif.Vendor.Props.C156_flux
#print axioms Verif.Vendor.Props.C157_templates
#print axioms Verif.Vendor.Props.C157_mixes
#print axioms Verif.Vendor.Props.C158_terms
#print axioms Verif.Vendor.Props.C158_delta_mag
#print axioms Verif.Vendor.Props.C158_unknown_false
#print axioms Verif.Vendor.Props.C158_source
#print axioms Verif.Openspace.Props.C159_read
#print axioms Verif.Openspace.Props.C159_entries
#print axioms Verif.Openspace.Props.C159_list_false
#print axioms Verif.Openspace.Props.C159_quote_false
#print axioms Verif.Obs80.Props.C16_date
#print axioms Verif.Obs80.Props.C16_day_number_unique
#print axioms Verif.Obs80.Props.C16_nanos_range
#print axioms Verif.Obs80.Props.C16_rejects
#print axioms Verif.Obs80.Props.C16_last_day_overflows
#print axioms Verif.Openspace.Props.C160_nodes
#print axioms Verif.Openspace.Props.C160_kepler
#print axioms Verif.Openspace.Props.C160_errors
#print axioms Verif.Openspace.Props.C160_ignored
#print axioms Verif.Openspace.Props.C160_identifiers_false
#print axioms Verif.Openspace.Props.C160_modes_false
#print axioms Verif.Openspace.Props.C160_initialization
#print axioms Verif.Openspace.Props.C161_epoch
#print axioms Verif.Openspace.Props.C161_epoch_false
#print axioms Verif.Band.ResolveProps.C162_total
#print axioms Verif.Band.ResolveProps.C162_map
#print axioms Verif.Band.ResolveProps.C162_station
#print axioms Verif.Band.ResolveProps.C162_wide
#print axioms Verif.Band.ResolveProps.C162_johnson
#print axioms Verif.Band.ResolveProps.C162_again
#print axioms Verif.Band.ResolveProps.C162_assert
#print axioms Verif.Porkchop.OrbitProps.C163_rows
#print axioms Verif.Porkchop.OrbitProps.C163_flight
#print axioms Verif.Porkchop.OrbitProps.C164_directions
#print axioms Verif.Porkchop.OrbitProps.C164_speed
#print axioms Verif.Porkchop.OrbitProps.C164_errors
#print axioms Verif.Spice.BodyProps.C165_states
#print axioms Verif.Spice.BodyProps.C165_errors
#print axioms Verif.Spice.BodyProps.C165_history
#print axioms Verif.Spice.BodyProps.C165_perturber
#print axioms Verif.Spice.BodyProps.C165_case
#print axioms Verif.Ray.Props.C166_answer
#print axioms Verif.Ray.Props.C166_first
#print axioms Verif.Ray.Props.C166_connect
#print axioms Verif.Ray.Props.C166_address
#print axioms Verif.Ray.Props.C166_limit_false
#print axioms Verif.Sph.UnitProps.C167_rows
#print axioms Verif.Sph.UnitProps.C167_again
#print axioms Verif.Sph.UnitProps.C167_direction
#print axioms Verif.Sph.UnitProps.C167_velocity
#print axioms Verif.Sph.UnitProps.C167_back
#print axioms Verif.Sph.UnitProps.C167_missing_false
#print axioms Verif.Spk.Type9Props.C168_states
#print axioms Verif.Spk.Type9Props.C168_polynomial
#print axioms Verif.Spk.Type9Props.C168_centered
#print axioms Verif.Spk.Type9Props.C168_written
#print axioms Verif.Spk.Type9Props.C168_case
#print axioms Verif.Spk.Type9Props.C169_steps
#print axioms Verif.Spk.Type9Props.C169_short
#print axioms Verif.Spk.Type9Props.C169_file
#print axioms Verif.Spk.Type9Props.C169_errors
#print axioms Verif.Obs80.Props.C17_ra
#print axioms Verif.Obs80.Props.C17_ra_rejects
#print axioms Verif.Obs80.Props.C17_dec
#print axioms Verif.Obs80.Props.C17_dec_rejects
#print axioms Verif.Obs80.Props.C17_range
#print axioms Verif.Obs80.Props.C17_monotone
#print axioms Verif.Obs80.Props.C17_dec_monotone
#print axioms Verif.Sph.SiteProps.C170_latitude
#print axioms Verif.Sph.SiteProps.C170_axis
#print axioms Verif.Sph.SiteProps.C170_longitude
#print axioms Verif.Sph.SiteProps.C170_timezone
#print axioms Verif.Sph.SiteProps.C170_timezone_errors
#print axioms Verif.Sph.SiteProps.C170_latitude_false
#print axioms Verif.Sph.SiteProps.C170_small
#print axioms Verif.Sph.SiteProps.C170_case
#print axioms Verif.Sigma.TransformProps.C171_rows
#print axioms Verif.Sigma.TransformProps.C171_errors
#print axioms Verif.Sigma.TransformProps.C171_spread
#print axioms Verif.Sigma.TransformProps.C171_undefined
#print axioms Verif.Sigma.TransformProps.C171_affine
#print axioms Verif.Sigma.TransformProps.C171_repeat_false
#print axioms Verif.Sigma.TransformProps.C172_rows
#print axioms Verif.Sigma.TransformProps.C172_compose
#print axioms Verif.Sigma.TransformProps.C172_back
#print axioms Verif.Sigma.TransformProps.C172_names
#print axioms Verif.Sigma.TransformProps.C172_errors
#print axioms Verif.Sigma.TransformProps.C172_library
#print axioms Verif.Sigma.TransformProps.C172_order_false
#print axioms Verif.Sigma.TransformProps.C172_case
#print axioms Verif.Impact.DistanceProps.C173_rows
#print axioms Verif.Impact.DistanceProps.C173_distance
#print axioms Verif.Impact.DistanceProps.C173_symmetric
#print axioms Verif.Impact.DistanceProps.C173_linear
#print axioms Verif.Impact.DistanceProps.C173_symmetric_false
#print axioms Verif.Impact.DistanceProps.C173_case
#print axioms Verif.Cart.Props.C174_magnitude
#print axioms Verif.Cart.Props.C174_direction
#print axioms Verif.Cart.Props.C174_momentum
#print axioms Verif.Cart.Props.C174_momentum_constant
#print axioms Verif.Cart.Props.C174_sigma_missing
#print axioms Verif.Cart.Props.C174_mean_square
#print axioms Verif.Cart.Props.C174_directions
#print axioms Verif.Cart.Props.C174_rotation
#print axioms Verif.Cart.Props.C174_distance_false
#print axioms Verif.Cart.Props.C174_km
#print axioms Verif.Cart.Props.C174_covariance_km
#print axioms Verif.Cart.Props.C174_covariance_of_km
#print axioms Verif.Cart.Props.C174_case
#print axioms Verif.Time.Props.C175_assumptions_met
#print axioms Verif.Time.Props.C175_utc_to_tai
#print axioms Verif.Time.Props.C175_order_kept
#print axioms Verif.Time.Props.C175_tai_round_trip
#print axioms Verif.Time.Props.C175_tai_round_trip_false
#print axioms Verif.Time.Props.C176_text
#print axioms Verif.Time.Props.C176_text_ordinary
#print axioms Verif.Time.Props.C176_text_kept
#print axioms Verif.Time.Props.C176_row_kept
#print axioms Verif.Time.Props.C176_utc_text_to_tai
#print axioms Verif.Time.Props.C176_utc_text_to_tai_false
#print axioms Verif.Time.Props.C176_text_false
#print axioms Verif.Origin.Props.C177_mu
#print axioms Verif.Origin.Props.C177_acceleration
#print axioms Verif.Origin.Props.C177_barycenter
#print axioms Verif.Origin.Props.C177_origins_false
#print axioms Verif.Origin.Props.C177_origins
#print axioms Verif.Origin.Props.C177_code
#print axioms Verif.Origin.Props.C177_code_round_trip
#print axioms Verif.Origin.Props.C177_equal
#print axioms Verif.Origin.Props.C177_unequal
#print axioms Verif.Origin.Props.C177_naif
#print axioms Verif.Origin.SharedProps.C177_constant
#print axioms Verif.Spice.Props.C178_spread
#print axioms Verif.Spice.Props.C178_no_collision
#print axioms Verif.Spice.Props.C178_states_false
#print axioms Verif.Spice.Props.C178_observer_false
#print axioms Verif.Time.Int64Props.C178_key
#print axioms Verif.Time.Int64Props.C178_key_distinct
#print axioms Verif.Time.Int64Props.C178_key_collide_false
#print axioms Verif.Time.Int64Props.C178_table
#print axioms Verif.Time.Int64Props.C178_signature
#print axioms Verif.Time.Int64Props.C178_arithmetic
#print axioms Verif.Time.Int64Props.C178_difference
#print axioms Verif.Time.Int64Props.C178_units
#print axioms Verif.Time.Int64Props.C178_units_false
#print axioms Verif.Time.Int64Props.C178_unchecked
#print axioms Verif.Lambert.IterProps.C179_derivatives
#print axioms Verif.Lambert.IterProps.C179_step
#print axioms Verif.Lambert.IterProps.C179_halley
#print axioms Verif.Lambert.IterProps.C179_local
#print axioms Verif.Lambert.IterProps.C179_converges
#print axioms Verif.Lambert.IterProps.C179_minimum
#print axioms Verif.Lambert.IterProps.C179_shortest_stale
#print axioms Verif.Lambert.IterProps.C179_shortest_false
#print axioms Verif.Lambert.IterProps.C179_skipped_false
#print axioms Verif.Lambert.IterProps.C179_revolutions_false
#print axioms Verif.Obs80.Props.C18_strict_rows
#print axioms Verif.Obs80.Props.C18_strict_names_line
#print axioms Verif.Obs80.Props.C18_lenient
#print axioms Verif.Obs80.Props.C18_lenient_raises
#print axioms Verif.Obs80.Props.C18_lenient_false
#print axioms Verif.Obs80.Props.C18_fractional_hours_escape
#print axioms Verif.Obs80.Props.C18_escape_source
#print axioms Verif.Lambert.CompleteProps.C180_lambert
#print axioms Verif.Lambert.CompleteProps.C180_solver
#print axioms Verif.Lambert.CompleteProps.C180_no_time
#print axioms Verif.Lambert.CompleteProps.C181_several
#print axioms Verif.Lambert.CompleteProps.C181_refused_false
#print axioms Verif.Lambert.CompleteProps.C181_too_many
#print axioms Verif.Lambert.CompleteProps.C181_enough
#print axioms Verif.Iod.CompleteProps.C182_nothing
#print axioms Verif.Iod.CompleteProps.C182_nothing_false
#print axioms Verif.Collapse.AberrProps.C183_coordinates
#print axioms Verif.Collapse.AberrProps.C183_collapse
#print axioms Verif.Collapse.AberrProps.C183_recompute
#print axioms Verif.Collapse.AberrProps.C183_edges
#print axioms Verif.Collapse.AberrProps.C183_fallback_false
#print axioms Verif.Collapse.AberrProps.C183_recompute_false
#print axioms Verif.Chunk.VectorProps.C184_any_lengths
#print axioms Verif.Chunk.VectorProps.C184_two_arrays
#print axioms Verif.Chunk.VectorProps.C184_rows
#print axioms Verif.Chunk.VectorProps.C184_append
#print axioms Verif.Chunk.VectorProps.C184_direct
#print axioms Verif.Chunk.VectorProps.C184_lengths_false
#print axioms Verif.Porkchop.PlotProps.C185_axes
#print axioms Verif.Porkchop.PlotProps.C185_cells
#print axioms Verif.Porkchop.PlotProps.C185_shape
#print axioms Verif.Porkchop.PlotProps.C185_best
#print axioms Verif.Porkchop.PlotProps.C185_insufficient
#print axioms Verif.Porkchop.PlotProps.C185_levels
#print axioms Verif.Porkchop.PlotProps.C185_errors
#print axioms Verif.Porkchop.PlotProps.C185_unsolved_false
#print axioms Verif.Porkchop.PlotProps.C185_all
#print axioms Verif.Porkchop.PlotProps.C185_marker_false
#print axioms Verif.Porkchop.ColorProps.C186_scale
#print axioms Verif.Porkchop.ColorProps.C186_errors
#print axioms Verif.Porkchop.ColorProps.C186_primary
#print axioms Verif.Porkchop.ColorProps.C186_names
#print axioms Verif.Porkchop.ColorProps.C186_saturated
#print axioms Verif.Porkchop.ColorProps.C186_dark_false
#print axioms Verif.Porkchop.ColorProps.C186_perceptual
#print axioms Verif.Porkchop.ColorProps.C186_lightness
#print axioms Verif.Porkchop.ColorProps.C186_first_false
#print axioms Verif.Viz.SimProps.C187_frames
#print axioms Verif.Viz.SimProps.C187_tallies
#print axioms Verif.Viz.SimProps.C187_traces
#print axioms Verif.Viz.SimProps.C187_best
#print axioms Verif.Viz.SimProps.C187_errors
#print axioms Verif.Viz.SimProps.C187_monotone
#print axioms Verif.Viz.SimProps.C187_complete
#print axioms Verif.Viz.SimProps.C187_total
#print axioms Verif.Viz.SimProps.C187_impacting
#print axioms Verif.Viz.SimProps.C187_hide_false
#print axioms Verif.Viz.SimProps.C187_complete_false
#print axioms Verif.Viz.SimProps.C187_percent_false
#print axioms Verif.Viz.SimProps.C187_midnight_false
#print axioms Verif.Viz.CorridorProps.C188_errors
#print axioms Verif.Viz.CorridorProps.C188_frames
#print axioms Verif.Viz.CorridorProps.C188_ticks
#print axioms Verif.Viz.CorridorProps.C188_ties_false
#print axioms Verif.Viz.ShapeProps.C189_sphere
#print axioms Verif.Viz.ShapeProps.C189_ellipsoid
#print axioms Verif.Viz.ShapeProps.C189_extent
#print axioms Verif.Viz.ShapeProps.C189_error
#print axioms Verif.Viz.ShapeProps.C189_missing
#print axioms Verif.Viz.ShapeProps.C189_error_false
#print axioms Verif.Chunk.Props.C19_chunks
#print axioms Verif.Chunk.Props.C19_indices
#print axioms Verif.Chunk.Props.C19_indices_consecutive
#print axioms Verif.Chunk.Props.C19_edge
#print axioms Verif.Viz.OrbitPlotProps.C190_dates
#print axioms Verif.Viz.OrbitPlotProps.C190_curves
#print axioms Verif.Viz.OrbitPlotProps.C190_axes
#print axioms Verif.Viz.OrbitPlotProps.C190_errors
#print axioms Verif.Viz.OrbitPlotProps.C190_resolution_false
#print axioms Verif.Openspace.KeplerProps.C191_errors
#print axioms Verif.Openspace.KeplerProps.C191_files
#print axioms Verif.Openspace.KeplerProps.C191_attributes
#print axioms Verif.Openspace.KeplerProps.C191_table
#print axioms Verif.Openspace.KeplerProps.C191_overwritten_false
#print axioms Verif.Openspace.KeplerProps.C191_directory_false
#print axioms Verif.Openspace.KeplerProps.C191_modes_false
#print axioms Verif.Univ.Props.C192_stops
#print axioms Verif.Univ.Props.C192_default
#print axioms Verif.Univ.Props.C192_state
#print axioms Verif.Univ.Props.C192_hyperbola_false
#print axioms Verif.Univ.Props.C192_outbound
#print axioms Verif.Univ.Props.C192_outbound_state
#print axioms Verif.Univ.Props.C193_reversal
#print axioms Verif.Univ.Props.C193_units
#print axioms Verif.Time.FloatProps.C194_mjd
#print axioms Verif.Time.FloatProps.C194_from_mjd
#print axioms Verif.Time.FloatProps.C194_round_trip
#print axioms Verif.Time.FloatProps.C194_round_trip_2038
#print axioms Verif.Time.FloatProps.C194_normalised
#print axioms Verif.Time.FloatProps.C194_normalised_false
#print axioms Verif.Time.FloatProps.C194_exact
#print axioms Verif.Time.FloatProps.C194_exact_false
#print axioms Verif.Time.FloatProps.C194_order
#print axioms Verif.Time.FloatProps.C194_distinct_false
#print axioms Verif.Time.FloatProps.C194_jd_exact
#print axioms Verif.Time.FloatProps.C194_jd_mjd
#print axioms Verif.Time.FloatProps.C194_jd_round_trip
#print axioms Verif.Time.FloatProps.C194_et
#print axioms Verif.Time.FloatProps.C194_from_et
#print axioms Verif.Time.AddFloatProps.C195_units_exact
#print axioms Verif.Time.AddFloatProps.C195_units_error
#print axioms Verif.Time.AddFloatProps.C195_fractional_refused
#print axioms Verif.Time.AddFloatProps.C195_fractional_error
#print axioms Verif.Time.AddFloatProps.C195_fractional_nanos
#print axioms Verif.Time.AddFloatProps.C195_fractional_exact_false
#print axioms Verif.Time.AddFloatProps.C195_fractional_back_false
#print axioms Verif.Time.AstropyFloatProps.C196_from_astropy
#print axioms Verif.Time.AstropyFloatProps.C196_round_trip
#print axioms Verif.Time.AstropyFloatProps.C196_to_astropy
#print axioms Verif.Time.AstropyFloatProps.C196_scalar
#print axioms Verif.Time.AstropyFloatProps.C196_scalar_false
#print axioms Verif.Time.AstropyFloatProps.C196_carry
#print axioms Verif.Time.LeapFloatProps.C197_whole_seconds
#print axioms Verif.Time.LeapFloatProps.C197_same
#print axioms Verif.Time.LeapFloatProps.C197_utc_tai
#print axioms Verif.Time.LeapFloatProps.C197_noon_false
#print axioms Verif.Viz.SampleFloatProps.C198_dates
#print axioms Verif.Viz.SampleFloatProps.C198_steps
#print axioms Verif.Viz.SampleFloatProps.C198_span
#print axioms Verif.Viz.SampleFloatProps.C198_steps_false
#print axioms Verif.Viz.SampleFloatProps.C198_dates_false
#print axioms Verif.Time.DurationFloatProps.C199_error
#print axioms Verif.Time.DurationFloatProps.C199_error_2038
#print axioms Verif.Time.DurationFloatProps.C199_zero_reverse
#print axioms Verif.Time.DurationFloatProps.C199_chain
#print axioms Verif.Time.DurationFloatProps.C199_order
#print axioms Verif.Time.DurationFloatProps.C199_whole_days
#print axioms Verif.Time.DurationFloatProps.C199_shift_false
#print axioms Verif.Time.DurationFloatProps.C199_arc
#print axioms Verif.Chunk.Props.C20_fixed_size
#print axioms Verif.Chunk.Props.C20_padding_invisible
#print axioms Verif.Chunk.Props.C20_pattern
#print axioms Verif.Chunk.Props.C20_zero_chunk
#print axioms Verif.Traj.FloatProps.C200_accepted
#print axioms Verif.Traj.FloatProps.C200_sound
#print axioms Verif.Traj.FloatProps.C200_lookup
#print axioms Verif.Traj.FloatProps.C200_false
#print axioms Verif.Obs80.FloatProps.C201_ra
#print axioms Verif.Obs80.FloatProps.C201_dec
#print axioms Verif.Obs80.FloatProps.C201_ra_read
#print axioms Verif.Obs80.FloatProps.C201_dec_read
#print axioms Verif.Obs80.FloatProps.C201_order
#print axioms Verif.Obs80.FloatProps.C201_false
#print axioms Verif.Time.IsoFloatProps.C202_error
#print axioms Verif.Time.IsoFloatProps.C202_millis
#print axioms Verif.Time.IsoFloatProps.C202_leap
#print axioms Verif.Time.IsoFloatProps.C202_order
#print axioms Verif.Time.IsoFloatProps.C202_nearest_false
#print axioms Verif.Catalog.FloatProps.C203_agree
#print axioms Verif.Catalog.FloatProps.C203_exact
#print axioms Verif.Catalog.FloatProps.C203_error
#print axioms Verif.Catalog.FloatProps.C203_inside
#print axioms Verif.Catalog.FloatProps.C203_order
#print axioms Verif.Catalog.FloatProps.C203_tie_false
#print axioms Verif.Units.FloatProps.C204_scalars
#print axioms Verif.Units.FloatProps.C204_round_trip
#print axioms Verif.Units.FloatProps.C204_states
#print axioms Verif.Units.FloatProps.C204_covariances
#print axioms Verif.Units.FloatProps.C204_identity_false
#print axioms Verif.Units.FloatProps.C204_definite_false
#print axioms Verif.Time.LabelFloatProps.C205_error
#print axioms Verif.Time.LabelFloatProps.C205_fixed
#print axioms Verif.Time.LabelFloatProps.C205_durations
#print axioms Verif.Time.LabelFloatProps.C205_order
#print axioms Verif.Time.LabelFloatProps.C205_exact
#print axioms Verif.Time.LabelFloatProps.C205_times
#print axioms Verif.Time.LabelFloatProps.C205_requested_false
#print axioms Verif.Impact.MeanFloatProps.C206_error
#print axioms Verif.Impact.MeanFloatProps.C206_two
#print axioms Verif.Impact.MeanFloatProps.C206_equal_false
#print axioms Verif.Lru.Props.C21_size
#print axioms Verif.Lru.Props.C21_value
#print axioms Verif.Lru.Props.C21_recent
#print axioms Verif.Lru.Props.C21_evicts_oldest
#print axioms Verif.Lru.Props.C21_disabled
#print axioms Verif.Spice.Props.C22_transparent
#print axioms Verif.Spice.Props.C22_rows
#print axioms Verif.Spice.Props.C22_first_use
#print axioms Verif.Spice.Props.C23_after_clear
#print axioms Verif.Spice.Props.C23_registration_loads
#print axioms Verif.Spice.Props.C23_false
#print axioms Verif.Spice.Props.C24_values
#print axioms Verif.Spice.Props.C24_time_column_false
#print axioms Verif.Sched.Props.C25_schedule
#print axioms Verif.Sched.Props.C25_distinct_ids
#print axioms Verif.Sched.Props.C25_covariance
#print axioms Verif.Sched.Props.C25_rearrangement
#print axioms Verif.Sched.Props.C25_failure
#print axioms Verif.Sched.Props.C25_empty
#print axioms Verif.Sched.Props.C25_ties_order_false
#print axioms Verif.Sched.Props.C26_throttle
#print axioms Verif.Sched.Props.C26_schedule
#print axioms Verif.Sched.Props.C26_rearrangement
#print axioms Verif.Sched.Props.C26_distinct_ids
#print axioms Verif.Sched.Props.C26_in_process
#print axioms Verif.Sched.Props.C26_failure
#print axioms Verif.Sched.Props.C26_ties_order_false
#print axioms Verif.Joins.Props.C27_align
#print axioms Verif.Joins.Props.C27_sorted
#print axioms Verif.Joins.Props.C27_sorted_index_error_false
#print axioms Verif.Joins.Props.C27_hg
#print axioms Verif.Joins.Props.C27_attach
#print axioms Verif.Joins.Props.C27_attach_filled
#print axioms Verif.Sched.Props.C28_one_row_each
#print axioms Verif.Sched.Props.C28_general
#print axioms Verif.Sched.Props.C28_duplicated_false
#print axioms Verif.Sched.Props.C28_dropped_false
#print axioms Verif.Joins.Props.C29_from_codes
#print axioms Verif.Joins.Props.C29_exposures
#print axioms Verif.Joins.Props.C29_empty_exposures_false
#print axioms Verif.Sched.Props.C30_pairs
#print axioms Verif.Sched.Props.C30_failure
#print axioms Verif.Sched.Props.C30_null_entries_false
#print axioms Verif.Eph2.Props.C31_no_silent_failure
#print axioms Verif.Eph2.Props.C31_light_time
#print axioms Verif.Eph2.Props.C31_state
#print axioms Verif.Eph2.Props.C31_state_false
#print axioms Verif.Eph2.Props.C31_index_error
#print axioms Verif.Eph2.Props.C31_workers_false
#print axioms Verif.Sched.Props.C32_rows
#print axioms Verif.Sched.Props.C32_failure
#print axioms Verif.Sched.Props.C32_moid_pairs
#print axioms Verif.Sched.Props.C32_order_false
#print axioms Verif.Sched.Props.C32_outstanding
#print axioms Verif.Sched.Props.C32_all_orders
#print axioms Verif.Impact.Props.C33_fraction
#print axioms Verif.Impact.Props.C33_counts
#print axioms Verif.Impact.Props.C33_exact_iff
#print axioms Verif.Impact.Props.C33_times
#print axioms Verif.Impact.Props.C33_event_order
#print axioms Verif.Impact.Props.C33_edges
#print axioms Verif.Impact.Props.C33_workers
#print axioms Verif.Impact.Props.C33_default_counted
#print axioms Verif.Impact.Props.C33_default_ignored
#print axioms Verif.Impact.Props.C33_repeat_false
#print axioms Verif.Impact.Props.C33_default_false
#print axioms Verif.Univ.Props.C34_series
#print axioms Verif.Univ.Props.C34_relations
#print axioms Verif.Univ.Props.C35_conserved
#print axioms Verif.Univ.Props.C35_anomaly
#print axioms Verif.Univ.Props.C35_motion_exists
#print axioms Verif.Univ.Props.C35_newton
#print axioms Verif.Univ.Props.C35_iterations
#print axioms Verif.Univ.Props.C35_accuracy
#print axioms Verif.Univ.Props.C35_propagate
#print axioms Verif.Univ.Props.C35_zero
#print axioms Verif.Univ.Props.C35_unconverged_false
#print axioms Verif.Kep.Props.C36_elliptic
#print axioms Verif.Kep.Props.C36_hyperbolic
#print axioms Verif.Kep.Props.C36_hyperbolic_false
#print axioms Verif.Kep.Props.C36_unreachable
#print axioms Verif.Kep.Props.C36_parabolic_false
#print axioms Verif.Kep.Props.C37_twice
#print axioms Verif.Kep.Props.C37_false
#print axioms Verif.Aberr.Props.C38_emission
#print axioms Verif.Aberr.Props.C38_light_time_exists
#print axioms Verif.Aberr.Props.C38_accuracy
#print axioms Verif.Aberr.Props.C38_converges
#print axioms Verif.Aberr.Props.C38_reported
#print axioms Verif.Aberr.Props.C38_last_round_false
#print axioms Verif.Aberr.Props.C39_defined
#print axioms Verif.Aberr.Props.C39_distance
#print axioms Verif.Aberr.Props.C39_direction
#print axioms Verif.Aberr.Props.C39_direction_unique
#print axioms Verif.Aberr.Props.C39_at_rest
#print axioms Verif.Aberr.Props.C39_undo
#print axioms Verif.Aberr.Props.C39_towards
#print axioms Verif.Lambert.Props.C40_conic
#print axioms Verif.Lambert.Props.C40_direction
#print axioms Verif.Lambert.Props.C40_negative
#print axioms Verif.Lambert.Props.C40_defined
#print axioms Verif.Lambert.Props.C40_arrives
#print axioms Verif.Lambert.Props.C40_opposite_false
#print axioms Verif.Lambert.Props.C40_unconverged_false
#print axioms Verif.Moid.Props.C41_circle
#print axioms Verif.Moid.Props.C41_circle_minimum
#print axioms Verif.Moid.Props.C41_unbound
#print axioms Verif.Moid.Props.C41_ellipse_false
#print axioms Verif.Moid.Props.C41_inclined_false
#print axioms Verif.Moid.Props.C41_touching_false
#print axioms Verif.Moid.Props.C41_circles_false
#print axioms Verif.Gauss.Props.C42_coplanar
#print axioms Verif.Gauss.Props.C42_unique
#print axioms Verif.Gauss.Props.C42_root
#print axioms Verif.Gauss.Props.C43_gibbs
#print axioms Verif.Gauss.Props.C43_mu_false
#print axioms Verif.Gauss.Props.C43_revolution_false
#print axioms Verif.Sph.Props.C44_ranges
#print axioms Verif.Sph.Props.C44_position
#print axioms Verif.Sph.Props.C44_cartesian
#print axioms Verif.Sph.Props.C44_axis
#print axioms Verif.Sph.Props.C44_origin
#print axioms Verif.Sph.Props.C44_cartesian_iff
#print axioms Verif.Sph.Props.C44_pole_false
#print axioms Verif.Sph.Props.C44_spherical
#print axioms Verif.Sph.Props.C44_velocity
#print axioms Verif.Sph.Props.C44_rates
#print axioms Verif.Sph.Props.C44_float_false
#print axioms Verif.Xform.Rotation.C45_round_trip
#print axioms Verif.Xform.Rotation.C45_rotation
#print axioms Verif.Xform.Rotation.C45_preserves
#print axioms Verif.Xform.Rotation.C45_covariance
#print axioms Verif.Xform.Rotation.C45_covariance_missing
#print axioms Verif.Xform.Rotation.C45_covariance_round_trip
#print axioms Verif.Xform.Rotation.C45_psd_false
#print axioms Verif.Xform.Rotation.C45_missing_false
#print axioms Verif.Xform.Rotation.C45_rotating
#print axioms Verif.Xform.Rotation.C45_spice
#print axioms Verif.Units.Props.C46_scalars
#print axioms Verif.Units.Props.C46_meaning
#print axioms Verif.Units.Props.C46_states
#print axioms Verif.Units.Props.C46_covariances
#print axioms Verif.Units.Props.C46_induced
#print axioms Verif.Tri.Props.C47_upper
#print axioms Verif.Tri.Props.C47_upper_recovers
#print axioms Verif.Tri.Props.C47_lower
#print axioms Verif.Tri.Props.C47_lower_false
#print axioms Verif.Tri.Props.C47_seven
#print axioms Verif.Tri.Props.C47_oef
#print axioms Verif.Sigma.Props.C48_error
#print axioms Verif.Sigma.Props.C48_count
#print axioms Verif.Sigma.Props.C48_weights
#print axioms Verif.Sigma.Props.C48_mean
#print axioms Verif.Sigma.Props.C48_covariance
#print axioms Verif.Sigma.Props.C48_root_exists
#print axioms Verif.Sigma.Props.C48_affine
#print axioms Verif.Resid.Props.C49_short_way
#print axioms Verif.Resid.Props.C49_congruence_false
#print axioms Verif.Resid.Props.C50_some_row
#print axioms Verif.Resid.Props.C50_all_differ
#print axioms Verif.Resid.Props.C50_single
#print axioms Verif.Resid.Props.C50_false
#print axioms Verif.OrbitClass.Props.C51_rows
#print axioms Verif.OrbitClass.Props.C51_documented
#print axioms Verif.OrbitClass.Props.C51_overlap
#print axioms Verif.OrbitClass.Props.C51_precedence
#print axioms Verif.OrbitClass.Props.C51_unclassified
#print axioms Verif.OrbitClass.Props.C51_unbound
#print axioms Verif.OrbitClass.Props.C51_representations
#print axioms Verif.OrbitClass.Props.C51_near_earth_false
#print axioms Verif.Origin.SharedProps.C52_massive
#print axioms Verif.Origin.SharedProps.C52_codes
#print axioms Verif.Xform.Props.C52_checks
#print axioms Verif.Xform.Props.C52_same
#print axioms Verif.Xform.Props.C52_requested
#print axioms Verif.Xform.Props.C52_accepts
#print axioms Verif.Xform.Props.C52_rows
#print axioms Verif.Xform.Props.C52_translation
#print axioms Verif.Xform.Props.C52_same_origin_false
#print axioms Verif.Xform.Props.C52_geodetic_false
#print axioms Verif.Xform.Props.C52_geodetic_covariance_false
#print axioms Verif.Xform.Props.C52_misshapen
#print axioms Verif.Xform.Props.C52_empty_false
#print axioms Verif.Od.Props.C53_accepted
#print axioms Verif.Od.Props.C53_percentage
#print axioms Verif.Od.Props.C53_too_few
#print axioms Verif.Od.Props.C54_budget
#print axioms Verif.Od.Props.C54_float_safe
#print axioms Verif.Od.Props.C54_largest_false
#print axioms Verif.Od.Props.C54_float_near
#print axioms Verif.Od.Props.C54_above_false
#print axioms Verif.Fit.Props.C55_assigned
#print axioms Verif.Fit.Props.C55_idempotent
#print axioms Verif.Fit.Props.C55_missing_orbit_false
#print axioms Verif.Fit.Props.C56_not_worse
#print axioms Verif.Fit.Props.C56_best
#print axioms Verif.Fit.Props.C56_none
#print axioms Verif.Fit.Props.C56_errors
#print axioms Verif.Fit.Props.C56_raises
#print axioms Verif.Fit.Props.C56_none_false
#print axioms Verif.Iod.Props.C57_accepted
#print axioms Verif.Iod.Props.C57_consistent
#print axioms Verif.Iod.Props.C57_too_few
#print axioms Verif.Iod.Props.C57_errors
#print axioms Verif.Iod.Props.C57_num_obs_false
#print axioms Verif.Iod.Props.C57_arc_false
#print axioms Verif.Iod.Props.C57_min_arc_false
#print axioms Verif.Iod.Props.C57_found
#print axioms Verif.Iod.Props.C57_failure
#print axioms Verif.Iod.Props.C57_order_false
#print axioms Verif.Eval.Props.C58_pairs
#print axioms Verif.Eval.Props.C58_edges
#print axioms Verif.Eval.Props.C58_pairs_false
#print axioms Verif.Collapse.Props.C59_orbits
#print axioms Verif.Collapse.Props.C59_orbits_general
#print axioms Verif.Collapse.Props.C59_orbits_false
#print axioms Verif.Collapse.Props.C59_null_weight
#print axioms Verif.Collapse.Props.C59_order
#print axioms Verif.Collapse.Props.C59_edges
#print axioms Verif.Collapse.Props.C59_ephemeris
#print axioms Verif.Collapse.Props.C59_ephemeris_observers_false
#print axioms Verif.Collapse.Props.C59_object
#print axioms Verif.Collapse.Props.C59_object_weights_false
#print axioms Verif.Band.Props.C60_identity
#print axioms Verif.Band.Props.C60_chain
#print axioms Verif.Band.Props.C60_identity_defined
#print axioms Verif.Band.Props.C60_inverse
#print axioms Verif.Band.Props.C60_weights
#print axioms Verif.Band.Props.C60_delta_mag
#print axioms Verif.Band.Props.C61_integrals
#print axioms Verif.Band.Props.C61_delta_mag
#print axioms Verif.Band.Props.C61_first_use
#print axioms Verif.Band.Props.C61_frozen
#print axioms Verif.Band.Props.C61_false
#print axioms Verif.Traj.Props.C62_valid
#print axioms Verif.Traj.Props.C62_lookup
#print axioms Verif.Traj.Props.C62_lookup_one
#print axioms Verif.Traj.Props.C62_own_epoch
#print axioms Verif.Traj.Props.C62_own_epoch_false
#print axioms Verif.Sbdb.Props.C63_permuted
#print axioms Verif.Sbdb.Props.C63_asymmetric_false
#print axioms Verif.Sbdb.Props.C63_symmetric
#print axioms Verif.Sbdb.Props.C63_quadratic
#print axioms Verif.Sbdb.Props.C64_attempts
#print axioms Verif.Sbdb.Props.C64_arguments
#print axioms Verif.Sbdb.Props.C64_order
#print axioms Verif.Sbdb.Props.C64_missing
#print axioms Verif.Sbdb.Props.C64_unknown
#print axioms Verif.Sbdb.Props.C64_concurrency
#print axioms Verif.Sbdb.Props.C64_failure
#print axioms Verif.Sbdb.Props.C65_value
#print axioms Verif.Sbdb.Props.C65_fallback
#print axioms Verif.Sbdb.Props.C65_slope
#print axioms Verif.Sbdb.Props.C65_sigma
#print axioms Verif.Sbdb.Props.C65_absent
#print axioms Verif.Sbdb.Props.C65_last
#print axioms Verif.Sbdb.Props.C65_zero_false
#print axioms Verif.Sbdb.Props.C65_sigma_false
#print axioms Verif.Oem.Props.C66_frames
#print axioms Verif.Oem.Props.C66_centers
#print axioms Verif.Oem.Props.C66_names
#print axioms Verif.Oem.Props.C66_one_object
#print axioms Verif.Oem.Props.C66_rows
#print axioms Verif.Oem.Props.C66_propagated
#print axioms Verif.Oem.Props.C66_origin_refused
#print axioms Verif.Oem.Props.C66_origin_false
#print axioms Verif.Oem.Props.C66_covariance_false
#print axioms Verif.Oem.Props.C66_segments
#print axioms Verif.Oem.Props.C66_covariance_source
#print axioms Verif.Oem.Props.C66_covariance_absent
#print axioms Verif.Spk.Props.C67_columns
#print axioms Verif.Spk.Props.C67_written
#print axioms Verif.Spk.Props.C67_covered
#print axioms Verif.Spk.Props.C67_full
#print axioms Verif.Spk.Props.C67_exact
#print axioms Verif.Spk.Props.C67_last
#print axioms Verif.Spk.Props.C67_problem
#print axioms Verif.Spk.Props.C67_states
#print axioms Verif.Spk.Props.C67_last_false
#print axioms Verif.Spk.Props.C67_orbit
#print axioms Verif.Spk.Props.C67_targets
#print axioms Verif.Band.ResolveProps.C68_station
#print axioms Verif.Band.ResolveProps.C68_unique
#print axioms Verif.Band.ResolveProps.C68_rows
#print axioms Verif.Band.ResolveProps.C68_accepts
#print axioms Verif.Band.ResolveProps.C68_capitals
#print axioms Verif.Hg.Props.C69_phase_angle
#print axioms Verif.Hg.Props.C69_apparent
#print axioms Verif.Hg.Props.C69_both
#print axioms Verif.Hg.Props.C69_opposition
#print axioms Verif.Hg.Props.C69_monotone
#print axioms Verif.Hg.Props.C69_implementations_agree
#print axioms Verif.Hg.Props.C69_implementations_180
#print axioms Verif.Hg.Props.C69_scaling
#print axioms Verif.Ades.Props.C70_written
#print axioms Verif.Ades.Props.C70_round_trip
#print axioms Verif.Ades.Props.C70_refused
#print axioms Verif.Ades.Props.C70_rounding
#print axioms Verif.Ades.Props.C70_keyword_false
#print axioms Verif.Ades.Props.C70_bar_false
#print axioms Verif.Ades.Props.C70_hash_false
#print axioms Verif.Ades.Props.C70_null_false
#print axioms Verif.Ades.Props.C70_uncertainty_false
#print axioms Verif.Ades.Props.C70_coinvestigators_false
#print axioms Verif.Ades.Props.C70_code_false
#print axioms Verif.Rot.Props.C71_loose
#print axioms Verif.Rot.Props.C71_exists
#print axioms Verif.Rot.Props.C71_rounds
#print axioms Verif.Rot.Props.C71_counts
#print axioms Verif.Rot.Props.C71_least
#print axioms Verif.Rot.Props.C71_converged
#print axioms Verif.Rot.Props.C71_clipped
#print axioms Verif.Rot.Props.C71_unclipped
#print axioms Verif.Rot.Props.C71_few
#print axioms Verif.Rot.Props.C71_equal_weights
#print axioms Verif.Rot.Props.C71_select
#print axioms Verif.Rot.Props.C71_exact_false
#print axioms Verif.AbsMag.Props.C72_grouped
#print axioms Verif.AbsMag.Props.C72_order
#print axioms Verif.AbsMag.Props.C72_accepts
#print axioms Verif.AbsMag.Props.C72_left_out
#print axioms Verif.Time.Props.C73_from_astropy_array
#print axioms Verif.Time.Props.C73_scalar_not_normal
#print axioms Verif.Time.Props.C73_scalar_agrees
#print axioms Verif.Mpc.Props.C74_accepts_garbage
#print axioms Verif.Mpc.Props.C74_packed_unpacks
#print axioms Verif.Obs80.Props.C75_columns
#print axioms Verif.Obs80.Props.C75_rejects
#print axioms Verif.Chunk.Props.C76_names_bad_row
#print axioms Verif.Spice.Props.C77_translation
#print axioms Verif.Sched.Props.C78_pairing
#print axioms Verif.Sched.Props.C78_repeated_id_false
#print axioms Verif.Eph2.Props.C79_covariance
#print axioms Verif.Eph2.Props.C79_covariance_false
#print axioms Verif.Eph2.Props.C80_schedule
#print axioms Verif.Eph2.Props.C80_failure
#print axioms Verif.Eph2.Props.C80_edges
#print axioms Verif.Eph2.Props.C80_empty_false
#print axioms Verif.Eph2.Props.C80_negative_chunk_false
#print axioms Verif.Collapse.Props.C81_groups
#print axioms Verif.Collapse.Props.C81_independent
#print axioms Verif.Collapse.Props.C81_edges
#print axioms Verif.Collapse.Props.C81_other_groups_false
#print axioms Verif.Collapse.Props.C82_scaled
#print axioms Verif.Collapse.Props.C82_weights
#print axioms Verif.Collapse.Props.C82_weights_false
#print axioms Verif.Collapse.Props.C83_layout
#print axioms Verif.Collapse.Props.C83_edges
#print axioms Verif.Collapse.Props.C83_grid_false
#print axioms Verif.Od.Props.C84_normal
#print axioms Verif.Od.Props.C84_removed_false
#print axioms Verif.Od.Props.C84_stale_false
#print axioms Verif.Fit.Props.C85_duplicates
#print axioms Verif.Fit.Props.C85_first
#print axioms Verif.Fit.Props.C85_last
#print axioms Verif.Fit.Props.C86_removed
#print axioms Verif.Fit.Props.C86_one
#print axioms Verif.Fit.Props.C86_errors
#print axioms Verif.Fit.Props.C86_raises
#print axioms Verif.Fit.Props.C86_one_false
#print axioms Verif.Iod.Props.C87_paired
#print axioms Verif.Iod.Props.C87_unsorted_false
#print axioms Verif.Iod.Props.C88_combinations
#print axioms Verif.Iod.Props.C88_increasing
#print axioms Verif.Iod.Props.C88_ranks
#print axioms Verif.Band.Props.C89_accepts
#print axioms Verif.Band.Props.C89_order
#print axioms Verif.Band.Props.C90_mixture
#print axioms Verif.Band.Props.C90_grey
#print axioms Verif.Band.Props.C90_grey_colours
#print axioms Verif.Band.Props.C90_mag10
#print axioms Verif.Hg.Props.C91_predict
#print axioms Verif.Hg.Props.C91_accepts
#print axioms Verif.Hg.Props.C91_state
#print axioms Verif.AbsMag.Props.C92_accepts
#print axioms Verif.AbsMag.Props.C92_weighted
#print axioms Verif.AbsMag.Props.C92_unweighted
#print axioms Verif.AbsMag.Props.C92_between
#print axioms Verif.AbsMag.Props.C92_columns
#print axioms Verif.AbsMag.Props.C92_scatter
#print axioms Verif.AbsMag.Props.C92_shift
#print axioms Verif.AbsMag.Props.C92_scale
#print axioms Verif.AbsMag.Props.C92_order
#print axioms Verif.AbsMag.Props.C92_recover
#print axioms Verif.Resid.Props.C93_rows
#print axioms Verif.Resid.Props.C93_accepts
#print axioms Verif.Resid.Props.C93_mixed_false
#print axioms Verif.Resid.Props.C94_single
#print axioms Verif.Resid.Props.C94_covariance
#print axioms Verif.Resid.Props.C94_mahalanobis
#print axioms Verif.Resid.Props.C94_nonneg
#print axioms Verif.Resid.Props.C94_latitude
#print axioms Verif.Resid.Props.C94_no_latitude
#print axioms Verif.Resid.Props.C94_pole
#print axioms Verif.Resid.Props.C94_dof
#print axioms Verif.Resid.Props.C94_reduced
#print axioms Verif.Xform.Props.C95_round_trip
#print axioms Verif.Xform.Props.C95_path
#print axioms Verif.Univ.Props.C96_compose
#print axioms Verif.Univ.Props.C96_back
#print axioms Verif.Univ.Props.C96_period
#print axioms Verif.Univ.Props.C96_propagate
#print axioms Verif.Kep.Props.C97_range
#print axioms Verif.Kep.Props.C97_elliptic
#print axioms Verif.Kep.Props.C97_hyperbolic
#print axioms Verif.Kep.Props.C97_unique
#print axioms Verif.Kep.Props.C97_round_trip
#print axioms Verif.Kep.Props.C97_iterations
#print axioms Verif.Kep.Props.C97_unconverged_false
#print axioms Verif.Kep.Props.C98_motion
#print axioms Verif.Kep.Props.C98_elliptic
#print axioms Verif.Kep.Props.C98_hyperbolic
#print axioms Verif.Kep.Props.C98_period
#print axioms Verif.Kep.Props.C98_cometary
#print axioms Verif.Kep.Props.C98_cometary_hyperbolic
#print axioms Verif.Kep.Props.C98_cometary_false
#print axioms Verif.Kep.Props.C98_parabolic
#print axioms Verif.Kep.Props.C98_parabolic_false
#print axioms Verif.Kep.Props.C98_checks
#print axioms Verif.Kep.Props.C99_elliptic
#print axioms Verif.Kep.Props.C99_round_trip
#print axioms Verif.Kep.Props.C99_hyperbolic
#print axioms Verif.Kep.Props.C99_hyperbolic_false
#print axioms Verif.Kep.Props.C99_inverse
#print axioms Verif.Kep.Props.C99_derived
#print axioms Verif.Kep.Props.C99_planar_false
#print axioms Verif.Kep.Props.C99_circular_false
#print axioms Verif.Kep.Props.C99_nearly_circular_false
