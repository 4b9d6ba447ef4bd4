# Design of the adam_core formal model

Source modelled: `/repo` (B612-Asteroid-Institute/adam_core, pinned commit), read as text and never run.
Prover: Lean 4.33.0 with Mathlib modules imported one at a time.

Properties are listed in `properties.jsonl`, the theorems that settle them in `MANIFEST.json`. Each topic has a
directory under `lean/Verif`: `Model.lean` (or several model files) transcribes the code, `Spec.lean` states the
vocabulary of the properties without using the model's helpers, `Lemmas.lean` holds auxiliary facts, `Props.lean` (or
several `*Props.lean`) holds the property theorems, named `Cnn_...`, each followed by a concrete case that meets its
hypotheses where it has any.

## Trusted base

- The Lean 4 kernel.
- The three standard axioms `propext`, `Classical.choice`, `Quot.sound`. No other axiom is used; the file
  `lean/Verif/Audit.lean` prints the axioms of every property theorem during the build. There is no `sorry`, `admit`,
  `native_decide` or `bv_decide`.
- The faithfulness of the hand-written model. Every definition cites the file and lines it mirrors and says what it
  leaves out.
- The contracts of third-party code listed below, where a theorem names them as hypotheses or a definition models them.

## Idealisations used everywhere

- `int64` columns are `Int` (no overflow), except in `Verif/Time/Int64.lean` and the keys of `Spice`, where integers
  are reduced modulo 2^64 as numpy and pyarrow do (C06, C22–C24, C178). `float64` is `ℝ`, `ℚ` or an arbitrary (ordered) field, so the theorems are
  about exact arithmetic. Exceptions: `Verif/F64.lean` models binary64 rounding over `ℚ` and is used where rounding
  decides the outcome (C54, C128, C194–C206), and `C44_float_false` and the like use the values float64 would give. NaN and infinities
  are explicit where the code tests for them (`Option`, or `Num.fin/inf/nan`, or `Option EReal`).
- A quivr/pyarrow table is a `List` of rows or of columns. A null is `none`. An exception is an `Except` value carrying
  the exception kind (`Verif.PyErr`).
- Third-party code (numpy, pyarrow, jax, ray, SPICE, ERFA, astropy, scipy, pandas, the oem package) is not modelled
  inside. Its documented contract is (sorting is stable, `index_in` returns the first index, `ray.wait` returns some
  finished task in any order), or it is an arbitrary function with the hypotheses a theorem states: for instance a
  solver that solves equations that are not singular, a square root that squares to its argument, a minimiser that
  returns a minimum. Where such a hypothesis could be empty, an existence theorem shows that it is not
  (`exists_leastSquares`, `C48_root_exists`, `tableEnv_sound`, ...).
- Numerical kernels that the surrounding code treats as black boxes (propagators, Jacobians, least-squares answers) are
  arbitrary functions in the theorems about that surrounding code, so these hold for every numerical history.
- A parallel run is any sequence of choices of the next finished task (`Sched.runTasks`, with the throttling of the
  code); theorems quantify over all of them.
- Caches and registries are state machines; theorems quantify over all histories of calls.

## False properties

A property that the code does not have keeps its original wording in the statement, marked "not true, and proved so",
with a theorem `..._false` (or `..._not_...`) proving the failure on a concrete reachable input, and the statement is
corrected to the exact condition under which it holds, or to what is returned instead, which is then proved. The
manifest status "proved" refers to the corrected statement together with the refutation.

## What is modelled, and how

| directory | claims | code modelled | left out or idealised | proof method |
|-----------|--------|---------------|-----------------------|--------------|
| `Time` | C01–C10, C73, C175, C176, C178, C194–C197, C199, C202, C205 | `time.py`: arithmetic, `rounded`, `difference`, `equals`, `min`/`max`, `key`, `rescale` between tai/tt/tdb/utc and through astropy, `from_mjd`/`from_jd`/`from_et`/`mjd`/`jd`/`et`, `from_astropy`, `to_iso8601`, `from_iso8601`; ERFA's `utctai`, `taiutc`, `d2dtf`, `dtf2d` from 1972 on (`Leap`, `Iso`); `mjd`/`jd`/`et`, their inverses and the additions of float64 amounts with float64 rounding (`Float`), `from_astropy` and the leap-second correction likewise (`AstropyFloat`, `LeapFloat`); durations of propagations, Lambert arcs and observations likewise (`DurationFloat`); the times that ADES texts state (`IsoFloat`) and those of propagated orbits (`LabelFloat`) | int64 overflow outside C178; digits of texts and calendar dates; UTC before 1972; for C07 ERFA and the TT–TDB series are parameters bounded by `Sound`, which is proved of the ERFA model with every leap-second table and of the code's series | integer arithmetic, induction over histories, floor and rounding lemmas |
| `Mpc` | C11–C15, C74 | `utils/mpc.py`: all pack and unpack functions and the two dispatchers | ASCII digits and letters | digit arithmetic; finite letter tables evaluated in full by the kernel |
| `Obs80` | C16–C18, C75, C201 | `obs80.py`: field parsers, record parser, file reader; the angles also with float64 rounding (`Float`) | Decimal is exact | arithmetic, induction over lines |
| `Chunk`, `Lru` | C19–C21, C76, C184 | `utils/iter.py`, `utils/chunking.py`, `utils/bounded_lru.py`, the array conversions of `transform.py`, serial loop of `propagation.py` | kernels satisfy the row-wise contract | induction on length; invariant over histories |
| `Spice` | C22–C24, C77, C165, C178 | `utils/spice.py`, `observers/state.py` caches, `cartesian_to_origin` | SPICE is an antisymmetric function of the loaded kernels; digests do not collide | state machine invariants |
| `Sched` | C25, C26, C28, C30, C32, C78, C143 | task submission and collection in `propagator.py`, `propagation.py`, `moid.py`, `od.py`, `porkchop.py`, `impacts.py`; final sorts; `ensure_input_origin_and_frame` | workers treat orbits independently | invariance of sorting under permutations, induction over schedules |
| `Joins` | C27, C29 | alignment of ephemerides with observers and parameters in `propagator.py`, `Observers.from_codes`, `Exposures.observers` | photometric functions are row functions | list lemmas, injectivity of the key text |
| `Collapse` | C59, C81–C83, C183 | all collapse methods of `orbits/variants.py` | circular mean an arbitrary symmetric function; light-time correction an arbitrary row function | algebra of weighted sums over groups |
| `Eph2` | C31, C79, C80 | `dynamics/ephemeris.py`: batching, error reports, covariances, workers | the jitted kernel is an arbitrary row-wise function | list lemmas |
| `Impact` | C33, C173, C206 | `impacts.py`: detection bookkeeping, probabilities, Mahalanobis distance; mean times with float64 rounding (`MeanFloat`) | the propagator's detection is a parameter | counting |
| `Eval`, `Od`, `Fit`, `Iod` | C53–C58, C84–C88, C182 | `evaluate.py`, `od.py`, `outliers.py`, `fitted_orbits.py`, `least_squares.py`, `iod.py` | propagation, derivatives and linear algebra are oracles | loop invariants |
| `Lsq` | C146–C149 | `differential_correction.py`; `least_squares.py`: residual columns, perturbations, partial derivatives, normal equations, RMS | propagator and scipy's minimiser arbitrary; exact arithmetic | refinement, matrix algebra, limits of difference quotients |
| `Viz` | C150–C152, C187–C190, C198 | `dynamics/plots.py`: `prepare_propagated_variants`, `generate_impact_visualization_data`, `plot_impact_simulation`, `plot_risk_corridor` (points, counts, frames, ticks; not styling, texts, Earth and Moon), `create_sphere`; `orbits/plots.py`: `plot_orbit`, `ellipsoid`, `add_observation_plot`; dates of `porkchop.py`, these and the number of states of an SPK file also with float64 rounding (`SampleFloat`) | exact arithmetic except in `SampleFloat`; propagator, transformations, random choice and order of ties arbitrary | induction over impacts, floor lemmas |
| `Variants` | C153 | `VariantOrbits.create` of `orbits/variants.py`, together with the models `Sigma` and `Collapse` | exact square root | induction over orbits, algebra of weighted sums |
| `Vendor` | C154–C158 | `_parse_svo_curve`, `_normalize_curve`, `build_bandpass_curves`, `build_asteroid_templates`, `build_template_bandpass_integrals` of `photometry/bandpasses/vendor.py`; `bandpass_color_terms` of `bandpasses/api.py`, together with the model `Band` | exact; the exponential over ℝ; downloads arbitrary, files left out | induction over samples, linearity and monotonicity of integrals |
| `Openspace` | C159–C161, C191 | `orbits/openspace`: `LuaDict`, `Resource`, translations, `create_initialization`, `create_renderable_trail_orbit`, `create_renderable_orbital_kepler`, `orbits_to_sbdb_file` (columns and epochs, not the text format) | text of numbers and times arbitrary; exact arithmetic | round trip with a Lua table reader, induction over orbits |
| `Traj` | C62, C200 | `trajectory.py`; with times in nanoseconds compared as float64 MJDs (`Float`) | conversion of the times to TDB | sorting lemma, rounding lemmas |
| `Sbdb`, `Tri`, `Oem`, `Spk`, `Ades` | C47, C63–C67, C70, C132, C133, C168, C169 | `query/sbdb.py`, `query/neocc.py` triangles, `oem_io.py`, `spice_kernel.py` (types 3 and 9), `ades.py` | network answers arbitrary; text of times and floats by contract | index tables, list and string lemmas, Chebyshev algebra |
| `Scout` | C134–C137 | `query/scout.py` (`_fetch_with_retries`, samples and observations of objects) | `get_scout_objects`; whether a column fits its type, how text is read as a number and `casefold` are arbitrary functions; an answer that is not JSON is a `RequestException` without response | induction over attempts and objects, decision tables |
| `Horizons` | C138, C139 | `query/horizons.py` | Horizons with astroquery an arbitrary oracle; conversions of times and elements arbitrary functions; pandas' and pyarrow's sorts stable | list refinement, order of zero-padded digit strings |
| `Neocc` | C144, C145 | `query/neocc.py` | server and `float` arbitrary; transformation of the elements arbitrary; derived parameters left out (unused) | text refinement line by line, exact error conditions |
| `Units` | C46, C204 | `coordinates/units.py`, exactly and with float64 rounding (`Float`) | overflow and subnormals | field algebra, relative errors |
| `Band`, `Hg`, `AbsMag` | C60, C61, C68, C69, C72, C89–C92, C162 | `bandpasses/api.py`, `magnitude.py`, `magnitude_common.py`, `absolute_magnitude.py` | packaged curves are data | logarithms, integrals on grids, histories of caches, grouping lemmas |
| `Resid`, `OrbitClass`, `Xform` | C45, C49–C52, C93–C95 | `residuals.py`, `classification.py`, `transform.py` dispatcher, `cartesian.py` rotation and translation, `origin.py` | conversions of one row are functions; SPICE matrices an oracle | linear algebra, decision tables |
| `Univ`, `Kep` | C34–C37, C96–C100, C140–C142, C192, C193 | `stumpff.py`, `chi.py`, `lagrange.py`, `propagation.py` kernel, `kepler.py`, `barker.py`, element conversions of `transform.py` | convergence of the iteration for chi for ellipses with e > 0.6 and towards the centre on parabolas and hyperbolas, and for Kepler's equation where 0.9 < e < 1 and the first step crosses apoapsis (bounds there are by the last correction) | real analysis: the motion is a solution of Newton's equation, uniqueness of solutions |
| `Aberr`, `Sph` | C38, C39, C44, C101, C102, C167, C170 | `aberrations.py`, spherical and geodetic conversions, ephemeris kernel, `observers.py` longitudes and latitudes | – | real analysis, trigonometry |
| `Sigma` | C48, C103, C104, C171, C172 | `covariances.py` sampling and transforms, `jacobian.py`, `coordinates/variants.py` | matrix square root and sampler are parameters; eigendecomposition by the spectral theorem | matrix algebra |
| `Lambert`, `Porkchop` | C40, C105, C163, C164, C179–C181, C185, C186 | `lambert.py`, `porkchop.py` data generation, orbits and directions of solutions, what the plot's traces hold, colour scales | convergence of the iteration from the first guess (locally it is proved); labels, layout and rendering of the plot, its datetimes | real analysis, hypergeometric series; list lemmas |
| `Gauss` | C42, C43, C106, C108 | `gauss.py`, `gibbs.py`, `herrick_gibbs.py` | `np.roots` arbitrary | vector algebra, Taylor bounds |
| `Moid` | C41, C107 | `moid.py` | scipy's minimiser by contract | vector algebra |
| `Rot` | C71, C109–C120 | `photometry/rotation/`: fits, design, frequency grid and search, clusters, verdict, estimator, wrappers, jax backend, scores; `observers/utils.py` | least squares and the F distribution by contract; order 0 | least-squares theory, loop invariants, decision tables |
| `Cov`, `Ric`, `Cart` | C121–C123, C174 | `coordinates/covariances.py` storage, `cartesian.py` RIC axes, magnitudes and uncertainties | – | list lemmas, vector algebra |
| `Origin` | C177 | `coordinates/origin.py` | nulls; comparison of arrays as in numpy 2 | table lookups, loop invariant |
| `Ray` | C166 | `ray_cluster.py` | Ray's answers arbitrary | state machine |
| `Tiss` | C124 | `dynamics/tisserand.py` | – | inequalities |
| `Catalog`, `Link` | C125–C127, C203 | `observations/` tables: grouping, `source_catalog.py`, `exposures.py`, middles of exposures with float64 rounding too (`Float`); `Ephemeris.link_to_observers`, `Timestamp.link` | healpix numbers and scale conversion arbitrary | permutations of groups |
| `Dates` | C128 | `utils/mpc.py` `_unpack_mpc_date`, `convert_mpc_packed_dates` | binary64 rounding modelled; what astropy's `isot` reader accepts is a contract | error bounds over all digit strings |
| `Dc` | C129, C130 | `od.py` `differential_correction` and workers, `iod.py` `sort_by_id_and_time` | the fit of one orbit arbitrary; completion and join order arbitrary | refinement to one fit per row |
| `Elements` | C131 | derived properties of `KeplerianCoordinates`, `CometaryCoordinates`; `calc_period` etc. of `dynamics/kepler.py` | exact arithmetic with inf and NaN | extremes and least period of the motion |

## Code that is not modelled

Plotting (the figures of `dynamics/plots.py` and `porkchop.py`, `orbits/plots.py`, `utils/plots`) and the
`RenderableOrbitalKepler` asset of `orbits/openspace`, network access itself (the answers of the services are arbitrary), the downloads of bandpass vendoring (`bandpasses/vendor.py`), test-data helpers, automatic
differentiation itself (derivatives are stated mathematically where they matter, C44, or are oracles).
