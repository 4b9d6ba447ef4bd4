{"id": "C01", "title": "Adding nanoseconds moves the instant by exactly that amount", "statement": "For a Timestamp row with 0 <= nanos < 86400e9, add_nanos(n) with -86400e9 <= n < 86400e9 returns a row whose instant (days*86400e9+nanos) is exactly n nanoseconds later and whose nanos field is again in [0, 86400e9). add_seconds, add_millis, add_micros and add_days shift by exactly the requested amount in the same sense; an amount per row may be given, and an amount that is not a whole number of nanoseconds moves by the nearest one. With check_range on, an amount outside that window raises ValueError and no row is produced. A non-empty array of amounts that has not one amount per row raises ArrowInvalid. Not true, and proved so: that a table without rows accepts an empty array of amounts (it raises ValueError as if out of range, except for add_days).", "quantifier": "every normalised timestamp row and every integer amount", "why_tests_cant": "The carry/borrow at the day boundary must be right for all 86400e9 nanosecond values times all amounts; tests sample a handful.", "anchors": ["src/adam_core/time/time.py::Timestamp.add_nanos", "src/adam_core/time/time.py::Timestamp.add_seconds", "src/adam_core/time/time.py::Timestamp.add_millis", "src/adam_core/time/time.py::Timestamp.add_micros", "src/adam_core/time/time.py::Timestamp.add_days"]}
{"id": "C02", "title": "Timestamps stay normalised under any history of arithmetic", "statement": "Starting from a normalised Timestamp, after any finite sequence of add_nanos/add_micros/add_millis/add_seconds/add_days/add_fractional_days/rounded calls that do not raise, the nanos field is in [0, 86400e9), and the final instant is the initial instant plus the sum of the individual shifts.", "quantifier": "every initial row, every finite sequence of operations of any length", "why_tests_cant": "An induction over unbounded histories; a test can only run particular short sequences.", "anchors": ["src/adam_core/time/time.py::Timestamp.add_nanos", "src/adam_core/time/time.py::Timestamp.add_fractional_days", "src/adam_core/time/time.py::Timestamp.rounded"]}
{"id": "C03", "title": "difference is the exact inverse of addition", "statement": "t1.difference(t2) (and difference_scalar) returns days and nanos with 0 <= nanos < 86400e9 and days*86400e9+nanos equal to the exact instant difference; t2.add_days(days).add_nanos(nanos) equals t1 field by field (for tables with rows). Different scales raise ValueError.", "quantifier": "every pair of normalised rows", "why_tests_cant": "Needs every borrow combination of two nanos fields and signs of the difference.", "anchors": ["src/adam_core/time/time.py::Timestamp.difference", "src/adam_core/time/time.py::Timestamp.difference_scalar"]}
{"id": "C04", "title": "rounded truncates to the precision, never crosses a unit and is idempotent", "statement": "rounded(p) for p in ns/us/ms/s returns the same day, a nanos that is a multiple of the unit, not after the original and less than one unit before it; applying it twice equals applying it once, rounding at a finer precision first does not change the coarser result, and any other precision string raises ValueError.", "quantifier": "every normalised row, every precision string", "why_tests_cant": "Universally quantified arithmetic law over all nanos values and all precision strings.", "anchors": ["src/adam_core/time/time.py::Timestamp.rounded"]}
{"id": "C05", "title": "equals at a precision accepts one exact window of differences", "statement": "a.equals(b, precision) is exact equality of instants at precision ns; at a coarser precision with unit u (in ns) it holds exactly if the instants are equal or -(u-1) <= a - b < u-1. Claimed first, not true and proved so: that it is symmetric in a and b (a difference of exactly u-1 ns is accepted in one direction only). A table is compared row by row with a table of the same length, and every row with the one row of a table of length one; it is a ValueError exactly if the scales differ, the precision is unknown, or the lengths differ and the other table does not have one row.", "quantifier": "every pair of normalised rows and every precision", "why_tests_cant": "The asymmetry sits at single values of the difference (for example +999 ns versus -999 ns), which sampling does not hit.", "anchors": ["src/adam_core/time/time.py::Timestamp.equals", "src/adam_core/time/time.py::Timestamp.equals_scalar", "src/adam_core/time/time.py::Timestamp.equals_array", "src/adam_core/time/time.py::_duration_arrays_within_tolerance"]}
{"id": "C06", "title": "key orders timestamps exactly from 1566 to 2151, and min/max return the extremal row", "statement": "For normalised rows in one scale, from 1566-08-09 to 2151-02-24, key(a) < key(b) iff a is strictly earlier, and key(a) = key(b) iff the rows are identical. max()/min() return a row of the table whose instant is not exceeded by (does not exceed) any other row; a single-row table returns itself. Not true, and proved so: that keys order timestamps of later dates (the key of 2151-02-26 is negative).", "quantifier": "every table of normalised rows of any length, every row pair", "why_tests_cant": "Order isomorphism and extremality are statements over all pairs in all tables.", "anchors": ["src/adam_core/time/time.py::Timestamp.key", "src/adam_core/time/time.py::Timestamp.max", "src/adam_core/time/time.py::Timestamp.min"]}
{"id": "C07", "title": "Rescaling between TAI and TT, and TT/TAI/UTC round trips, lose nothing", "statement": "rescale('tt') after rescale('tai') (and the reverse) restores the row exactly; rescaling to the row's own scale is the identity; the result carries the requested scale and is normalised; conversions through intermediate scales agree with direct ones, except tt -> utc, which agrees with tt -> tai -> utc exactly if the leap-second lookup gives the same answer at the TT and at the TAI reading of the instant and is otherwise off by their difference. Not true, and proved so: that tt -> utc always agrees with tt -> tai -> utc (shortly before noon of a day that ends in a leap second it is a second off).", "quantifier": "every normalised row, every ordered pair of scales among tai/tt/utc/tdb, every leap-second table", "why_tests_cant": "Path independence fails only near leap second boundaries and on one of twelve scale pairs; tests compare a few epochs with astropy.", "anchors": ["src/adam_core/time/time.py::Timestamp.rescale", "src/adam_core/time/time.py::Timestamp._leap_seconds_correction", "src/adam_core/time/time.py::Timestamp._tt_tdb_correction"]}
{"id": "C08", "title": "rescale rejects unknown scales", "statement": "rescale(s) for a scale string that is not tai, tt, tdb, utc or ut1 raises ValueError from tt, tai, tdb and ut1. Not true, and proved so: that it does from utc; there every string is accepted, and the result holds the TAI rows under that label.", "quantifier": "every current scale and every target string", "why_tests_cant": "The target ranges over all strings; only one starting scale misbehaves.", "anchors": ["src/adam_core/time/time.py::Timestamp.rescale"]}
{"id": "C09", "title": "from_mjd is accurate and normalised except just before midnight", "statement": "from_mjd(x) yields days and nanos with an instant within half a nanosecond of x (exact arithmetic) and nanos >= 0, and it is normalised (nanos < 86400e9) exactly if x lies more than half a nanosecond before the next midnight; in exact arithmetic from_mjd(mjd()) and from_jd(jd()) restore every normalised row (what float64 does is C194). Not true, and proved so: that the result is always normalised.", "quantifier": "every real (rational) MJD value", "why_tests_cant": "Fails only in the last half nanosecond before midnight.", "anchors": ["src/adam_core/time/time.py::Timestamp.from_mjd", "src/adam_core/time/time.py::Timestamp.from_jd"]}
{"id": "C10", "title": "et and from_et differ by exactly the J2000 epoch", "statement": "In exact arithmetic from_et(t.et()) is, for every normalised TDB row, the normalised row exactly 51544.5 days earlier, and from_et(t.et() + 51544.5*86400) restores the row. Claimed first, not true and proved so: that from_et(t.et()) denotes the same instant as t.", "quantifier": "every timestamp", "why_tests_cant": "Universal round-trip law.", "anchors": ["src/adam_core/time/time.py::Timestamp.et", "src/adam_core/time/time.py::Timestamp.from_et"]}
{"id": "C11", "title": "Packed numbered designations round trip", "statement": "For every n in 0..15396335, pack_numbered_designation succeeds, unpack_numbered_designation of the result gives back the decimal text of n, and distinct numbers pack to distinct strings. Numbers above 15396335 raise ValueError.", "quantifier": "all 15396336 admissible numbers and every larger number", "why_tests_cant": "Fifteen million cases across three encodings; tests cover the documented examples.", "anchors": ["src/adam_core/utils/mpc.py::pack_numbered_designation", "src/adam_core/utils/mpc.py::unpack_numbered_designation"]}
{"id": "C12", "title": "Packed provisional designations round trip", "statement": "For every well-formed provisional designation (four digit year 1000..6199, half-month letter other than I or Z, second letter, cycle count without leading zeros below 620), unpacking the packed form gives back the designation, and packing is injective on them.", "quantifier": "every year 1000..6199, letter pair and cycle count", "why_tests_cant": "Millions of combinations with two different cycle encodings.", "anchors": ["src/adam_core/utils/mpc.py::pack_provisional_designation", "src/adam_core/utils/mpc.py::unpack_provisional_designation"]}
{"id": "C13", "title": "Packed survey designations round trip", "statement": "Every survey designation 'dddd P-L' / 'dddd T-k' packs into seven characters; unpacking them returns the original text exactly if the number has no leading zero, and then packing again returns the packed string. Not true, and proved so: with a leading zero the zero is lost on unpacking and the unpacked text is refused by the packer.", "quantifier": "every four digit number and survey", "why_tests_cant": "Only numbers with leading zeros misbehave.", "anchors": ["src/adam_core/utils/mpc.py::pack_survey_designation", "src/adam_core/utils/mpc.py::unpack_survey_designation"]}
{"id": "C14", "title": "Designation functions fail only with ValueError, IndexError or KeyError", "statement": "pack_mpc_designation either returns a string or raises ValueError or IndexError, and unpack_mpc_designation either returns a string or raises ValueError, IndexError or KeyError, KeyError only from unpacking and IndexError from unpacking only for the empty string, for every input string. Claimed first, not true and proved so: that only ValueError is ever raised.", "quantifier": "every input string", "why_tests_cant": "Ranges over all strings; the escaping IndexError/KeyError cases are rare shapes.", "anchors": ["src/adam_core/utils/mpc.py::pack_mpc_designation", "src/adam_core/utils/mpc.py::unpack_mpc_designation"]}
{"id": "C15", "title": "Packed designations are unambiguous across families", "statement": "The dispatcher unpack_mpc_designation applied to the packed form of a valid numbered, provisional or survey designation uses the matching family's decoder, so unpack_mpc_designation(pack_mpc_designation(d)) = d for every valid designation of every family.", "quantifier": "every valid designation of the three families", "why_tests_cant": "Requires the code spaces of the three encodings to be disjoint for all inputs.", "anchors": ["src/adam_core/utils/mpc.py::pack_mpc_designation", "src/adam_core/utils/mpc.py::unpack_mpc_designation"]}
{"id": "C16", "title": "80-column observation dates land on the right day", "statement": "For every calendar date of the years 1 to 9999 written as year, month and decimal day, the parser returns the calendar's Modified Julian Day and a nanosecond-of-day in [0, 86400e9) whose total is within half a nanosecond of the written decimal day; a fraction that rounds up to a full day carries to the next day; anything that is no calendar date is refused.", "quantifier": "every year, month, day number and every decimal fraction of any number of digits", "why_tests_cant": "Rounding and carry over arbitrary digit strings.", "anchors": ["src/adam_core/observations/obs80.py::_parse_obstime"]}
{"id": "C17", "title": "80-column declination keeps its sign", "statement": "For every sexagesimal declination, the parsed value is the sign times (d + m/60 + s/3600), in particular for -00 deg; right ascension is 15*(h+m/60+s/3600); both decrease/increase monotonically with the written value.", "quantifier": "every sign, degree, minute, second", "why_tests_cant": "The sign of zero degrees is a classic missed case; quantification over all values.", "anchors": ["src/adam_core/observations/obs80.py::_parse_dec", "src/adam_core/observations/obs80.py::_parse_ra"]}
{"id": "C18", "title": "The 80-column file reader accounts for every line", "statement": "In strict mode the reader returns the parse of every non-blank line in order or raises for the first malformed one naming its line number. In non-strict mode it returns rows exactly if no line fails with an exception other than the parser's own error, and then exactly the parses of the well-formed lines in order; otherwise it raises the exception of the first such line. Not true, and proved so: that non-strict mode always returns (a day 'NaN' and fractional hours escape).", "quantifier": "every file content (list of lines) and every line parser outcome", "why_tests_cant": "Needs induction over files of any length.", "anchors": ["src/adam_core/observations/obs80.py::parse_optical_obs80_file", "src/adam_core/observations/obs80.py::parse_optical_obs80"]}
{"id": "C19", "title": "Chunk iteration partitions its input", "statement": "_iterate_chunks and _iterate_chunk_indices with a positive chunk size yield consecutive, non-overlapping pieces of at most chunk_size rows, all but the last full, whose concatenation is the input; nothing is yielded for an empty input.", "quantifier": "every input length and every positive chunk size", "why_tests_cant": "All lengths and sizes, including exact multiples.", "anchors": ["src/adam_core/utils/iter.py::_iterate_chunks", "src/adam_core/utils/iter.py::_iterate_chunk_indices"]}
{"id": "C20", "title": "Padding to fixed-size chunks never changes results", "statement": "Any row-wise function evaluated on the fixed-size zero-padded chunks produced by process_in_chunks, concatenated and cut to the original length, equals the function applied to the rows directly, for every function (also partial ones whose value on padding is arbitrary).", "quantifier": "every row function, every input length, every chunk size", "why_tests_cant": "Quantifies over all functions and lengths.", "anchors": ["src/adam_core/utils/chunking.py::process_in_chunks", "src/adam_core/utils/chunking.py::pad_to_fixed_size", "src/adam_core/photometry/magnitude.py::calculate_apparent_magnitude_v"]}
{"id": "C21", "title": "The bounded LRU cache never lies and never grows past its bound", "statement": "For every history of get/put calls, the number of entries never exceeds maxsize, a successful get returns the value of the most recent put of that key, a key put within the last maxsize distinct keys touched is still present, and with maxsize <= 0 nothing is stored.", "quantifier": "every finite history of operations, every maxsize", "why_tests_cant": "History-dependent behaviour, unbounded.", "anchors": ["src/adam_core/utils/bounded_lru.py::bounded_lru_get", "src/adam_core/utils/bounded_lru.py::bounded_lru_put"]}
{"id": "C22", "title": "The SPICE state cache is transparent", "statement": "As long as the loaded kernels do not change, get_perturber_state returns the same states whatever calls came before it, at every cache size, including states served from the cached reverse pair; rows follow the order of the requested times and duplicate epochs get identical states. No two of the epochs of the call may be a multiple of 2^64 ns (584.5 years) apart: see C178.", "quantifier": "every history of calls, every list of epochs, every cache size", "why_tests_cant": "All call histories and evictions.", "anchors": ["src/adam_core/utils/spice.py::get_perturber_state"]}
{"id": "C23", "title": "Kernel registration takes effect after clearing the state cache", "statement": "After register_spice_kernel or unregister_spice_kernel changes the loaded kernels and clear_spkez_cache is called, get_perturber_state returns states of the kernels that are loaded now; registration itself loads the kernel at once. Not true, and proved so: that this holds without clearing the cache (states computed before are still served).", "quantifier": "every interleaving of registrations and queries", "why_tests_cant": "Stale cache entries appear only for particular histories.", "anchors": ["src/adam_core/utils/spice.py::register_spice_kernel", "src/adam_core/utils/spice.py::unregister_spice_kernel", "src/adam_core/utils/spice.py::get_perturber_state"]}
{"id": "C24", "title": "The observer state cache returns what a fresh computation would", "statement": "get_mpc_observer_state returns the same positions, velocities, frame, origin and instants as a call with an empty cache, provided no two epoch lists used collide in the 64-bit keys and digest they are cached under. Not true, and proved so: that the time column is the same (a hit returns the table of the first caller, in its time scale).", "quantifier": "every history of calls", "why_tests_cant": "History-dependent.", "anchors": ["src/adam_core/observers/state.py::get_mpc_observer_state"]}
{"id": "C25", "title": "Parallel propagation does not depend on scheduling", "statement": "propagate_orbits returns the same table for every completion order of its workers, every chunk size and every number of processes, none included, when the orbit ids are distinct: exactly one row per orbit and time, sorted by orbit id, (variant id,) and time, with the same covariances when they are requested. With repeated ids the rows are the same up to the order of rows with equal id and time. An orbit the backend rejects makes the call raise under every schedule.", "quantifier": "every completion order, every number of processes, every chunk size, every worker function", "why_tests_cant": "The number of schedules is factorial in the number of chunks.", "anchors": ["src/adam_core/propagator/propagator.py::Propagator.propagate_orbits"]}
{"id": "C26", "title": "Parallel ephemeris generation does not depend on scheduling", "statement": "EphemerisMixin.generate_ephemeris with workers returns the same table for every completion order, chunk size and number of processes when the orbit (and variant) ids and the observers are distinct: one row per orbit and observer, sorted by orbit id, (variant id,) time and observatory. With repeated ones the rows are the same up to the order of rows with the same orbit, time and observatory. It never has more than about 1.5 * max_processes tasks outstanding; every submitted chunk is collected exactly once. An orbit that the worker rejects makes the call raise under every schedule. Not true, and proved so: that the order of rows with the same orbit id, time and observatory does not depend on the schedule.", "quantifier": "every completion order, every number of processes and chunks", "why_tests_cant": "Factorially many schedules.", "anchors": ["src/adam_core/propagator/propagator.py::EphemerisMixin.generate_ephemeris"]}
{"id": "C27", "title": "Ephemeris rows are aligned with the right observer and orbit parameters", "statement": "When photometry is attached to an ephemeris table, each ephemeris row is matched with the unique observer with the same code and time; a missing or duplicated observer key raises ValueError; the H and G used for a row are those of the orbit with that orbit id, contradicting parameters for one id raise ValueError, and rows without parameters get a null magnitude. (The alternative string-key alignment shipped beside it returns the same positions when every key is present, but reports a key that sorts after all observers with IndexError.)", "quantifier": "every table of ephemeris rows, observers and orbits", "why_tests_cant": "Join correctness over all key multisets.", "anchors": ["src/adam_core/propagator/propagator.py::_alignment_indices_struct_index_in", "src/adam_core/propagator/propagator.py::_alignment_indices_string_keys", "src/adam_core/propagator/propagator.py::_hg_params_for_ephemeris_rows_arrow", "src/adam_core/propagator/propagator.py::attach_magnitude_or_phase"]}
{"id": "C28", "title": "Restoring the input origin and frame keeps one output row per result row", "statement": "ensure_input_origin_and_frame returns every result row once for every distinct origin among the input orbits with its id, expressed in that origin; so exactly once, in its own orbit's origin, when every orbit id has one origin and every result row belongs to an input orbit. Not true, and proved so: that no row is ever lost or duplicated (an id with two origins duplicates rows, an unknown id drops them).", "quantifier": "every pair of input and result tables", "why_tests_cant": "Fails only for repeated orbit ids with different origins and for unmatched rows.", "anchors": ["src/adam_core/propagator/utils.py::ensure_input_origin_and_frame"]}
{"id": "C29", "title": "Observers.from_codes keeps the caller's row order", "statement": "Observers.from_codes(codes, times) returns row i for observatory codes[i] at times[i], whatever the mixture of codes, and raises ValueError on different lengths; Exposures.observers() does the same for the exposure midpoints of a non-empty table. Not true, and proved so: that Exposures.observers() works on an empty table (it raises ArrowInvalid).", "quantifier": "every list of codes and times of any length", "why_tests_cant": "All permutations and repetitions of codes.", "anchors": ["src/adam_core/observers/observers.py::Observers.from_codes", "src/adam_core/observations/exposures.py::Exposures.observers"]}
{"id": "C30", "title": "Two-body propagation pairs every orbit with every time", "statement": "propagate_2body returns one row per (orbit, time) pair in orbit-major order with the orbit id, object id, time, state and covariance of that pair, independent of the internal chunk size and, with workers, of the completion order; for at least one time it raises if and only if the state of some orbit, or the result for some pair, is not finite. Not true, and proved so: that the table is the same for every chunk size down to the null entries of missing covariances.", "quantifier": "every number of orbits, times, chunk sizes, completion orders", "why_tests_cant": "Index arithmetic over all sizes and schedules.", "anchors": ["src/adam_core/dynamics/propagation.py::propagate_2body", "src/adam_core/dynamics/propagation.py::_propagate_2body_serial"]}
{"id": "C31", "title": "Two-body ephemerides never hide a non-finite row", "statement": "When generate_ephemeris_2body produces a non-finite value it raises, always; in one process the error for a non-finite light time names the row, orbit and time of the first offending row, and the error for non-finite coordinates of up to 2000 rows names the row whose index is six times the first offending row plus the offending column, or is an IndexError if there is none. Not true, and proved so: that the row named is always the offending one (flat index of an Nx6 array; IndexError when it exceeds the table; with workers the index is relative to the chunk).", "quantifier": "every batch with at least one non-finite entry", "why_tests_cant": "The index is right only when the failing entry lies in the first row; all batches must be considered.", "anchors": ["src/adam_core/dynamics/ephemeris.py::generate_ephemeris_2body", "src/adam_core/dynamics/ephemeris.py::_first_non_finite"]}
{"id": "C32", "title": "Collision detection and MOIDs do not depend on scheduling", "statement": "detect_collisions, calculate_perturber_moids, differential_correction and generate_porkchop_data return the same rows, up to their order, for every completion order of their workers, and fail if one of the workers fails; every order of completion is possible. Not true, and proved so: that the order of the rows is the same (it is the completion order).", "quantifier": "every completion order", "why_tests_cant": "Factorially many schedules.", "anchors": ["src/adam_core/dynamics/impacts.py::detect_collisions", "src/adam_core/dynamics/moid.py::calculate_perturber_moids", "src/adam_core/orbit_determination/od.py::differential_correction", "src/adam_core/missions/porkchop.py::generate_porkchop_data"]}
{"id": "C33", "title": "Impact probabilities count events per variant", "statement": "calculate_impact_probabilities reports for every orbit and condition the number of impact events of that orbit and condition divided by the number of variants of the orbit. When every event belongs to a variant of the table and variant ids are distinct this is at least the fraction of variants that impact, and equals it exactly if no variant has two events for the condition; it is then between 0 and 1. The events that calculate_impacts returns with its default condition are all counted by calculate_impact_probabilities with its default condition, for every number of processes and every order in which workers finish. Not true, and proved so: that each variant counts once (repeated events), and that impacts recorded by detect_collisions with its default condition are counted (named Earth there and Default here).", "quantifier": "every table of variants and impact events", "why_tests_cant": "Multiple events per variant and default-condition bookkeeping arise only for particular event histories.", "anchors": ["src/adam_core/dynamics/impacts.py::calculate_impact_probabilities", "src/adam_core/dynamics/impacts.py::detect_collisions", "src/adam_core/dynamics/impacts.py::calculate_impacts"]}
{"id": "C34", "title": "Stumpff functions satisfy their defining relations", "statement": "calc_stumpff returns the sums c_k of the series of (-psi)^n/(2n+k)!, k = 0..5, for every psi of either sign and zero; so c0 + psi*c2 = 1, c1 + psi*c3 = 1, c2 + psi*c4 = 1/2, c3 + psi*c5 = 1/6 and c0^2 + psi*c1^2 = 1 (exact arithmetic).", "quantifier": "every real psi", "why_tests_cant": "Continuum of inputs across three branches.", "anchors": ["src/adam_core/dynamics/stumpff.py::calc_stumpff"]}
{"id": "C35", "title": "Two-body steps are Newtonian motion", "statement": "In exact arithmetic, for a state that is not moving along a line through the attracting body: the universal Kepler equation has exactly one solution chi for every dt; the state obtained from the Lagrange coefficients of that chi is the state at t0+dt of the one solution of Newton's equation r'' = -mu r/|r|^3 that is in the given state at t0; the step has f*gdot - fdot*g = 1 and conserves the angular momentum vector, the energy and the eccentricity vector (also for rectilinear motion, away from the centre). The iteration makes at most max_iter+1 corrections and stops earlier only when the last correction is within the tolerance; the distance of the anomaly to the solution is bounded by the last correction times a factor that depends on the state; when the last correction is zero the propagated state is exact. Propagating by zero time returns the state. Not true, and proved so: the returned state always conserves angular momentum (exhausting max_iter is not reported).", "quantifier": "every mu > 0, every initial state with nonzero radius (nonzero angular momentum where the solution must exist), every dt, tolerance and iteration limit", "why_tests_cant": "Identity over a continuum of states.", "anchors": ["src/adam_core/dynamics/lagrange.py::calc_lagrange_coefficients", "src/adam_core/dynamics/lagrange.py::apply_lagrange_coefficients", "src/adam_core/dynamics/chi.py::calc_chi"]}
{"id": "C36", "title": "The mean anomaly is that of Kepler's equation", "statement": "For 0 <= e < 1, calc_mean_anomaly(nu, e) is a mean anomaly of the true anomaly nu in the sense of Kepler's equation, it lies in [0, 2pi), and every other mean anomaly of nu differs from it by full turns. For e > 1 and a true anomaly the orbit reaches (1 + e cos nu > 0) it is the mean anomaly of the hyperbolic Kepler equation when the body recedes from periapsis, and that mean anomaly plus 2pi when it approaches; for true anomalies the orbit does not reach it is NaN, and there is no mean anomaly. Not true, and proved so: the hyperbolic value is a mean anomaly before periapsis; the value for e = 1 satisfies Barker's equation (it is too small for every nu in (0, pi)).", "quantifier": "every eccentricity e >= 0 and every true anomaly (for e = 1, every true anomaly between periapsis and the far end)", "why_tests_cant": "Sign and branch errors show only before periapsis on unbound orbits.", "anchors": ["src/adam_core/dynamics/kepler.py::calc_mean_anomaly"]}
{"id": "C37", "title": "solve_barker solves the equation its callers use", "statement": "solve_barker(M) returns, for every real M, the true anomaly in (-pi, pi) whose parabolic mean anomaly tan(nu/2) + tan(nu/2)^3/3 is 2M. Not true, and proved so for every M other than zero: it returns the true anomaly of the parabolic mean anomaly M = sqrt(mu/(2q^3))*(t - tp) that its documentation names and its callers pass.", "quantifier": "every real M", "why_tests_cant": "Continuum; a factor-two convention error is invisible without the equation.", "anchors": ["src/adam_core/dynamics/barker.py::solve_barker"]}
{"id": "C38", "title": "Light-time correction returns the orbit emitted one light time earlier", "statement": "In exact arithmetic: when add_light_time reports a light time for a row, the orbit it returns is the given orbit propagated by exactly minus that light time. The light times computed are D(0), D(D(0)), ... where D(l) is the distance, over c, from the observer to the orbit propagated by -l; the one reported is the first that differs from the previous one by at most lt_tol, and NaN is reported when there is none before the max_lt_iter-th. For a body slower than light there is exactly one true light time; the reported one differs from it by at most (v*lt_tol + eps)/(c - v), v being the body's greatest speed and eps the error of the propagator, and it agrees with the distance to the returned orbit to within v*lt_tol + 2 eps. For an exact propagator a light time is reported whenever (v/c)^(max_lt_iter-2) times the initial light time is within the tolerance. Not true, and proved so: NaN is reported only when the tolerance was not met (it is also reported when the last allowed round met it).", "quantifier": "every orbit, observer, tolerance and iteration limit; for the accuracy, every motion slower than light and every propagator that approximates it", "why_tests_cant": "Loop invariant over arbitrary iteration counts.", "anchors": ["src/adam_core/dynamics/aberrations.py::_add_light_time", "src/adam_core/dynamics/aberrations.py::add_light_time"]}
{"id": "C39", "title": "Stellar aberration is that of special relativity", "statement": "In exact arithmetic: add_stellar_aberration returns, for every observer slower than light and every object not at the observer's place, a topocentric position with the same length as the unaberrated one, in the one direction that special relativity gives: coplanar with the velocity and with cos(theta') = (cos(theta) + beta)/(1 + beta cos(theta)). It is the identity for an observer at rest, displaces the object towards the observer's direction of motion, and is undone by the opposite velocity. The result is NaN exactly for an object at the observer's place, an observer faster than light, or an object straight behind an observer at the speed of light.", "quantifier": "every topocentric vector and observer velocity", "why_tests_cant": "Continuum identity.", "anchors": ["src/adam_core/dynamics/aberrations.py::add_stellar_aberration"]}
{"id": "C40", "title": "Lambert solutions are one Kepler orbit", "statement": "For positions r1, r2 that are not on one line through the attracting body, the velocities returned by izzo_lambert satisfy r1 x v1 = r2 x v2 and have the same orbital energy and eccentricity vector at both ends, whatever number the iteration ends with; the angular momentum is along r1 x r2, with non-negative z component for prograde=True and non-positive for prograde=False. If the number x the iteration ends with is above -1 (and below 1 when M > 0), the motion under Newton's law that starts at r1 with v1 is at r2 with v2 after a positive time that differs from the one asked for by at most the residual of the time equation at x, in units of sqrt(s^3 / (2 mu)), plus 1e-30 units where the series near the parabola is used; with M revolutions asked for and x < 1 that time lies between M and M + 1 periods. A negative time of flight gives NaN; for M = 0 a non-negative one gives velocities. Not true, and proved so: positions on opposite sides of the attracting body are answered with NaN (velocities of two different energies are returned), and an iteration that has not converged is reported (velocities are returned that never lead to r2).", "quantifier": "every pair of positions, every mu > 0, time of flight, number of revolutions, direction, iteration limit and tolerances; every motion with the initial state", "why_tests_cant": "Continuum of geometries; that the closed-form time of flight is the time under Newton's law, in the elliptic, parabolic and hyperbolic case, and that a hundred terms of the series suffice, are theorems of analysis.", "anchors": ["src/adam_core/dynamics/lambert.py::izzo_lambert", "src/adam_core/dynamics/lambert.py::solve_lambert"]}
{"id": "C41", "title": "The minimum orbit intersection distance is right for perturbers on circles in the reference plane only", "statement": "If the perturber's orbit is a circle in the reference plane, calculate_moid returns a number that is the distance between a point of the perturber's orbit and the position of the object at the returned time, which is not before its epoch: it never underestimates the minimum distance of the two orbits. If moreover the object's orbit is an ellipse and the one-dimensional minimiser finds the least value, it is the minimum distance. A perturber orbit with eccentricity 1 or more raises ValueError. Not true, and proved so: that this holds for other elliptic perturber orbits. For an eccentric orbit every point compared with, except the two apsides, is off the orbit, even if it is in the reference plane with periapsis on the x axis; for an inclined circle every point except where it crosses the reference plane. With a perfect minimiser two ellipses nowhere closer than 0.144 au get distance 0; two circles that approach to 2 au get \u221a10 au from any minimiser.", "quantifier": "every pair of orbits, every minimiser that returns a point between its bounds with its value", "why_tests_cant": "Wrong distances are plausible numbers; the true minimum is over a two-dimensional continuum of pairs of points.", "anchors": ["src/adam_core/dynamics/moid.py::calculate_moid", "src/adam_core/dynamics/moid.py::coplanar_distance_to_ellipse", "src/adam_core/dynamics/moid.py::project_point_on_plane", "src/adam_core/dynamics/moid.py::calculate_distance_from_point_to_ellipse"]}
{"id": "C42", "title": "Gauss IOD range equations hold", "statement": "The topocentric vectors computed by the Gauss step lie along the three lines of sight and satisfy the coplanarity relation r2 = lambda1*r1 + lambda3*r3 with the lambdas used, and no other vectors along the lines of sight do; the step raises ZeroDivisionError exactly if the lines of sight are coplanar or a lambda is zero. A positive number is a root of the eighth-degree polynomial exactly if |q2 + rho2*u2|, with the range that number leads to, equals that number.", "quantifier": "every triple of lines of sight, observer positions and times, every positive root", "why_tests_cant": "Algebraic identity over a continuum.", "anchors": ["src/adam_core/orbit_determination/gauss.py::gaussIOD", "src/adam_core/orbit_determination/gauss.py::_calcRhos"]}
{"id": "C43", "title": "Gibbs velocity is the true velocity within one revolution of the Sun", "statement": "For three positions at increasing times on one two-body motion about the Sun, with angular momentum, no two of them in line with the Sun, and, if the orbit is bound, first and last less than one period apart, calcGibbs returns the velocity of the motion at the second position. Not true, and proved so: that this holds for positions more than one revolution apart (the velocity can come out reversed), and that it holds for another attracting body (the gravitational parameter is always the Sun's, whatever mu gaussIOD was given).", "quantifier": "every two-body motion with angular momentum (elliptic, parabolic or hyperbolic) and three times", "why_tests_cant": "Continuum identity.", "anchors": ["src/adam_core/orbit_determination/gibbs.py::calcGibbs"]}
{"id": "C44", "title": "Cartesian and spherical coordinates are inverse", "statement": "Converting a state to spherical coordinates gives rho = the length of the position, a longitude in [0, 360) and a latitude in [-90, 90]. cartesian -> spherical -> cartesian restores every position (also at the poles and the origin), and restores the whole state exactly if it is off the polar axis or its velocity is along the axis; on the axis the transverse velocity is lost. spherical -> cartesian -> spherical restores rho > 0, longitude in [0, 360), latitude in (-90, 90) and the rates. The velocities are the derivatives of the positions in both directions (for the longitude, where it does not jump). Not true in floating point, and proved so: the longitude of a point just below the positive x axis is rounded to 360, outside the documented range.", "quantifier": "every state and every row of spherical coordinates, every differentiable motion; the rounding statement is about float64", "why_tests_cant": "Continuum with branch cuts at the longitude wrap.", "anchors": ["src/adam_core/coordinates/transform.py::_cartesian_to_spherical", "src/adam_core/coordinates/transform.py::_spherical_to_cartesian"]}
{"id": "C45", "title": "Frame rotations are exact and invertible", "statement": "Taking a Cartesian table from the equatorial to the ecliptic frame, or back, turns every complete position and velocity about the x axis by the obliquity, or its opposite; there and back is the identity on complete rows and on wholly missing ones; norms, dot products, distances and cross products are preserved. A complete covariance Sigma becomes R Sigma R^T up to 1e-25 in every entry (smaller entries become zero) and stays symmetric, and missing entries stay missing; there and back changes no entry by more than 4e-25. To and from the rotating frame every complete state, in km and km/s, is multiplied by SPICE's matrix between the two frames (J2000, ECLIPJ2000, ITRF93) at the time of its own row. To the rotating frame and back is the identity when SPICE's two matrices are inverse. Not true, and proved so: the covariance stays positive semidefinite; a partly missing row keeps its missing values missing.", "quantifier": "every state and covariance", "why_tests_cant": "Continuum.", "anchors": ["src/adam_core/coordinates/cartesian.py::CartesianCoordinates.rotate", "src/adam_core/coordinates/transform.py::cartesian_to_frame"]}
{"id": "C46", "title": "Unit conversions are inverse", "statement": "km/au, km/s / au/day, and the 6x6 covariance conversions are mutual inverses, and the covariance conversion is the one induced by the state conversion.", "quantifier": "every state and every covariance matrix", "why_tests_cant": "Continuum and 36 factors.", "anchors": ["src/adam_core/coordinates/units.py"]}
{"id": "C47", "title": "Covariance triangles unpack to the symmetric matrix", "statement": "_upper_triangular_to_full turns the 21 stored numbers into the symmetric matrix having exactly those entries in the corresponding triangle; a 28-number covariance of an OEF file gives the six-parameter block; other counts raise; _lower_triangular_to_full gives the symmetric matrix with the numbers in the lower triangle except that the places just below the diagonal are zero. Not true, and proved so: that the lower variant keeps all 21 numbers.", "quantifier": "every 21-vector", "why_tests_cant": "Index placement over all entries.", "anchors": ["src/adam_core/coordinates/covariances.py::_lower_triangular_to_full", "src/adam_core/coordinates/covariances.py::_upper_triangular_to_full", "src/adam_core/orbits/query/neocc.py::_remove_last_column_of_upper_triangular", "src/adam_core/orbits/query/neocc.py::_parse_oef"]}
{"id": "C48", "title": "Sigma points reproduce mean and covariance", "statement": "For every dimension D and alpha, beta, kappa with alpha^2 (D + kappa) not zero, sample_covariance_sigma_points returns 2D + 1 points; the weights W add up to one and the weights W_cov to 2 - alpha^2 + beta; weighted_mean of the points with W is the input mean; weighted_covariance with W_cov is the input covariance whenever the matrix square root used is a symmetric one (every positive semidefinite matrix has one); and an affine function of the points has the image of the mean and the image of the covariance. If alpha^2 (D + kappa) is zero it divides by zero.", "quantifier": "every dimension, mean, covariance, parameters and symmetric square root", "why_tests_cant": "Continuum, arbitrary dimension.", "anchors": ["src/adam_core/coordinates/covariances.py::sample_covariance_sigma_points", "src/adam_core/coordinates/covariances.py::weighted_mean", "src/adam_core/coordinates/covariances.py::weighted_covariance"]}
{"id": "C49", "title": "Longitude residuals take the short way round", "statement": "bound_longitude_residuals returns a residual in [-180, 180] whose size is the shorter arc between the two longitudes. It is observed - predicted when they are at most 180 degrees apart; across the 0/360 boundary it has the documented sign (355 - 5 = +10, 5 - 355 = -10), which is the negative of the difference modulo 360.", "quantifier": "every pair of longitudes in [0, 360)", "why_tests_cant": "Boundary cases of the wrap.", "anchors": ["src/adam_core/coordinates/residuals.py::bound_longitude_residuals"]}
{"id": "C50", "title": "Residuals refuse tables whose origins all differ", "statement": "Residuals.calculate raises ValueError when the origins differ in every row, and whenever it returns some row has equal origins; for single rows the check is exact. Claimed first, not true and proved so: that it raises when any row's observed and predicted origins differ.", "quantifier": "every pair of origin columns", "why_tests_cant": "Fails when only some rows differ.", "anchors": ["src/adam_core/coordinates/residuals.py::Residuals.calculate"]}
{"id": "C51", "title": "Orbit classes follow the JPL rules for every orbit", "statement": "calc_orbit_class gives every orbit one class, which depends on that orbit alone and not on whether it is given in Keplerian or cometary elements. For an elliptic orbit the class is one whose documented rule it meets, and AST exactly when it meets none, which happens only on region boundaries and for non-Trojan orbits between 4.6 and 5.5 au that do not come near Earth. Two rules are met together only by Amor or Apollo orbits with semi-major axes of an outer class, and then the outer class is given. Eccentricity 1 gives PAA and above 1 HYA, whatever the rest.", "quantifier": "every combination of real elements", "why_tests_cant": "Region boundaries over a continuum.", "anchors": ["src/adam_core/orbits/classification.py::calc_orbit_class", "src/adam_core/dynamics/kepler.py::calc_periapsis_distance", "src/adam_core/dynamics/kepler.py::calc_apoapsis_distance"]}
{"id": "C52", "title": "transform_coordinates returns the requested representation, frame and origin", "statement": "transform_coordinates returns a table whose class, frame and origins are the requested ones, with the same times in the same order; what is not requested stays. With no origin requested and neither class nor frame different it returns the table itself. It raises TypeError for a non-coordinates argument or an origin that is not an OriginCodes member, ValueError for an unknown frame or class, and otherwise succeeds exactly when the steps needed are possible (for Keplerian and cometary elements: when every origin has a gravitational parameter; from Keplerian elements: when no row has a semi-major axis of the wrong sign for its eccentricity). Every row is transformed as if alone in its table. The origins that need no observatory are exactly those with a NAIF id. Not true, and proved so: an empty table can always be converted (from Keplerian or cometary and to Keplerian elements it is a ValueError); requesting the origin the table already has is the same as not requesting one; geodetic coordinates are always checked to be relative to the Earth (the assertion tests a pyarrow scalar, not its value); a table with covariances can be converted to geodetic coordinates (TypeError: the Jacobian is asked for without the Earth's axis and flattening).", "quantifier": "every input class/frame/origin and every request", "why_tests_cant": "All combinations of requests through a multi-branch dispatcher.", "anchors": ["src/adam_core/coordinates/transform.py::transform_coordinates"]}
{"id": "C53", "title": "Accepted orbit fits meet the requested thresholds", "statement": "Whenever od returns a solution its reduced chi2 is at most the threshold, its arc length at least the minimum, the number of flagged outliers at most the allowed number, the remaining observations at least the minimum, and the solution flags are the complement of the outlier flags; the number of iterations is bounded.", "quantifier": "every sequence of oracle (propagator/least squares) answers", "why_tests_cant": "Loop invariant over arbitrary numerical histories.", "anchors": ["src/adam_core/orbit_determination/od.py::od"]}
{"id": "C54", "title": "The outlier budget is respected", "statement": "calculate_max_outliers returns, in exact arithmetic, the largest integer m with 0 <= m, num_obs - m >= min_obs and m <= num_obs*percentage/100, and raises exactly for num_obs < min_obs or a percentage outside 0..100. With float64 rounding (up to 2^40 observations) the answer is non-negative, keeps min_obs observations and is at most one off; for a whole percentage it is never too large, and too small at most where the percentage of the observations is a whole number. Not true, and proved so: that in float64 it is always the largest (29 percent of 100 observations gives 28), and that it never exceeds the percentage (29.999999999999996 percent of 10 gives 3).", "quantifier": "every num_obs, min_obs and percentage", "why_tests_cant": "All integer and real combinations.", "anchors": ["src/adam_core/orbit_determination/outliers.py::calculate_max_outliers"]}
{"id": "C55", "title": "Each observation ends in at most one orbit", "statement": "When every member's orbit is in the table of orbits and ids are distinct, assign_duplicate_observations leaves every observation linked to exactly one orbit, namely the best by number of observations, arc length and reduced chi2 of those it belonged to, drops orbits left without members and nothing else, and is idempotent. Not true, and proved so: that this holds for members whose orbit is not in the table.", "quantifier": "every table of orbits and members", "why_tests_cant": "All overlap patterns.", "anchors": ["src/adam_core/orbit_determination/fitted_orbits.py::assign_duplicate_observations"]}
{"id": "C56", "title": "The least-squares fit never returns a worse orbit", "statement": "Whatever the linear algebra answers, the least-squares fit returns the initial orbit or the corrected orbit with the lowest RMS of all those computed, under the ids of the initial orbit, after at most max_iterations corrections; None is returned only when the first correction does not improve, and errors are not hidden.", "quantifier": "every sequence of linear-algebra answers", "why_tests_cant": "Loop invariant.", "anchors": ["src/adam_core/orbit_determination/least_squares.py"]}
{"id": "C57", "title": "Initial orbit determination returns orbits within its limits", "statement": "Every orbit returned by iod has a reduced chi2 within the threshold and no more outliers than allowed, which are the worst observations outside the selected triple; its row states the number of observations and the arc length of the members that are not outliers when no outliers are allowed or each triple gives at most one candidate; initial_orbit_determination returns the orbits found sorted by id with their members sorted by time, independent of worker completion order when different linkages give different orbits. Not true, and proved so: that number and arc are right otherwise, that the minimum arc is always enforced, and that completion order never matters.", "quantifier": "every triple list, candidate list and completion order", "why_tests_cant": "Only particular candidate sequences overwrite an accepted solution.", "anchors": ["src/adam_core/orbit_determination/iod.py::iod", "src/adam_core/orbit_determination/iod.py::initial_orbit_determination"]}
{"id": "C58", "title": "evaluate_orbits compares each observation, given in time order, with its own prediction", "statement": "For observations in order of time and observatory, evaluate_orbits pairs every observation with the ephemeris of the same orbit at the same time and observatory, for any number of orbits in any order. Not true, and proved so: that it does for observations in any order.", "quantifier": "every order of the input observations", "why_tests_cant": "Fails only for inputs not sorted by time.", "anchors": ["src/adam_core/orbit_determination/evaluate.py::evaluate_orbits"]}
{"id": "C59", "title": "Collapsing variants groups by orbit and millisecond", "statement": "Collapsing variants back to orbits uses, for each output row, exactly the variants of that orbit on the same day and in the same whole millisecond, with their covariance weights; so exactly the variants of that orbit at that time when times of one orbit are separated at the millisecond level; ephemerides likewise with one observatory per orbit and time; collapse_by_object_id uses exactly the variants of the object, unweighted. Not true, and proved so: that epochs closer than a millisecond or several observatories at one time are kept apart, and that collapsing by object uses the weights.", "quantifier": "every table of variants", "why_tests_cant": "All key multisets.", "anchors": ["src/adam_core/orbits/variants.py::VariantOrbits.collapse", "src/adam_core/orbits/variants.py::VariantEphemeris.collapse", "src/adam_core/orbits/variants.py::VariantEphemeris.link_to_ephemeris"]}
{"id": "C60", "title": "Bandpass magnitude conversion is consistent", "statement": "Whatever was called before, and whenever the calls return: convert_magnitude from a filter to itself gives the magnitudes back, conversion A->B->C equals A->C wherever the first step gives a number, A->B->A is the identity there, only the ratio of mixing weights matters, and the first conversion with a composition adds exactly what bandpass_delta_mag reports, for every composition and every set of reflectances (a filter the template does not reach gives NaN).", "quantifier": "every filter triple, composition and magnitude", "why_tests_cant": "All filter combinations over real integrals.", "anchors": ["src/adam_core/photometry/magnitude.py::convert_magnitude", "src/adam_core/photometry/bandpasses/api.py::bandpass_delta_mag"]}
{"id": "C61", "title": "Conversions freeze a custom template at its first use", "statement": "get_integrals and bandpass_delta_mag always use the template registered last; convert_magnitude with a composition uses the template registered at the time of the first successful conversion with it, and keeps using it for every later history. Claimed first, not true and proved so: that after register_custom_template(id, ...) convert_magnitude uses the newly registered template whatever was computed before.", "quantifier": "every history of registrations and conversions", "why_tests_cant": "Stale memoised tables appear only after a particular history.", "anchors": ["src/adam_core/photometry/bandpasses/api.py::register_custom_template", "src/adam_core/photometry/magnitude_common.py::bandpass_delta_table_for_composition_cached"]}
{"id": "C62", "title": "A validated trajectory never has ambiguous coverage", "statement": "After validate_coverage succeeds, segment_for(t, object) never raises the overlap error: it returns the unique segment of that object whose half-open window contains t, or None exactly when no window contains t; each segment is found at its own anchor epoch exactly if that epoch is not the end of its window. Not true, and proved so: that every segment is found at its own epoch (an epoch equal to the stop time passes validation).", "quantifier": "every trajectory of any number of segments and objects, every time", "why_tests_cant": "Adjacent-pair check must imply pairwise disjointness for any number of segments.", "anchors": ["src/adam_core/orbits/trajectory.py::Trajectory.validate_coverage", "src/adam_core/orbits/trajectory.py::Trajectory.segment_for"]}
{"id": "C63", "title": "SBDB covariances are reordered, not altered", "statement": "The conversion of SBDB covariance matrices to cometary order is exactly the permutation (e,q,tp,node,peri,i) -> (q,e,i,raan,ap,tp) applied to rows and columns, for every symmetric matrix.", "quantifier": "every symmetric 6x6 matrix", "why_tests_cant": "All 36 entries for all matrices.", "anchors": ["src/adam_core/orbits/query/sbdb.py::_convert_SBDB_covariances"]}
{"id": "C64", "title": "SBDB queries keep the requested order under concurrency", "statement": "query_sbdb_new returns rows in the order of the requested ids for every completion order of the concurrent requests; allow_missing drops exactly the unknown ids; any failing request makes the query fail with a request's error; each payload is fetched with at most max_attempts requests, repeated only after timeouts, lost connections, throttling and server errors.", "quantifier": "every id list, completion order and response sequence", "why_tests_cant": "All schedules and failure histories.", "anchors": ["src/adam_core/orbits/query/sbdb.py::query_sbdb_new", "src/adam_core/orbits/query/sbdb.py::_get_sbdb_payloads_new", "src/adam_core/orbits/query/sbdb.py::_sbdb_api_get_json"]}
{"id": "C65", "title": "SBDB physical parameters keep every reported non-zero value", "statement": "When SBDB reports a non-zero numeric H the orbit's H_v is that number; when H is zero or missing it is whatever H_mag reports; the uncertainty of H follows the same rule on its own; G and its sigma are kept unaltered; the last entry of a name wins; without an entry there is no value. Not true, and proved so: that an H of exactly zero is kept, and that H_v and its uncertainty always come from the same entry.", "quantifier": "every payload", "why_tests_cant": "Fails only for the value 0.0.", "anchors": ["src/adam_core/orbits/query/sbdb.py::_sbdb_phys_par_from_payload"]}
{"id": "C66", "title": "OEM frame and centre names round trip", "statement": "Every frame and origin accepted by the OEM writer is read back as the same frame and origin; equatorial is written as EME2000, an origin under its name with blanks for underscores (the Earth-Moon barycenter as EARTH BARYCENTER); every row written by orbit_to_oem for a table of one origin and distinct times is read back with its own time, state, covariance and origin, in time order; tables of several objects are refused. Not true, and proved so: that tables of mixed origins are read back (all rows get the first row's centre), and that covariances stay with their rows when a time is repeated.", "quantifier": "every supported frame and origin, every table of rows", "why_tests_cant": "Mixed-origin tables are silently written with the first row's centre.", "anchors": ["src/adam_core/orbits/oem_io.py::orbit_to_oem", "src/adam_core/orbits/oem_io.py::orbit_from_oem", "src/adam_core/orbits/oem_io.py::orbit_to_oem_propagated", "src/adam_core/orbits/oem_io.py::_adam_to_oem_center", "src/adam_core/orbits/oem_io.py::_oem_to_adam_center"]}
{"id": "C67", "title": "SPK segments reproduce the fitted trajectory in full windows", "statement": "A type-3 SPK written by orbits_to_spk, read back with SPICE's fixed-length record convention, evaluates to the fitted polynomial at every time covered by a window of full length, hence everywhere when the windows fill the span; in a last, shorter window it evaluates the polynomial at a rescaled argument. Not true, and proved so: that it reproduces the trajectory there.", "quantifier": "every time span and window length", "why_tests_cant": "Only the last, shorter window is affected.", "anchors": ["src/adam_core/orbits/spice_kernel.py::write_spkw03_segment", "src/adam_core/orbits/spice_kernel.py::fit_chebyshev"]}
{"id": "C68", "title": "Filter-band resolution follows its precedence and always has a curve", "statement": "map_to_canonical_filter_bands returns a known filter id unchanged, otherwise the observatory mapping, otherwise (when allowed) the SDSS/PS1 fallback; every returned id has a bandpass curve; unresolved rows raise or become None according to on_unknown.", "quantifier": "every list of codes and bands, every mapping table", "why_tests_cant": "All combinations of options and unknown bands.", "anchors": ["src/adam_core/photometry/bandpasses/api.py::map_to_canonical_filter_bands"]}
{"id": "C69", "title": "H-G magnitudes behave physically", "statement": "calculate_phase_angle accepts exactly heliocentric rows of one frame with positive distances and gives the angle at the object between Sun and observer, in [0, 180] degrees; calculate_apparent_magnitude_v gives H + 5 log10(r Delta) - 2.5 log10 of the phase function of that angle for each row alone, whatever the origins and frames; the phase correction is zero at opposition and never decreases with the phase angle (0 <= G <= 1); the two implementations of the correction agree below 180 degrees wherever the phase function is above 1e-12. Not true, and proved so: that they agree at 180 degrees (30 magnitudes against infinity).", "quantifier": "every geometry, every H and G, every number of rows", "why_tests_cant": "Continuum.", "anchors": ["src/adam_core/photometry/magnitude_common.py::hg_phase_correction", "src/adam_core/photometry/magnitude.py::calculate_phase_angle", "src/adam_core/photometry/magnitude.py::calculate_apparent_magnitude_v", "src/adam_core/photometry/magnitude.py::calculate_apparent_magnitude_v_and_phase_angle"]}
{"id": "C70", "title": "ADES text hands over the observations, sorted and rounded, and the contexts without co-investigators", "statement": "ADES_to_string succeeds exactly when the station of every observation has a context and an observation with an identifier, and raises ValueError otherwise. Parsing its text gives back, station by station in the order of their codes, the observations of the station sorted by provID, permID, trkSub (null last) and time: texts unchanged, times to the precision written, every number with a precision rounded to within half a unit of its last decimal; and exactly the contexts of the stations observed, unchanged but for co-investigators and collaborators, which are dropped, and absent comments, which become an empty list. If an uncertainty, as rounded, is below 1e-7 or not below 100, the parser raises ValueError instead. This requires texts without bars, quotes, line ends, outer white space and the words permID, provID and trkSub, identifiers that do not start with # or !, and contexts given under their own code. Not true, and proved so: that this holds for every table. A remark that mentions provID makes the text unreadable, a bar cuts a remark, an identifier that starts with # loses the observation, a null magnitude beside one that is not null becomes NaN, an accepted uncertainty of 1e-6 arcsec and a null uncertainty beside one that is not null make the text unreadable, and a context comes back under the code it contains instead of its key.", "quantifier": "every observation table, every mapping of contexts, precision and library functions for times", "why_tests_cant": "Loss happens only for particular field contents.", "anchors": ["src/adam_core/observations/ades.py::ADES_to_string", "src/adam_core/observations/ades.py::ADES_string_to_tables", "src/adam_core/observations/ades.py::ObsContext", "src/adam_core/observations/ades.py::_data_dict_to_table", "src/adam_core/observations/ades.py::_build_obs_context"]}
{"id": "C71", "title": "Sigma clipping in the period fit is sound", "statement": "A fit of a light curve at one frequency comes from rounds of clipping: each removes the observations further than clip_sigma times the scatter from the fit to what is there, at least one, and the rounds end when one removes nothing or after max(1, max_clip_iterations) of them. So a returned fit has n_fit + n_clipped = n_obs, n_fit > n_par and df = n_fit - n_par; with a right least-squares solver its coefficients minimise the weighted squares of the kept residuals plus the two phase penalties; whatever was clipped had been beyond the threshold of a fit to a set holding it and everything kept; if max_clip_iterations is at least n_obs - n_par then everything kept is within the threshold of the final fit. None is returned only if some round leaves no more observations than parameters or no weight. Without weights and with a threshold of at least 1 that cannot happen later than at the start: there is a fit exactly if n_obs > n_par. The selected Fourier order is the smallest to which no higher order is significantly better, and IndexError is raised exactly for no candidates. Not true, and proved so: that equal weights give the scatter of no weights (once something is clipped it is larger by sqrt(n_obs/n_fit)), and that an exact fit of higher order is preferred (zero scatter never counts as better).", "quantifier": "every list of observations, design, weights, priors, frequency, order, threshold, number of rounds and least-squares solver; every distribution function and set of candidate orders", "why_tests_cant": "The clipping loop depends on residuals through any number of rounds; tests fit a few synthetic light curves.", "anchors": ["src/adam_core/photometry/rotation/core.py::_fit_frequency", "src/adam_core/photometry/rotation/core.py::_fit_frequency_unclipped", "src/adam_core/photometry/rotation/core.py::_paper_sigma", "src/adam_core/photometry/rotation/core.py::_weighted_lstsq", "src/adam_core/photometry/rotation/core.py::_f_test_confidence", "src/adam_core/photometry/rotation/core.py::_select_order"]}
{"id": "C72", "title": "Absolute-magnitude fits per object are independent", "statement": "Whenever the grouped absolute-magnitude estimator returns, its ids are strictly increasing and each object has the estimate the single-object estimator gives on the rows of that object alone; an object for which that call would raise is left out. Rows of other objects, rows without an object id and the order of the rows do not matter. The call is all or nothing: it raises as soon as one row, of whatever object, has no known exposure, band, observatory or geometry.", "quantifier": "every table of detections, exposures and positions, every grouping, every history of the photometry caches, every observatory oracle", "why_tests_cant": "All interleavings of objects.", "anchors": ["src/adam_core/photometry/absolute_magnitude.py::estimate_absolute_magnitude_v_from_detections_grouped", "src/adam_core/photometry/absolute_magnitude.py::estimate_absolute_magnitude_v_from_detections"]}
{"id": "C73", "title": "from_astropy gives the same normalised rows for scalar and array times", "statement": "Timestamp.from_astropy of an array yields rows with 0 <= nanos < 86400e9 within half a nanosecond of the astropy time; a scalar astropy time denotes the same instant and gives the same row exactly if its nanos are not a full day. Not true, and proved so: that scalar and one-element array always give the same normalised row.", "quantifier": "every astropy time, given as jd1 and jd2 with |jd2| <= 1/2", "why_tests_cant": "The two code paths differ only for times that round up to a full day, a window of half a nanosecond before midnight that sampled tests do not hit.", "anchors": ["src/adam_core/time/time.py::Timestamp.from_astropy"]}
{"id": "C74", "title": "What packs from a valid designation also unpacks", "statement": "For every valid numbered, provisional or survey designation pack_mpc_designation returns a packed string that unpack_mpc_designation accepts and whose unpacked form packs to the same string. Claimed first, not true and proved so: that this holds for every input the packer accepts (negative numbers and years below 1000 are accepted and do not come back).", "quantifier": "every valid designation (numbers up to 15396335, provisional designations, survey designations without leading zero)", "why_tests_cant": "The set of accepted strings is infinite and includes signs, leading zeros and odd years nobody samples.", "anchors": ["src/adam_core/utils/mpc.py::pack_mpc_designation", "src/adam_core/utils/mpc.py::unpack_mpc_designation"]}
{"id": "C75", "title": "The columns of an 80-column record are read back field by field", "statement": "A record assembled column by column (designation, discovery mark, notes, date, right ascension, declination, magnitude, band, catalogue, reference, observatory code) is parsed into exactly those fields, blank columns becoming nulls and characters past column 80 being ignored; records shorter than 80 columns, records of a type that needs a companion line and records without designation are refused.", "quantifier": "every content of every column", "why_tests_cant": "Column boundaries off by one only show for particular neighbouring contents; quantifies over all contents at once.", "anchors": ["src/adam_core/observations/obs80.py::parse_optical_obs80"]}
{"id": "C76", "title": "A failed two-body propagation names an offending row", "statement": "propagate_2body (in one process) either returns one propagated state for every (orbit, time) pair, each equal to propagating that pair alone, or raises an error naming the absolute position of a pair whose own propagation is not finite; which chunk a pair falls in, and the padding of the last chunk, never matter, and the internal consistency failure is never reached.", "quantifier": "all numbers of orbits and times, all input values, all chunk sizes, all row-wise propagation kernels", "why_tests_cant": "The reported position depends on chunk boundaries, padding and which rows fail; tests try a handful of sizes with one bad row.", "anchors": ["src/adam_core/dynamics/propagation.py::_propagate_2body_serial", "src/adam_core/dynamics/propagation.py::_first_non_finite_row", "src/adam_core/utils/chunking.py::process_in_chunks"]}
{"id": "C77", "title": "Origin translation treats every row on its own", "statement": "transform to another origin adds to each row the state of that row's own origin at that row's own time, for any mixture and order of body and observatory origins, whatever calls came before and with the translation cache on or off; an origin without a state makes the call fail.", "quantifier": "every table of rows, every mixture of origins, every history of calls", "why_tests_cant": "Grouping by origin, masking, scattering back and caching interact; tests use one or two origins in a fixed order.", "anchors": ["src/adam_core/coordinates/transform.py::cartesian_to_origin", "src/adam_core/coordinates/transform.py::_translation_cache_get"]}
{"id": "C78", "title": "The generic ephemeris pairs every orbit with every observer", "statement": "The generic _generate_ephemeris returns one row per orbit and observer, computed from that orbit propagated to that observer's time and from that observer, with the ids of the orbit and the time and code of the observer, sorted by orbit id, (variant id,) time and code, whenever the orbit ids (variant ids within an orbit) are distinct. With a repeated orbit id the pairing is wrong.", "quantifier": "every list of orbits with distinct ids and every list of observers, equal times included", "why_tests_cant": "The pairing relies on a sort in one function matching a tiling in another; tests use a few orbits with distinct ids and do not try repeated ids.", "anchors": ["src/adam_core/propagator/propagator.py::EphemerisMixin._generate_ephemeris"]}
{"id": "C79", "title": "Ephemeris covariances of barycentric orbits are transported at the predicted state", "statement": "generate_ephemeris_2body attaches to every row of barycentric ecliptic orbits the orbit covariance transported along the same map, at the same state, that produced the row's coordinates; rows without a covariance get none. Not true, and proved so: that this holds for orbits given in another origin or frame (the derivative is taken at the untransformed state).", "quantifier": "every table of orbits and observers, in any origin and frame, with or without covariances", "why_tests_cant": "The coordinates and covariances agree for barycentric ecliptic inputs, which tests use.", "anchors": ["src/adam_core/dynamics/ephemeris.py::generate_ephemeris_2body"]}
{"id": "C80", "title": "Two-body ephemerides do not depend on workers or completion order", "statement": "For a positive chunk size and at least one orbit, generate_ephemeris_2body returns the same table with any number of workers, chunk size and order of completion of the workers, row i belonging to orbit i and observer i; if a chunk fails no partial table is returned. Not true, and proved so: that no orbits give the same with and without workers (an empty table with workers, ValueError without).", "quantifier": "every table length, chunk size, worker count and completion order", "why_tests_cant": "Completion orders are chosen by the scheduler.", "anchors": ["src/adam_core/dynamics/ephemeris.py::generate_ephemeris_2body"]}
{"id": "C81", "title": "Collapsing ephemeris variants by object treats every group on its own", "statement": "For tables without a group whose covariance weights are all present and sum to zero, VariantEphemeris.collapse_by_object_id returns one row per (object, time, observatory), ordered by these, whose mean, covariance and magnitude are computed from exactly the variants with these keys and do not depend on what else the table contains. Not true, and proved so: that this holds with such a group (adding an unrelated object changes its covariance).", "quantifier": "every table of variant ephemerides, every group chunk size", "why_tests_cant": "The code takes one of two paths depending on whether all groups have the same size; only a proof covers the interaction.", "anchors": ["src/adam_core/orbits/variants.py::VariantEphemeris.collapse_by_object_id"]}
{"id": "C82", "title": "Covariance weights are rescaled to sum one when collapsing by object", "statement": "The covariance VariantEphemeris.collapse_by_object_id reports is the sum of weights_cov, divided by their sum over the group, times the outer products of the residuals about the mean; so it is the one with the weights as given exactly as far as these sum to one. Claimed first, not true and proved so: that the weights are used as given (sigma points with alpha=1, beta=2 come out divided by three).", "quantifier": "every table of variants with covariance weights, in particular sigma points for every alpha, beta, kappa", "why_tests_cant": "Default sigma-point parameters have covariance weights that sum to one, so tests with defaults cannot see the rescaling.", "anchors": ["src/adam_core/orbits/variants.py::VariantEphemeris.collapse_by_object_id"]}
{"id": "C83", "title": "The orbit-major sigma-point collapse agrees with its layout", "statement": "VariantEphemeris.collapse_sigma_points_orbit_major gives, for every orbit and time of a table in the documented layout with one time grid, one row with the ids of that orbit, that time and observatory, and the mean and covariance of the variants of that orbit at that time; bad sizes raise ValueError. Not true, and proved so: that tables whose orbits have different time grids are rejected or handled (they get wrong times).", "quantifier": "every number of orbits, variants and times", "why_tests_cant": "Index arithmetic over all sizes.", "anchors": ["src/adam_core/orbits/variants.py::VariantEphemeris.collapse_sigma_points_orbit_major"]}
{"id": "C84", "title": "The first differential-correction step solves the normal equations of the initial orbit", "statement": "As long as no observation has been removed and no step accepted, each observation enters the normal equations of od with its own partial derivatives, its own weights and its residual with respect to the current orbit. Not true, and proved so: that it does after an outlier was removed (weights and residuals are indexed without the mask) or after an accepted step (the residuals are never refreshed).", "quantifier": "every observation set, set of removed outliers and history of accepted steps", "why_tests_cant": "Only after an outlier was removed or a step accepted do the rows mix; tests compare converged orbits.", "anchors": ["src/adam_core/orbit_determination/od.py::od"]}
{"id": "C85", "title": "Dropping duplicate orbits keeps one orbit per state and exactly its members", "statement": "drop_duplicate_orbits returns, for every distinct combination of the subset columns, exactly one of the given orbits (the first with keep='first'), and exactly the member rows of the orbits kept.", "quantifier": "every table of orbits and members", "why_tests_cant": "All duplication patterns.", "anchors": ["src/adam_core/orbit_determination/fitted_orbits.py::drop_duplicate_orbits"]}
{"id": "C86", "title": "Removing the worst observation removes exactly the one with the lowest probability", "statement": "remove_lowest_probability_observation returns the observation of the member with the lowest probability (largest sum of squared residuals among equals) and those of the other observations that are members; these are all other observations exactly if every other observation is a member; exactly if there are no members, members of several orbits or members that are not among the observations it raises AssertionError, and otherwise exactly if no probability is known IndexError. Not true, and proved so: that the other observations are always kept (those without a member row are dropped as well).", "quantifier": "every member and observation table", "why_tests_cant": "All ties, nulls and partial memberships.", "anchors": ["src/adam_core/orbit_determination/outliers.py::remove_lowest_probability_observation"]}
{"id": "C87", "title": "Initial orbit determination pairs every observation, given in time order, with its own observer", "statement": "For observations sorted by time and origin, each sky position of a selected triple reaches the Gauss solver together with its own time and observer position. Not true, and proved so: that this holds for every row order (observers are sorted, the mask and the coordinates are not).", "quantifier": "every observation table and triple", "why_tests_cant": "Tests use tables sorted by time, where the mix-up cannot show.", "anchors": ["src/adam_core/orbit_determination/iod.py::iod"]}
{"id": "C88", "title": "Triples for initial orbit determination are selected completely and in order", "statement": "select_observations('combinations') returns every triple of observations with three different times exactly once, longest arc first and then the middle observation nearest to the centre; the percentile methods return nothing or one triple in increasing time.", "quantifier": "every observation table", "why_tests_cant": "All patterns of coinciding times and ties.", "anchors": ["src/adam_core/orbit_determination/iod.py::select_observations"]}
{"id": "C89", "title": "A template registration depends only on its samples", "statement": "register_custom_template accepts exactly a non-empty name with two lists of one length, of at least two finite numbers and distinct wavelengths; the order of the samples does not matter; a refused registration raises ValueError and leaves every registered template and cached integral as it was.", "quantifier": "every name and every pair of lists of numbers, NaN and infinities included", "why_tests_cant": "the order and number of samples is unbounded; tests register one ordered template", "anchors": ["src/adam_core/photometry/bandpasses/api.py::register_custom_template"]}
{"id": "C90", "title": "Bandpass reflectances are linear and calibrated on grey", "statement": "The mean reflectance of a registered mixture of two templates sampled at the same wavelengths is the same mixture of their mean reflectances in every filter, and a grey template covering the filters has its grey level as mean reflectance in every filter. Its colours vanish: after any calls, the magnitude difference reported between two known filters for a grey template of positive level is 0.", "quantifier": "every solar spectrum, filter curve, pair of templates and weights", "why_tests_cant": "linearity of the interpolation and of the trapezoid rule must hold for all curves; tests check vendored templates", "anchors": ["src/adam_core/photometry/bandpasses/api.py::_compute_integral_photon", "src/adam_core/photometry/bandpasses/api.py::_compute_filter_solar_norm_photon", "src/adam_core/photometry/bandpasses/api.py::_interp_to_grid", "src/adam_core/photometry/bandpasses/api.py::get_integrals"]}
{"id": "C91", "title": "Predicted magnitudes compose", "statement": "predict_magnitudes equals converting H from the reference filter to V, computing the apparent V magnitude and converting it to the filter of each exposure with convert_magnitude; it succeeds exactly when each of these steps does; and later calls cannot tell a prediction from a conversion with the same composition.", "quantifier": "every geometry, filter column, composition, slope, reference filter and history of earlier calls", "why_tests_cant": "the paths share caches and tables; tests compare single values", "anchors": ["src/adam_core/photometry/magnitude.py::predict_magnitudes", "src/adam_core/photometry/magnitude.py::convert_magnitude", "src/adam_core/photometry/magnitude.py::calculate_apparent_magnitude_v"]}
{"id": "C92", "title": "Fitting an absolute magnitude to rows", "statement": "The fit of H to rows of magnitude and uncertainty raises ValueError exactly when there is no row, or all uncertainties are known and one is zero. With all uncertainties known the estimate is the one point of least chi-square, otherwise the one point of least squares. It lies between the smallest and largest row, moves with a shift of all rows, and keeps its value under a common rescaling of the uncertainties. One row gives no uncertainty; more rows give 1.4826 times a median absolute deviation as scatter, and a reduced chi-square exactly when all uncertainties are known; the uncertainty is then never below the formal one. If all magnitudes are the ones predict_magnitudes gives for an absolute magnitude, in whatever mix of filters, observatories and geometries, the estimate is that absolute magnitude with no scatter.", "quantifier": "every list of rows; every detection table, observatory and geometry for the recovery", "why_tests_cant": "Optimality over all points and all rows.", "anchors": ["src/adam_core/photometry/absolute_magnitude.py::_fit_absolute_magnitude_rows", "src/adam_core/photometry/absolute_magnitude.py::_mad_sigma", "src/adam_core/photometry/absolute_magnitude.py::estimate_absolute_magnitude_v_from_detections"]}
{"id": "C93", "title": "Residuals of a row do not depend on other rows", "statement": "Whenever Residuals.calculate returns there is one row per observed row, and each row's residual, chi2, degrees of freedom and probability are those of a call with that row alone. The call returns exactly when the classes, frames and origins pass their checks, the predicted table has one row or as many as the observed, and in every group of rows with the same missing columns either no row has covariances or every row has its variances and an invertible covariance. Acceptance itself does depend on other rows.", "quantifier": "every pair of tables, any number of columns, any pattern of missing values and covariances", "why_tests_cant": "Batching by pattern of missing values over all tables.", "anchors": ["src/adam_core/coordinates/residuals.py::Residuals.calculate", "src/adam_core/coordinates/residuals.py::_batch_coords_and_covariances", "src/adam_core/coordinates/residuals.py::calculate_chi2"]}
{"id": "C94", "title": "Chi-square of residuals is the squared Mahalanobis distance", "statement": "For a row, chi2 is r\u00b7x with C x = r over the columns that have observed values (missing off-diagonal covariances counting as zero), with C the observed plus (optionally) predicted covariance. For spherical coordinates the cos(latitude) factors cancel. It is never negative for a positive definite C and zero only for zero residuals. It is missing exactly when the observed columns have no covariance or a predicted value is missing; without a latitude no spherical row has one; at a pole the spherical covariance is singular. The degrees of freedom are the number of observed columns; reduced chi2 is the sum over the total degrees of freedom less the parameters.", "quantifier": "every row, any number of columns, any covariance", "why_tests_cant": "Identities over all matrices.", "anchors": ["src/adam_core/coordinates/residuals.py::Residuals.calculate", "src/adam_core/coordinates/residuals.py::calculate_chi2", "src/adam_core/coordinates/residuals.py::apply_cosine_latitude_correction", "src/adam_core/coordinates/residuals.py::calculate_reduced_chi2"]}
{"id": "C95", "title": "Changing origin and back is the identity, and paths agree", "statement": "If the states of the origins relative to each other are consistent, a Cartesian table with one origin that is moved to another origin and back with transform_coordinates is exactly the table it was (values, covariances, times, origins), and moving it through an intermediate origin gives the same table as moving it directly.", "quantifier": "every table of Cartesian coordinates with one origin, every pair or triple of origins, every frame, any times, covariances and missing values", "why_tests_cant": "All tables and chains of origins.", "anchors": ["src/adam_core/coordinates/transform.py::transform_coordinates", "src/adam_core/coordinates/transform.py::cartesian_to_origin", "src/adam_core/coordinates/cartesian.py::CartesianCoordinates.translate"]}
{"id": "C96", "title": "Two-body propagation composes, reverses and repeats", "statement": "In exact arithmetic: propagating from t0 to t1 and from there to t2 is propagating from t0 to t2; propagating there and back returns the initial state; on an elliptic orbit propagating by the period 2 pi sqrt(a^3/mu) returns the initial state.", "quantifier": "every mu > 0, every state with nonzero angular momentum, elliptic, parabolic or hyperbolic, every pair of time steps of either sign", "why_tests_cant": "Identities over a continuum of states and steps.", "anchors": ["src/adam_core/dynamics/propagation.py::_propagate_2body", "src/adam_core/dynamics/lagrange.py::calc_lagrange_coefficients", "src/adam_core/dynamics/chi.py::calc_chi"]}
{"id": "C97", "title": "solve_kepler solves Kepler's equation", "statement": "In exact arithmetic: the result lies in [0, 2pi) for every eccentricity, mean anomaly and tolerance; at most max_iter + 1 corrections are made. When the iteration stops before the limit, the true anomaly returned has, for e < 1, a mean anomaly within e*tol^2 of the one given, and for e > 1 within e*tol^2*sinh(|H|+tol), H being its hyperbolic anomaly. For e < 1 there is exactly one true anomaly in [0, 2pi) for every mean anomaly; solve_kepler and calc_mean_anomaly are inverse to each other where the root is found exactly. Not true, and proved so: the bound holds for every run (exhausting max_iter goes unreported).", "quantifier": "every eccentricity, mean anomaly, iteration limit and tolerance", "why_tests_cant": "Continuum of inputs and unbounded iteration histories.", "anchors": ["src/adam_core/dynamics/kepler.py::solve_kepler", "src/adam_core/dynamics/kepler.py::calc_mean_anomaly"]}
{"id": "C98", "title": "Elements to state: the state of the described motion", "statement": "In exact arithmetic: for every periapsis distance, eccentricity and orientation there is exactly one solution of Newton's equation that passes periapsis at time zero. For an ellipse, keplerian -> cartesian returns the position and velocity of that motion at the time M/n, and cometary -> cartesian at the time t0 - tp, up to an error in time of at most e*tol^2/n, whenever the solver of Kepler's equation stops before its limit; for a hyperbola the same with the error bound of C97, for cometary elements when tp <= t0. The motion on an ellipse has the period 2pi/n. keplerian_to_cartesian raises a ValueError exactly when some row has a positive semi-major axis with e > 1 + 1e-15 or a negative one with e < 1 - 1e-15, or when there is no row; otherwise each row is converted by itself, and is NaN exactly when e is within 1e-15 of 1. Not true, and proved so: hyperbolic cometary elements with tp > t0 (the state is that of a time 2pi/n later) and parabolic ones with tp < t0 (the state is that of twice the time since periapsis).", "quantifier": "every mu > 0, every set of elements, every epoch, iteration limit and tolerance", "why_tests_cant": "Continuum of orbits; the wrong cases need a body that has not reached periapsis on an unbound orbit.", "anchors": ["src/adam_core/coordinates/transform.py::_keplerian_to_cartesian_p", "src/adam_core/coordinates/transform.py::_keplerian_to_cartesian_a", "src/adam_core/coordinates/transform.py::_keplerian_to_cartesian_q", "src/adam_core/coordinates/transform.py::keplerian_to_cartesian", "src/adam_core/coordinates/transform.py::_cometary_to_cartesian"]}
{"id": "C99", "title": "State to Keplerian elements, and back", "statement": "In exact arithmetic, for a state whose orbit is inclined and neither circular nor parabolic (all by 1e-15): the six Keplerian elements exist, i lies in (0, 180), node, argument of periapsis and (for ellipses) mean anomaly lie in [0, 360), e is the length of the eccentricity vector, and the motion described by the elements is in the given state at the given mean anomaly (ellipses; hyperbolas after periapsis). Converting the elements of an ellipse back gives the state of the same motion at most e*tol^2/n away in time; converting elements of an ellipse to the exact state and back returns the same elements. Not true, and proved so: hyperbolas before periapsis (the mean anomaly is 2pi too large); orbits in the plane of reference (argument of periapsis NaN); circular orbits (anomalies NaN); eccentricities between 0 and 1e-15 (argument of periapsis zero, anomaly counted from the true periapsis).", "quantifier": "every mu > 0 and every state", "why_tests_cant": "Continuum of states with several branch cuts and degenerate cases.", "anchors": ["src/adam_core/coordinates/transform.py::_cartesian_to_keplerian", "src/adam_core/coordinates/transform.py::_cartesian_to_keplerian6", "src/adam_core/coordinates/transform.py::_keplerian_to_cartesian_a"]}
{"id": "C100", "title": "State to cometary elements, and back", "statement": "In exact arithmetic, for a state whose orbit is inclined and neither circular nor parabolic: cometary elements exist, and for an ellipse the orbit with these elements that passes periapsis at the returned time tp is in the given state at the epoch; tp is the passage nearest to the epoch (in [t0 - P/2, t0 + P/2)); converting back returns the state of the same motion at most e*tol^2/n away in time. For a hyperbola tp is right after periapsis. Not true, and proved so: for every hyperbola before periapsis tp is too early by 2pi/n.", "quantifier": "every mu > 0, every state and epoch", "why_tests_cant": "Continuum of states; periapsis in the future of an unbound orbit is rarely exercised.", "anchors": ["src/adam_core/coordinates/transform.py::_cartesian_to_cometary", "src/adam_core/coordinates/transform.py::_cartesian_to_keplerian", "src/adam_core/coordinates/transform.py::_cometary_to_cartesian"]}
{"id": "C101", "title": "Two-body ephemeris points at the emission state", "statement": "The spherical coordinates computed for an orbit and an observer have the distance from the observer to the state of the object when the light left it (C38); converted back, they are that position relative to the observer, turned from the ecliptic to the equator by a rotation about the common x axis that takes the ecliptic pole to right ascension 270 degrees and declination 90 - obliquity; the velocity is the relative velocity, turned the same way. With stellar aberration the distance, light time, emission state and velocity are the same, and the direction is the aberrated one (C39); there is no value exactly if the aberration has none.", "quantifier": "every propagator, orbit, observer, epoch, obliquity and tolerance", "why_tests_cant": "a test compares a few ephemerides with a reference; the sign of a rotation or a velocity left uncorrected shows only for some geometries", "anchors": ["src/adam_core/dynamics/ephemeris.py::_generate_ephemeris_2body", "src/adam_core/dynamics/ephemeris.py::_rotate_cartesian_state_ec2eq"]}
{"id": "C102", "title": "Geodetic coordinates on and above the ellipsoid", "statement": "The longitude of a geodetic position is right. Not true, and proved so: the latitude is right exactly on a sphere, on the equator and on the surface of the ellipsoid; at any other altitude, and every latitude but 0, it is wrong whatever the tolerance and the number of iterations, since the iteration never uses its own result. Where the latitude is right the altitude is right too. Over the poles and at the centre latitude and altitude are NaN. The velocity columns do not hold what they are named after: vup is the velocity to the east and veast the velocity to the north, both scaled as if radians were turned into degrees, and vnorth is the upward velocity.", "quantifier": "every ellipsoid with 0 <= f < 1, every latitude, longitude and altitude above the centres of curvature, every velocity, tolerance and iteration limit", "why_tests_cant": "tests on the ground see the exact answer; the error in orbit is a fraction of a degree that a loose tolerance hides", "anchors": ["src/adam_core/coordinates/transform.py::_cartesian_to_geodetic", "src/adam_core/coordinates/geodetics.py::GeodeticCoordinates"]}
{"id": "C103", "title": "Making a covariance positive semidefinite", "statement": "make_positive_semidefinite raises a ValueError exactly if some eigenvalue is below -semidef_tol, returns a positive semidefinite matrix unchanged, and moves no quadratic form by more than 2 semidef_tol times the squared length of the vector. Its result is positive semidefinite exactly if -semidef_tol is not itself an eigenvalue: such an eigenvalue is neither refused nor flipped. sample_covariance_random, with at least one sample, fails exactly if some eigenvalue is below -min(semidef_tol, 1e-15): a larger tolerance given by the caller has no effect (not true, and proved so, that it does); for a positive semidefinite covariance the samples are drawn from the given mean and covariance with the given seed, and the weights are equal and add up to one.", "quantifier": "every dimension, symmetric covariance, tolerance, seed and sampler", "why_tests_cant": "Eigenvalues on and near the tolerance in any dimension; the default tolerance hides that the argument is ignored.", "anchors": ["src/adam_core/coordinates/covariances.py::make_positive_semidefinite", "src/adam_core/coordinates/covariances.py::sample_covariance_random"]}
{"id": "C104", "title": "Variants of coordinates", "statement": "create_coordinate_variants returns the variants of the coordinates in the order of the coordinates; those with index k are the samples of row k with the origin and time of row k. It raises on an empty table and on any missing value or covariance, and with sigma points succeeds in every other case with alpha^2 (6 + kappa) not zero. With sigma-point, or with auto and an exact square root, row k and its covariance are the weighted mean and covariance of its 13 variants, whose weights add up to one. With monte-carlo and a seed the result is reproducible. Not true, and proved so: with auto and a seed the result is reproducible (when the sigma points do not reproduce mean and covariance to 1e-12, which a relative error of 1e-15 in the square root of a variance of 1000 is enough for, random samples are drawn without the seed). A single monte-carlo sample is an IndexError.", "quantifier": "every table of coordinates with symmetric covariances, sampler, square root, method, seed and parameters", "why_tests_cant": "All tables and parameters; the fallback depends on rounding in the square root.", "anchors": ["src/adam_core/coordinates/variants.py::create_coordinate_variants"]}
{"id": "C105", "title": "The porkchop grid holds every transfer once", "statement": "generate_porkchop_data returns, once each, every pair of a departure row and an arrival row whose departure MJD is below its arrival MJD, in the common frame of the inputs; without workers the rows come by arrival time and, if arrival times are distinct, then by departure time; with workers, for any number of them and any order of completion, the rows are a permutation of the serial ones and errors are the same. Every row has a positive time of flight and the Lambert velocities of its two positions under the gravitational parameter of propagation_origin: unless the positions are in line with the origin both states lie on one orbit (same angular momentum, energy and eccentricity vector) with the requested sense of motion, and the C3 values are the squared excess speeds. AssertionError is raised exactly if the frames differ, an input is empty, or the rows do not all have one origin; otherwise ValueError exactly if propagation_origin has no gravitational parameter and some departure precedes some arrival; with no such pair the result is an empty table. Not true, and proved so: that the inputs' origin is compared with propagation_origin (Earth-centred vectors are solved and labelled as heliocentric), and that time scales are compared (a departure in TAI is paired with an arrival in TT that is the earlier instant).", "quantifier": "every pair of tables of departure and arrival rows of any length, every frame, origin, time, state, number of workers and completion order", "why_tests_cant": "The grid is quadratic in the inputs and its order under parallel workers depends on the schedule; tests run one small grid serially.", "anchors": ["src/adam_core/missions/porkchop.py::generate_porkchop_data", "src/adam_core/missions/porkchop.py::lambert_worker", "src/adam_core/missions/porkchop.py::LambertSolutions"]}
{"id": "C106", "title": "gaussIOD returns the orbits of the polynomial's roots", "statement": "The orbits gaussIOD returns are exactly those obtained from the non-negative real roots of its polynomial: an object on each of the three lines of sight, not behind the observer at the second observation, the three positions related by the third-order two-body coefficients for that root, velocity by the requested method from these three positions, position within 300 au and speed at most 1 au/d; the epoch is the second time, less the light travel time of that range if requested. If the roots are exact, the distance of every orbit from the Sun is a positive root, at most three different distances occur (and at most three orbits if no root is listed twice), and lines of sight that are not coplanar never lead to an empty array in place of a table. The call fails only with ZeroDivisionError or ValueError: ZeroDivisionError if B = 0, otherwise ValueError if the second observer is at the Sun; orbits are returned only for the three known velocity methods.", "quantifier": "every triple of observations, gravitational parameter, velocity method, light-time flag, and every answer of the root finder", "why_tests_cant": "The roots and their number vary over a nine-dimensional space of geometries; tests use a few real objects.", "anchors": ["src/adam_core/orbit_determination/gauss.py::gaussIOD", "src/adam_core/orbit_determination/gauss.py::_calcLambdas", "src/adam_core/orbit_determination/gauss.py::_calcRhos", "src/adam_core/orbit_determination/herrick_gibbs.py::calcHerrickGibbs", "src/adam_core/orbit_determination/gibbs.py::calcGibbs"]}
{"id": "C107", "title": "The table of perturber distances has one row for every orbit and perturber", "statement": "calculate_perturber_moids returns one row for every perturber given and every orbit, with the orbit's id, the perturber's code, and the distance and time of calculate_moid for the orbit and the perturber's orbit at the orbit's epoch; in the order of perturbers and then orbits without workers, and the same rows in some order with workers. If it fails for one orbit and perturber, the call raises an error that some orbit and perturber raise, and there is no partial table. AssertionError for repeated ids, for no orbits and for several origins; ValueError for chunk size 0; TypeError for max_processes=None. A negative chunk size gives an empty table.", "quantifier": "every list of orbits and perturbers, chunk size, number of workers and order in which they finish", "why_tests_cant": "Completion order and chunk boundaries vary with size and scheduling.", "anchors": ["src/adam_core/dynamics/moid.py::calculate_perturber_moids", "src/adam_core/dynamics/moid.py::moid_worker"]}
{"id": "C108", "title": "Velocities of Gauss and Herrick\u2013Gibbs from three positions", "statement": "calcHerrickGibbs returns the velocity at the middle time for every motion of degree four in time that has the acceleration of the Sun's gravity at the three times. calcGauss returns the velocity if the outer positions are combinations of the middle position and velocity with the coefficients f and g that approxLangrangeCoeffs gives. Not true, and proved so: that these are the coefficients of the series of the motion. g has the square of the time where the series has its cube, so for outer positions from the series to third order calcGauss never returns the velocity if the last observation is a day or more after the middle one.", "quantifier": "every middle position and velocity, times and motion of degree four", "why_tests_cant": "The velocity is close to right for short intervals; tests compare with a tolerance.", "anchors": ["src/adam_core/orbit_determination/gauss.py::calcGauss", "src/adam_core/orbit_determination/gauss.py::approxLangrangeCoeffs", "src/adam_core/orbit_determination/herrick_gibbs.py::calcHerrickGibbs"]}
{"id": "C109", "title": "The light-curve design has one zero point per filter and session", "statement": "For every set of observations the part of the design matrix that does not depend on the frequency parametrises exactly one free zero point for every group of observations that occurs, plus the two phase-angle columns: a group is a filter, or with sessions a filter and a session. For any zero points of the groups exactly one choice of coefficients gives them, so no column is redundant and none is missing; the last two coefficients are those of the phase angle and of its square, in this order. A row without a filter or session is in a group of its own. Not true, and proved so: that this holds if another row has the name that stands for a missing one.", "quantifier": "every non-empty list of observations with optional filter and session, with sessions or without, and all zero points", "why_tests_cant": "That the columns are independent and complete has to hold for every pattern of filters and sessions; tests look at a few shapes.", "anchors": ["src/adam_core/photometry/rotation/core.py::_build_fixed_design", "src/adam_core/photometry/rotation/estimator.py::estimate_rotation_period"]}
{"id": "C110", "title": "The grid of trial frequencies covers the range that was asked for", "statement": "The trial frequencies increase evenly from the larger of min_rotations/span and 24/max_period up to the highest frequency, both ends included, from 2 to 200000 of them; ValueError exactly if the highest does not exceed the lowest; every frequency between is within half a spacing of one of them. Neighbouring frequencies differ by at most 1/(scale*span) unless the grid is reported as capped, and by more exactly if it is. Not true, and proved so: that only spans of years are capped (with the default parameters every span of 7 days is) and that a capped grid still resolves the frequencies (from 201 days neighbouring ones differ by more than a whole rotation over the span).", "quantifier": "every positive span, every number of rotations, highest frequency, scale and optional longest period", "why_tests_cant": "The number of frequencies depends on all parameters together; tests build a handful of grids of short spans.", "anchors": ["src/adam_core/photometry/rotation/estimator.py::_build_frequency_grid", "src/adam_core/photometry/rotation/estimator.py::_grid_was_capped"]}
{"id": "C111", "title": "The search over trial frequencies finds the best fit", "statement": "With exact_grid, or with at most 2048 trial frequencies, the search returns a fit whose scatter is least over the whole grid. In every mode it returns None exactly if there is no fit at any trial frequency, and otherwise a fit at one of them. The search in stages returns a fit that nothing within four coarse steps of the best coarse frequency beats, and nothing within three coarse steps of any of the twelve best local minima of the coarse search. Not true, and proved so: that the search in stages returns the best of the grid: for every light curve with more than 2048 distinct frequencies and some coarse fit, there is a frequency at which a fit, however good, would not be noticed.", "quantifier": "every list of trial frequencies and every function giving the fit (or none) at a frequency, with and without clipping", "why_tests_cant": "The claim is about every score landscape; tests use smooth synthetic light curves, for which coarse minima are near the best.", "anchors": ["src/adam_core/photometry/rotation/estimator.py::_search_best_fit", "src/adam_core/photometry/rotation/estimator.py::_evaluate_frequency_indices", "src/adam_core/photometry/rotation/estimator.py::_candidate_intervals_from_scores", "src/adam_core/photometry/rotation/estimator.py::_local_minima_positions", "src/adam_core/photometry/rotation/estimator.py::_merge_intervals", "src/adam_core/photometry/rotation/estimator.py::_sample_indices_from_intervals"]}
{"id": "C112", "title": "The period reported for a light curve, its rivals and its uncertainty", "statement": "For a light curve, a frequency grid and a set of Fourier orders, with any solver and any F distribution: the period search fails with ValueError exactly if no order has a fit at any frequency of the grid. Otherwise, in every search mode, the reported fit is the best of the whole grid for its order, and its order is the smallest that no higher order improves on significantly. The accepted frequencies are those whose scatter is within the threshold (scatter times the root of the F quantile; no limit if the quantile is unusable or there are no degrees of freedom), together with the best one. The clusters partition the accepted frequencies; their period ranges are more than 1e-12 d apart, connected, and sorted by scatter; on an even grid neighbouring accepted frequencies of the same kind are in one cluster and the ends are half a grid step outside. The primary cluster holds the reported fit, the alternate periods are the best periods of the other clusters in order, the reported period is within its bounds and the relative uncertainty is the further bound's distance over the period. The result is reliable exactly if the ends of all clusters are within max(k P, hours) of the period. The period is 2/f exactly if the fitted curve has one maximum among 2048 phases, never for a curve with even harmonics only, and 1/f otherwise.", "quantifier": "all grids, orders, fits (any solver), quantiles and profiles", "why_tests_cant": "the grouping and its ends depend on which of thousands of frequencies are accepted; tests look at a few light curves", "anchors": ["src/adam_core/photometry/rotation/estimator.py::_derive_fourier_solution", "src/adam_core/photometry/rotation/estimator.py::_cluster_fourier_solutions", "src/adam_core/photometry/rotation/estimator.py::_relative_period_uncertainty", "src/adam_core/photometry/rotation/estimator.py::_max_cluster_period_deviation", "src/adam_core/photometry/rotation/core.py::_fit_with_period", "src/adam_core/photometry/rotation/core.py::_count_local_extrema", "src/adam_core/photometry/rotation/core.py::_sigma_threshold_for_confidence"]}
{"id": "C113", "title": "What the verdict on a rotation period means", "statement": "For a period solution of a light curve: the verdict is insufficient_data (code 1) exactly if the fitted peak-to-peak amplitude is below three times the residual scatter (or the scatter is zero), or fewer than half of the twentieths of the rotation hold an observation, or the span is below the least number of rotations, or no filter has thirty observations; exactly the reasons that apply are listed, in this order, with no flags. It is single_period (code 3) exactly if in addition at least 14 of the 20 phase bins are occupied, the solution has no rival cluster, a curve with one maximum may be claimed, the solution is reliable, the period is at most 240 h, and the period of twice the length was searched or does not fit better; then no reason is listed. Otherwise it is period_family (code 2), with exactly the reasons that apply. The flags say exactly whether 70% of the rotation are covered, twice the least number of rotations is spanned, the curve does not have exactly one maximum, and a curve with one maximum was claimed. A result is valid unless insufficient, reliable exactly if single; no verdict changes the period. Not true, and proved so: that a period_family verdict always lists a reason (an otherwise clear period outside the reliability window lists none), that multi_night means several nights, and that two_max_two_min means two maxima (a curve with four maxima, observed for five hours, gets both).", "quantifier": "all solutions, light curves, parameters and fits at half the frequency", "why_tests_cant": "the decision has 2^11 combinations and thresholds on derived quantities; tests check about a dozen", "anchors": ["src/adam_core/photometry/rotation/estimator.py::_classify_confidence", "src/adam_core/photometry/rotation/estimator.py::_phase_coverage_fraction", "src/adam_core/photometry/rotation/estimator.py::_observation_count_sufficient", "src/adam_core/photometry/rotation/estimator.py::_primary_from_method", "src/adam_core/photometry/rotation/estimator.py::_amplitude_snr", "src/adam_core/photometry/rotation/estimator.py::estimate_rotation_period", "src/adam_core/photometry/rotation/core.py::_amplitude_from_fit"]}
{"id": "C114", "title": "When a rotation period is searched for, refused or fails", "statement": "estimate_rotation_period raises ValueError for any parameter out of its range and for observations that are none, have a number that is not finite or a distance that is not positive; missing uncertainties, filters and sessions are accepted. It returns insufficient_data without a search exactly if that is asked for and there are fewer than 8 observations or fewer than the filters plus 8, or the light-time corrected span is not positive or holds too few cycles of the highest frequency, or 1.4826 times the median absolute deviation of the reduced magnitudes is below 1.5 times the median uncertainty (0.02 if there are none); exactly these reasons are listed. Otherwise it raises ValueError exactly if the span is not positive, the highest frequency does not exceed the lowest, or no order has a fit at any frequency, with the filters alone or with the sessions if there are labels that are not ignored; without weights and with clip_sigma >= 1 that means for every order no more observations than zero points + 2 + 2 order. So with the screen, default orders, no longest period, no weights and no sessions it never raises. Session offsets are used exactly if there are labels and they are demanded, or in the automatic mode two labels occur, every group is large enough, the median session span is positive and the criterion improves by more than the given amount. Adding a constant to all times changes nothing. If one uncertainty is missing or not positive the others have no effect on the search. Not true, and proved so: that data that pass the screen never raise (nine nights with a session label each, all defaults; or a max_search_period_hours that is too short), that a perfect fit with sessions is adopted, that only faint variation is refused as below the noise (any light curve that is flat more than half of the time is), and that the reasons of the screen are among those after a search (insufficient_time_span is not). With search_fidelity exact_grid the unclipped fits play no part in the choice of the order.", "quantifier": "all tables of observations, parameters and least-squares solvers", "why_tests_cant": "the outcome depends on counts of groups, medians and spans of arbitrary data; tests use a few synthetic light curves", "anchors": ["src/adam_core/photometry/rotation/estimator.py::estimate_rotation_period", "src/adam_core/photometry/rotation/estimator.py::_pre_solve_insufficiency", "src/adam_core/photometry/rotation/core.py::_validate_inputs", "src/adam_core/photometry/rotation/core.py::_summarize_sessions", "src/adam_core/photometry/rotation/core.py::_fit_bic", "src/adam_core/photometry/rotation/core.py::_apply_light_time_correction", "src/adam_core/photometry/lightcurve.py::reduced_magnitude"]}
{"id": "C115", "title": "The best apparition of an object", "statement": "estimate_rotation_period_best_apparition divides the observations into apparitions that hold every observation once, are in the order of time and pairwise more than apparition_gap_days apart; two observations are of the same apparition exactly if one can be reached from the other by steps of at most the gap. With one apparition the result, or the error, is that of estimate_rotation_period, with a flag. With several it is the result of the apparition that is preferred to all others: more confident verdict, then larger amplitude_snr (a missing one is smallest), then more observations, then earlier; a flag says which of how many. An apparition for which ValueError is raised takes part as insufficient_data; RuntimeError is raised exactly if the estimator raises anything else for some apparition, and nothing else is raised. With several apparitions and no two equal times the order of the table does not matter. Not true, and proved so: that a parameter out of range is reported (with two apparitions or more the result is a row with insufficient_data, with one it is ValueError).", "quantifier": "all tables of observations, gaps and estimators", "why_tests_cant": "the division and the choice depend on arbitrary times, verdicts and ties", "anchors": ["src/adam_core/photometry/rotation/wrappers.py::estimate_rotation_period_best_apparition", "src/adam_core/photometry/rotation/wrappers.py::_apparition_index_groups", "src/adam_core/photometry/rotation/wrappers.py::_with_apparition_flag"]}
{"id": "C116", "title": "Rotation periods of many objects", "statement": "estimate_rotation_period_from_detections_grouped returns one row for every object id that occurs, in the order of the ids, and none for detections without an id; the row of an object is the answer for its detections alone, in the order of the table, or insufficient_data with their number if ValueError is raised for them. Without detections the table is empty whatever the rest. Otherwise ValueError is raised exactly if object_coords or object_ids have another length, and RuntimeError exactly if some object raises anything but ValueError. Not true, and proved so: that a search parameter out of range is reported (every object gets insufficient_data instead), and that different ids are different objects (ids that differ only in zero characters at the end are merged).", "quantifier": "all tables of detections, id columns and estimators", "why_tests_cant": "all multisets and orders of ids, with any estimator failing for any of the objects", "anchors": ["src/adam_core/photometry/rotation/wrappers.py::estimate_rotation_period_from_detections_grouped"]}
{"id": "C117", "title": "Observations for the rotation period of detections", "statement": "build_rotation_period_observations_from_detections succeeds exactly if there are detections, as many states of the object as detections, and for every detection the state is heliocentric, an exposure with its id exists, the observatory has a position and a night for it, the magnitude and the phase angle are finite, and the object is neither at the Sun nor at the observatory. Row i then has the magnitude and uncertainty of detection i, the filter of the first exposure with its id, the session observatory:night of this exposure, the distances of state i from the Sun and from the observatory at the middle of the exposure, and the time of state i. Any error is ValueError or one of the observatory tables; the internal errors of the alignment never occur. Not true, and proved so: that the states must be of the times of the exposures (they may be of any times).", "quantifier": "all tables of detections, exposures and states, and all observatory tables", "why_tests_cant": "joins over arbitrary orders, repeated exposures and missing values", "anchors": ["src/adam_core/photometry/rotation/wrappers.py::build_rotation_period_observations_from_detections", "src/adam_core/photometry/rotation/wrappers.py::_align_exposures_to_detections", "src/adam_core/photometry/rotation/wrappers.py::_align_observers_to_exposures"]}
{"id": "C118", "title": "Observing nights", "statement": "For an observatory whose offset from UTC is constant, calculate_observing_night of times after the origin of the modified Julian date is the day n with n + 1/2 <= local time < n + 3/2: the night is named after the noon at which it begins; later times are never of an earlier night. Not true, and proved so: that nights are one day long everywhere (at the origin of the date one is two days long), and that the night depends on the observatory and the time alone (near a change of clocks it depends on the time zone of the machine, because the datetimes carry none).", "quantifier": "all times and offsets", "why_tests_cant": "all instants, time zones of observatories and of machines", "anchors": ["src/adam_core/observers/utils.py::calculate_observing_night"]}
{"id": "C119", "title": "The two backends of the frequency search", "statement": "The scores and the best fit that the jax backend returns for any list of frequencies are those of fitting one frequency at a time, with the same clipping, the same counts and the same choice among equals, and do not depend on frequency_batch_size, on the padding of rows or on the padding of columns: if the linear equations are solved correctly, both the scores and the best fit equal those of the numpy loop run with the normal equations in place of lstsq. The coefficients then minimise the weighted squares of the residuals with the priors plus 1e-15 times the sum of their squares, so no coefficients are better by more than 1e-15 times the sum of their squares. The padded number of rows is a power of two, at least the number of observations and less than twice it or the floor. Not true, and proved so: that the two backends give the same fit (a constant magnitude has scatter 0 with numpy and scatter above 0 with jax, for every frequency).", "quantifier": "all problems, frequencies, thresholds of clipping, batch sizes, paddings and linear solvers", "why_tests_cant": "the batches, masks and paddings interact for every number of rows, columns and frequencies", "anchors": ["src/adam_core/photometry/rotation/jax_backend.py::evaluate_frequency_indices_jax", "src/adam_core/photometry/rotation/jax_backend.py::_evaluate_frequency_batch_jit", "src/adam_core/photometry/rotation/jax_backend.py::_pad_rows", "src/adam_core/photometry/rotation/jax_backend.py::_row_bucket", "src/adam_core/photometry/rotation/estimator.py::_evaluate_frequency_indices_with_jax"]}
{"id": "C120", "title": "Scores of recovered periods", "statement": "For a positive true period: harmonic_adjusted_error_pct returns a factor of the list whose multiple of the recovered period has the smallest relative error, the smallest such factor, and that error; the error is at most relative_error_pct and is zero exactly if some factor leads from the recovered period to the true one. The factors are the ratios of the whole numbers from 1 to 4, the labels those ratios in lowest terms. alias_bucket returns the label whose value is within 5 percent of the factor, of which there is at most one, and \"other\" exactly without one; a factor from harmonic_adjusted_error_pct is never \"other\". within_tolerance holds exactly if the period is off by at most the fraction. near_day_alias holds exactly if both periods are positive and the recovered frequency is within the tolerance times the true frequency of a positive frequency one or two cycles a day away from the true one. Not true, and proved so: that a correct period is never a day alias (it is flagged exactly if it is at most 24 hours times the tolerance, 0.48 h by default); that within_tolerance is false for a wrong period whatever the true one (a negative one makes it always true).", "quantifier": "all periods, factors and tolerances", "why_tests_cant": "all pairs of periods, ties between factors, and the limits of the tolerances", "anchors": ["src/adam_core/photometry/rotation/core.py::harmonic_adjusted_error_pct", "src/adam_core/photometry/rotation/core.py::alias_bucket", "src/adam_core/photometry/rotation/core.py::within_tolerance", "src/adam_core/photometry/rotation/core.py::near_day_alias", "src/adam_core/photometry/rotation/core.py::relative_error_pct"]}
{"id": "C121", "title": "Covariance matrices are stored and read back row by row", "statement": "CoordinateCovariances.from_matrix accepts exactly arrays of shape (n, 6, 6), and to_matrix gives the same matrices back, in order, whatever they contain. For a column whose rows are null or 36 numbers long to_matrix gives one matrix per row, made of that row alone, NaN for a null row; nulls(n) reads as n NaN matrices; is_all_nan says exactly whether every stored number is NaN. to_matrix fails (ValueError) exactly if some row is not null and the rows have unequal lengths or together no multiple of 36 numbers. Not true, and proved so: that a column with wrongly sized rows is refused (a row of 72 numbers is read as two matrices, two rows of 18 as one); if reading succeeds there is one matrix per row exactly if every row is null or 36 long.", "quantifier": "every number of rows, every mixture of null and non-null rows, every length of row, every content including NaN", "why_tests_cant": "The flattening and reshaping has to be right for all row counts and null patterns; tests use a handful of full rows.", "anchors": ["src/adam_core/coordinates/covariances.py::CoordinateCovariances", "src/adam_core/coordinates/covariances.py::CoordinateCovariances.to_matrix", "src/adam_core/coordinates/covariances.py::CoordinateCovariances.from_matrix", "src/adam_core/coordinates/covariances.py::CoordinateCovariances.nulls", "src/adam_core/coordinates/covariances.py::CoordinateCovariances.is_all_nan"]}
{"id": "C122", "title": "Standard deviations to covariance matrices and back", "statement": "CoordinateCovariances.from_sigmas puts the squares on the diagonal, and .sigmas of the result gives |sigma| back, missing ones as missing, for any number of rows; rows not of length six are refused with ValueError. Not true, and proved so: that the entries off the diagonal are zero: entry (i, j) is zero exactly if sigma_j is a number and NaN otherwise, so all are zero exactly if every sigma is a number, and the matrix is symmetric exactly if all sigmas are numbers or none is.", "quantifier": "every number of rows and every vector of standard deviations, finite, infinite or NaN", "why_tests_cant": "The behaviour depends on which of the six values are missing; NaN patterns and signs are not enumerable by examples.", "anchors": ["src/adam_core/coordinates/covariances.py::sigmas_to_covariances", "src/adam_core/coordinates/covariances.py::CoordinateCovariances.from_sigmas", "src/adam_core/coordinates/covariances.py::CoordinateCovariances.sigmas"]}
{"id": "C123", "title": "The radial, in-track, cross-track axes", "statement": "The matrix CartesianCoordinates.ric3_matrix is a rotation for every state. If |r x v| >= 1e-20 it is the only rotation that puts the position along the first axis and gives the velocity no cross-track and a positive in-track part (|r x v| / |r|), and the components of any vector along the axes do not change if state and vector are given in a rotated frame. Otherwise the axes are those of the frame. ric6_matrix applies the same rotation to position and velocity. Not true, and proved so: that every state with non-parallel position and velocity gets its own axes, because the tolerance is absolute.", "quantifier": "every position and velocity, every rotation of the frame", "why_tests_cant": "Orthogonality, uniqueness and frame independence are identities over all states; tests check a few states numerically.", "anchors": ["src/adam_core/coordinates/cartesian.py::CartesianCoordinates.ric3_matrix", "src/adam_core/coordinates/cartesian.py::CartesianCoordinates.ric6_matrix"]}
{"id": "C124", "title": "What the Tisserand parameter says about an orbit", "statement": "calc_tisserand_parameter accepts exactly the eight lower-case planet names (ValueError otherwise), whose semi-major axes increase from Mercury to Neptune. For nonzero a and e >= 0 the result is a number exactly if the orbit is consistent: a > 0 with e <= 1 or a < 0 with e >= 1. If the orbit reaches the planet's distance (q <= a_p <= Q, or q <= a_p when unbound) the parameter is at most 3 whatever the inclination, so a value above 3 excludes an encounter with a planet on a circle; the planet's own circle has exactly 3. The parameter does not increase with inclination between 0 and 180 degrees.", "quantifier": "every semi-major axis, eccentricity, inclination and body name", "why_tests_cant": "The bound 3 is an inequality over a three-parameter family; tests compare single values.", "anchors": ["src/adam_core/dynamics/tisserand.py::calc_tisserand_parameter", "src/adam_core/dynamics/tisserand.py::MAJOR_BODIES"]}
{"id": "C125", "title": "Grouping of tables loses no row", "statement": "Associations.group_by_object, Exposures.group_by_observatory_code, Orbits.group_by_orbit_id and PointSourceDetections.group_by_healpixel split the table into non-empty groups with different keys, every row in exactly one group and the rows in table order; the groups come in the order of the first row of each (rows without object last; pixels in increasing order). PointSourceDetections.group_by_exposure gives one group for every exposure id that occurs, with all its detections in table order, the groups in the order of their first rows, so every detection that has an exposure id comes once. Not true, and proved so: that it gives every detection: those without exposure id are in no group and an empty group is yielded instead.", "quantifier": "every table, every pattern of keys and missing keys", "why_tests_cant": "Loss or duplication of rows depends on the order and the nulls in the whole table.", "anchors": ["src/adam_core/observations/associations.py::Associations.group_by_object", "src/adam_core/observations/detections.py::PointSourceDetections.group_by_exposure", "src/adam_core/observations/detections.py::PointSourceDetections.group_by_healpixel", "src/adam_core/observations/exposures.py::Exposures.group_by_observatory_code", "src/adam_core/orbits/orbits.py::Orbits.group_by_orbit_id"]}
{"id": "C126", "title": "Tables derived from a source catalogue", "statement": "SourceCatalog.detections is the catalogue's rows column by column and is refused exactly if some magnitude is NaN or outside [-10, 30]. SourceCatalog.exposures is refused exactly if some row lacks exposure id, start, duration or filter or lasts more than 3600 s; otherwise it has one exposure per exposure id, that of the first row with it, in order of those rows. The position covariance is the covariance of the given sigmas (arcsec to degrees) and correlation, symmetric, positive semidefinite (for sigmas that are not zero) exactly if the correlation is within [-1, 1], and NaN where an input is missing. The two ways of computing exposure midpoints agree, are within half a nanosecond of the true midpoint for exposures up to an hour, and are refused from two days on. Not true, and proved so: that rows which disagree about an exposure are noticed; that a table without rows has midpoints (ValueError).", "quantifier": "every catalogue, every pattern of missing values, every duration and correlation", "why_tests_cant": "Deduplication, refusal and rounding depend on the whole table; tests use small consistent catalogues.", "anchors": ["src/adam_core/observations/source_catalog.py::SourceCatalog.detections", "src/adam_core/observations/source_catalog.py::SourceCatalog.exposures", "src/adam_core/observations/source_catalog.py::SourceCatalog.coordinates", "src/adam_core/observations/source_catalog.py::SourceCatalog.observers", "src/adam_core/observations/exposures.py::Exposures.midpoint"]}
{"id": "C127", "title": "Which observers an ephemeris is linked to", "statement": "Ephemeris.link_to_observers(observers, precision) and Timestamp.link fail (ValueError) exactly for an unknown precision; otherwise every row of both tables is in exactly one entry, and an ephemeris row and an observer are in one entry exactly if the codes agree and both times, in the ephemeris' scale, lie in the same interval of the precision's length counted from the epoch; so linked times are less than the precision apart. If every entry has an observer, the warning is issued exactly if two different observers have the same key. Not true, and proved so: that times closer than the precision are linked (one nanosecond before a full second is not linked with that second at any precision), and that the warning is issued whenever observers fall together (an ephemeris row without observer hides it).", "quantifier": "every pair of tables with normalised times, every precision", "why_tests_cant": "The boundary and the counting depend on the whole pair of tables and on every nanosecond.", "anchors": ["src/adam_core/orbits/ephemeris.py::Ephemeris.link_to_observers", "src/adam_core/time/time.py::Timestamp.link"]}
{"id": "C128", "title": "Packed dates of the Minor Planet Center", "statement": "Unpacking the packed form of a date gives its year (below 3200), month and day back, with a time of day exactly if there are digits after the day. With at most fourteen digits the time is always readable, and every time that is readable is within half a microsecond (plus less than a tenth of a nanosecond of rounding) of the packed one, for any number of digits. A text is refused exactly if it is too short (IndexError) or a character is not a digit of the required kind (ValueError); a list is converted in order or not at all. Not true, and proved so: that every packed time of day is readable (a fraction of 17 digits is written as T01:23:-0.000000, seventeen nines as T24:00:00), that seconds are below sixty (.3 of a day is written 07:11:60.000000), and that only packed dates are accepted (J-51V is 1895 Jan. 31, lower case letters and month 0 pass).", "quantifier": "every text; every year below 3200, month, day and string of digits of any length", "why_tests_cant": "The time of day passes through five rounded floating point operations; which digit strings end at sixty seconds, a minus sign or 24 hours cannot be found by sampling.", "anchors": ["src/adam_core/utils/mpc.py::_unpack_mpc_date", "src/adam_core/utils/mpc.py::convert_mpc_packed_dates"]}
{"id": "C129", "title": "Differential correction fits each orbit to its own observations", "statement": "Without workers differential_correction fits every row of the orbit table in order, whatever the chunk size, each to exactly the observations that are its members, once each and in order of time and observatory; no orbits or no members give empty tables. With workers the same rows come back for every order of completion, up to their order, and it fails exactly when the serial call fails, if orbit_ids and obs_ids restrict nothing or both ways alike. orbit_ids and obs_ids have no effect on tables that are passed directly, and restrict all three tables if these are references. A chunk size of 0 is refused and a negative one fits nothing. Not true, and proved so: that the result does not depend on the number of workers (obs_ids given with references are lost in the workers; so are orbit_ids if only the members are a reference), and that an orbit id that occurs twice is fitted row by row (it is fitted twice with both rows).", "quantifier": "every table of orbits, members and observations, every choice of ids, chunk size, completion order and fit, failing ones included", "why_tests_cant": "Which rows reach a worker depends on the whole tables, on the ids and on whether tables are references; completion orders are unbounded.", "anchors": ["src/adam_core/orbit_determination/od.py::differential_correction", "src/adam_core/orbit_determination/od.py::od_worker", "src/adam_core/orbit_determination/od.py::od_worker_remote"]}
{"id": "C130", "title": "Sorting linkages and their members by time", "statement": "sort_by_id_and_time returns the linkages in order of their ids, those with one id in the order given, and the members in order of their linkage and then of the time of their observation, members without observation last. If observation ids are distinct no member is lost or repeated; in general each comes back as often as its observation is listed, and once if it is not listed. If no two members of a linkage have the same time the result does not depend on the order in which the join delivers its rows. Not true, and proved so: that the members are always the same ones (an observation listed twice doubles its member).", "quantifier": "every table of linkages, members and observations and every row order of the join", "why_tests_cant": "pyarrow's join has no fixed row order and duplicate keys multiply rows; the claims are about all tables and all orders.", "anchors": ["src/adam_core/orbit_determination/iod.py::sort_by_id_and_time"]}
{"id": "C131", "title": "The derived elements of a table describe the motion", "statement": "For a Keplerian row with a > 0 and 0 <= e < 1, or a < 0 and e > 1, the property q is the least distance of the motion of these elements, Q the greatest (inf if the distances are unbounded), p the distance a quarter of a turn from periapsis and P the shortest period (inf if there is none); for a bound orbit Q is reached and n times P is 360 degrees. A cometary row with e not 1 has the same derived elements as the Keplerian row of its semi-major axis. For a cometary row with e = 1 a, Q and P are inf and n is 0. Not true, and proved so: that p is right for a parabola (it is NaN, the distance is 2 q), and that inconsistent elements are noticed (q is positive exactly for consistent ones, and a > 0 with e > 1 gives a finite period with an infinite apoapsis).", "quantifier": "every finite semi-major axis or periapsis distance, eccentricity, orientation and positive gravitational parameter", "why_tests_cant": "Extremes and least periods are statements about the motion at all times; tests compare formulas with other formulas.", "anchors": ["src/adam_core/coordinates/keplerian.py::KeplerianCoordinates.q", "src/adam_core/coordinates/keplerian.py::KeplerianCoordinates.Q", "src/adam_core/coordinates/keplerian.py::KeplerianCoordinates.p", "src/adam_core/coordinates/keplerian.py::KeplerianCoordinates.P", "src/adam_core/coordinates/keplerian.py::KeplerianCoordinates.n", "src/adam_core/coordinates/cometary.py::CometaryCoordinates.a", "src/adam_core/coordinates/cometary.py::CometaryCoordinates.Q", "src/adam_core/coordinates/cometary.py::CometaryCoordinates.p", "src/adam_core/coordinates/cometary.py::CometaryCoordinates.P", "src/adam_core/coordinates/cometary.py::CometaryCoordinates.n", "src/adam_core/dynamics/kepler.py::calc_period", "src/adam_core/dynamics/kepler.py::calc_semi_latus_rectum", "src/adam_core/dynamics/kepler.py::calc_mean_motion"]}
{"id": "C132", "title": "What is read from an answer of the Small-Body Database", "statement": "query_sbdb_new reads an answer exactly if there is an orbit with a readable epoch, the covariance (if it has data) is at least 6 by 6 and its labels, if they are a list, begin with e, q, tp, node, peri, i, and the elements used contain all six names with readable values; without covariance data also the six entries are needed for their sigmas. The elements are those of the covariance if it has data and elements, otherwise the orbit's; the last entry of a name counts. A symmetric covariance matrix is read entry by entry by its labels. Without data the covariance has the squares of the sigmas on the diagonal; off the diagonal it has zero if the sigma of the earlier element (q, e, i, raan, ap, tp) is known and NaN otherwise, and a missing or unreadable sigma is NaN. Not true, and proved so: that elements are always put at their own epoch (covariance elements without epoch get the orbit's epoch), and that labels are always checked (without a list of labels the matrix is used as it is).", "quantifier": "every answer: any entries, repeated, missing or unreadable, any labels and matrix sizes", "why_tests_cant": "Answers come from a service and vary in which optional parts are present; tests use a few recorded answers.", "anchors": ["src/adam_core/orbits/query/sbdb.py::_orbits_from_sbdb_payloads", "src/adam_core/orbits/query/sbdb.py::_sbdb_float", "src/adam_core/orbits/query/sbdb.py::_sbdb_elements_map", "src/adam_core/orbits/query/sbdb.py::_sbdb_element_value", "src/adam_core/orbits/query/sbdb.py::_sbdb_element_sigma"]}
{"id": "C133", "title": "The older query reads nothing that the newer one reads differently", "statement": "Whatever query_sbdb reads from an answer, query_sbdb_new reads the same epoch, elements and covariance from it. Not true, and proved so: the converse; a missing sigma, missing labels and covariance elements without epoch are a KeyError of query_sbdb only.", "quantifier": "every answer whose covariance elements are absent or a list", "why_tests_cant": "Two code paths over all answers; tests compare them on a few objects.", "anchors": ["src/adam_core/orbits/query/sbdb.py::_orbits_from_sbdb_results", "src/adam_core/orbits/query/sbdb.py::_orbits_from_sbdb_payloads"]}
{"id": "C134", "title": "Requests to Scout are repeated only after transient failures, within the limit, with doubling pauses", "statement": "Every request to Scout is sent at least once and at most max_attempts times (once if that is less than one). Another one is sent exactly after a failure without HTTP status, with 429, or with 500 and above; the outcome is that of the last reply. The pause after attempt i (from zero) is retry_delay_s times 2^i, without an upper bound. A negative delay means no second request: the failure is replaced by the exception of the pause.", "quantifier": "every sequence of replies of the server, every limit and every delay", "why_tests_cant": "Tests script a few replies; the claim is about every sequence of replies and every limit.", "anchors": ["src/adam_core/orbits/query/scout.py::_request_scout_json"]}
{"id": "C135", "title": "Which exception a Scout request ends with", "statement": "If the delay is not negative, the exception is determined by the last reply: not-found for HTTP 404 or for an error text that says so; unavailable (the only one marked as retryable) for a failure without status, 429 or 500 and above, and for an error text that says the service is busy and does not say the object is gone; the plain query error for any other status; invalid-response for JSON that is no object and any other error text. A payload is returned exactly for an object without error text. A body that is no JSON is NOT an invalid response: it is requested again to the limit and reported as unavailable.", "quantifier": "every sequence of replies, every error text and case folding", "why_tests_cant": "The classes are decided by the combination of all replies and texts; tests check a handful of messages.", "anchors": ["src/adam_core/orbits/query/scout.py::_request_scout_object_json", "src/adam_core/orbits/query/scout.py::ScoutQueryError", "src/adam_core/orbits/query/scout.py::ScoutServiceUnavailableError", "src/adam_core/orbits/query/scout.py::ScoutResponseError"]}
{"id": "C136", "title": "Scout orbit samples: one variant per row, objects in order, all or nothing", "statement": "Objects are asked for in the order given, each one to max_attempts times, and none after the first failure, which is raised. If all succeed, the result has one row for every row of every answer, in order, with the elements of that row under the right names. An answer is taken exactly if its signature is version 1.3 and all rows have at least fifteen fields, one exactly fifteen, with values of the right types; the numbers must be readable, else an exception that is not one of the Scout exceptions escapes. No rows means not-found. Fields after the fifteenth are silently dropped if some other row has only fifteen. Orbit ids are the sample numbers of an object and so are shared between objects.", "quantifier": "every list of objects, every server and every answer", "why_tests_cant": "All mixtures of successes, failures and malformed rows over any number of objects cannot be enumerated.", "anchors": ["src/adam_core/orbits/query/scout.py::query_scout", "src/adam_core/orbits/query/scout.py::scout_orbits_to_variant_orbits", "src/adam_core/orbits/query/scout.py::ScoutOrbit"]}
{"id": "C137", "title": "Scout observations are never a partial set", "statement": "Rows are returned exactly if the signature is version 1.3, every line of the file that is not blank parses, there is at least one, all are of the object asked for, and the metadata are text or null; then there is one row per such line, in order, with the same hash, count and metadata. The declared number of observations never changes the rows; a missing or unreadable one is null. A wrong file or signature is an invalid response; wrong metadata escape as other exceptions. In particular a version given as the number 1.3 passes the signature check and still never yields observations. Many objects are treated as in C136.", "quantifier": "every list of objects, every server, every file text", "why_tests_cant": "A partial set could come from any line of any file; tests have one or two files.", "anchors": ["src/adam_core/orbits/query/scout.py::query_scout_observations", "src/adam_core/orbits/query/scout.py::_require_scout_signature", "src/adam_core/observations/obs80.py::parse_optical_obs80_file"]}
{"id": "C138", "title": "Horizons states: every object at every time, in order, whatever the batches", "statement": "The query asks for every object once per batch of at most fifty consecutive sorted times, and returns one row for every row of every answer, sorted by time. If Horizons answers each epoch asked for, up to 100000 objects and distinct times come back as exactly the table of all pairs: times ascending, and at every time the objects in the order given, under ids that are the position of the object. The only failures with valid arguments are exceptions of a request; nothing is asked for after it and nothing is returned. No times is an assertion error; no objects or an unknown coordinate type a ValueError, before any request. Not true, and proved so: that the origin of the result is the centre asked for. It is the Sun for every location, so states relative to different centres come back under the same label.", "quantifier": "every list of objects and times, every coordinate type and every server", "why_tests_cant": "The batches, the two sorts and their ties depend on the number of times and objects; tests query a few epochs of a few objects and cannot reach the network.", "anchors": ["src/adam_core/orbits/query/horizons.py::query_horizons", "src/adam_core/orbits/query/horizons.py::_get_horizons_vectors", "src/adam_core/orbits/query/horizons.py::_get_horizons_elements"]}
{"id": "C139", "title": "Horizons ephemerides: one row for every object and observer", "statement": "On success there are exactly as many rows as pairs of an object and an observer, sorted by object, time and code. If Horizons answers each date asked for, they are the rows of those pairs: origin is the code of the observatory, the light time is in days. The query fails exactly if there are no objects or no observers, if a request fails, or if an answer has another number of rows than dates asked for (ValueError). Not true, and proved so: that longitude and latitude can be read in the frame of the result. They are right ascension and declination but the frame is called ecliptic; the direction read from them is right only at the two equinoxes.", "quantifier": "every list of objects and observers, every server, every direction and obliquity between 0 and 180 degrees", "why_tests_cant": "Tests compare a few answers; completeness over observatories in any order and the error of the frame for all directions need a proof.", "anchors": ["src/adam_core/orbits/query/horizons.py::query_horizons_ephemeris", "src/adam_core/orbits/query/horizons.py::_get_horizons_ephemeris", "src/adam_core/observers/observers.py::Observers"]}
{"id": "C140", "title": "Kepler's equation on ellipses: the default settings always converge up to e = 0.9", "statement": "In exact arithmetic, for every eccentricity from 0 to 0.9 and every mean anomaly, solve_kepler with its default settings stops after at most 32 of its 100 corrections and returns a true anomaly whose mean anomaly differs by at most e*1e-30 from the one given; so the state of such elements is that of the motion at the time M/n up to e*1e-30/n, without further conditions. For every e < 1 the iteration converges for the mean anomalies between 0 and pi whose first correction does not cross apoapsis: for every tolerance there is a number of corrections after which it stops, whatever the limit.", "quantifier": "every eccentricity, mean anomaly, tolerance and iteration limit within the stated ranges", "why_tests_cant": "Convergence is a statement about all histories of an iteration started anywhere on a continuum; a test sees finitely many.", "anchors": ["src/adam_core/dynamics/kepler.py::solve_kepler", "src/adam_core/coordinates/transform.py::_keplerian_to_cartesian_a"]}
{"id": "C141", "title": "Kepler's equation on hyperbolas: convergence, and where the default settings stop too early", "statement": "In exact arithmetic, for every e > 1 and every mean anomaly the iteration of solve_kepler converges: for every tolerance there is a number of corrections after which it stops, whatever the limit. The default settings are enough for e >= 1.01 and |M| <= 35 radians, and there the state of the elements is that of the motion at M/n with the error bound of C97. Not true, and proved so: that they are enough for every mean anomaly. For every e > 1 and |M| >= 110 the run is cut off after 101 corrections, and the true anomaly returned belongs to a mean anomaly more than 3000 radians larger than the one given; no error is reported.", "quantifier": "every eccentricity above 1, every mean anomaly, tolerance and iteration limit", "why_tests_cant": "Convergence is a statement about all histories of an iteration started anywhere on a continuum; large mean anomalies of unbound orbits are not in the tests.", "anchors": ["src/adam_core/dynamics/kepler.py::solve_kepler", "src/adam_core/coordinates/transform.py::_keplerian_to_cartesian_a"]}
{"id": "C142", "title": "Two-body propagation does not depend on the axes, but labels every result ecliptic", "statement": "In exact arithmetic, propagate_2body commutes with every rotation of the axes: rotating the state and propagating gives the rotated propagated state, so the values are right in whatever frame they were given. The result is at the requested time. Not true, and proved so: that the frame of the result is the frame of the orbits. The result is always labelled ecliptic, so for orbits given in the equatorial frame it is right only if the propagated position and velocity both lie on the line of the equinoxes.", "quantifier": "every state, gravitational parameter, time, rotation and frame", "why_tests_cant": "A statement about all rotations and states; the tests propagate ecliptic orbits.", "anchors": ["src/adam_core/dynamics/propagation.py::propagate_2body", "src/adam_core/dynamics/propagation.py::_propagate_2body"]}
{"id": "C143", "title": "The row named by a failed two-body propagation", "statement": "If propagate_2body runs without workers, the row_index it reports for a propagation that is not finite is the position, in the whole input, of a pair of orbit and time whose state is not finite before or after the propagation. Not true, and proved so: that the same holds with worker processes. There the index is counted from the first row of a chunk that failed (for some multiple s of the chunk size, the bad pair is at s times the number of times plus the index), so the report can name a row whose propagation is fine.", "quantifier": "every list of orbits and times, chunk size, number of workers and completion order", "why_tests_cant": "The reported index depends on the chunking and on which chunk fails first; tests use one failing orbit in a serial run.", "anchors": ["src/adam_core/dynamics/propagation.py::propagate_2body", "src/adam_core/dynamics/propagation.py::_raise_non_finite_propagation_error"]}
{"id": "C144", "title": "What is read from an orbit file of the NEOCC", "statement": "For every file of the OEF format, whatever the number of blanks, the places of comment lines and the division of the triangle into lines, the reader finds the header entries (quotes and comments removed), the name, the six elements of the last KEP line, the date and time scale of the last MJD line, the magnitude and slope of the last MAG line, and the symmetric 6x6 matrix whose upper triangle is written in the COV lines, row by row, also if the triangle is that of seven parameters. It accepts the file exactly if every such line has its numbers and the COV and COR lines have 21 or 28 numbers each, or none.", "quantifier": "every header, name, sequence of lines, spacing, and trailing white space", "why_tests_cant": "A test reads one or two files; the claim is for all files of the format.", "anchors": ["src/adam_core/orbits/query/neocc.py::_parse_oef", "src/adam_core/orbits/query/neocc.py::_remove_last_column_of_upper_triangular"]}
{"id": "C145", "title": "Rows and errors of NEOCC queries", "statement": "query_neocc asks for one file per object, with the blanks removed from its name, and returns one row for every answer that has a date, in the order of the objects. Such an answer must be in the TDT scale and in the system ECLM J2000 (otherwise ValueError) and have a reference system, a name, elements and covariances (otherwise KeyError); the first request that fails or answer that is refused decides the error and no rows are returned. Equinoctial elements and unknown epochs are refused before anything is asked. Not true, and proved so: that there is a row for every object. An answer without a date, such as the empty answer for an unknown object, is passed over without notice.", "quantifier": "every list of objects and every behaviour of the server", "why_tests_cant": "The behaviour depends on all possible answers to all requests; tests replay a few recorded answers.", "anchors": ["src/adam_core/orbits/query/neocc.py::query_neocc", "src/adam_core/orbits/query/neocc.py::_physical_parameters_from_neocc"]}
{"id": "C146", "title": "The result of a least-squares fit", "statement": "fit_least_squares, for one orbit and observations sorted by time, station and the other columns, minimises the sum of the chi2 of the observations not ignored, starting from the orbit. It returns one row with the values the minimiser found, its number of evaluations, success and status, and chi2 and reduced chi2 computed from that row, and a row for every observation, marked as an outlier exactly if it was to be ignored. Arguments given are passed to the minimiser, six have defaults, and `args` is dropped. If the orbit is heliocentric, ecliptic and in TDB and the minimiser does not go uphill, the fitted orbit is not worse than the one given. Not true, and proved so: that this holds for other origins or frames, or that the epoch is kept. Trial orbits are always heliocentric, ecliptic and TDB, while the result is labelled with the origin and frame given: an orbit that fits perfectly can be replaced by one that does not, and the days of a UTC epoch are relabelled TDB.", "quantifier": "every orbit, list of observations, set of ignored ids, keyword arguments, propagator and minimiser", "why_tests_cant": "The minimiser and propagator are arbitrary, and the tests fit heliocentric ecliptic orbits with TDB epochs only.", "anchors": ["src/adam_core/orbit_determination/differential_correction.py::fit_least_squares", "src/adam_core/orbit_determination/differential_correction.py::residual_function"]}
{"id": "C147", "title": "The covariance of a least-squares fit", "statement": "The covariance returned by fit_least_squares is the inverse of J^T J for the Jacobian J of the minimiser, and is missing exactly if there is none. With fewer than six observations it is always missing, and with six it is missing at every minimum where the observations are not met exactly, although each observation has two components. When it exists it is never too small: the variance along every direction is at least that of weighted least squares on the components of the observations. Not true, and proved so: that it is the covariance of weighted least squares; for twelve observations, two of every coordinate, at an exact minimum it is twice as large.", "quantifier": "every orbit, list of observations, propagator, minimiser and direction", "why_tests_cant": "A statement about matrices for all observations; a test can compare two numbers for one orbit.", "anchors": ["src/adam_core/orbit_determination/differential_correction.py::fit_least_squares", "src/adam_core/orbit_determination/differential_correction.py::residual_function"]}
{"id": "C148", "title": "Partial derivatives of least squares", "statement": "The perturbation of a coordinate is never zero unless delta is: it is that fraction of the coordinate, or of 1 (positions) and 0.01 (velocities) where it would be below 1e-20. The columns are difference quotients, one-sided or central, of declination, and of right ascension times the cosine of the declination of the perturbed orbit. For delta to 0 they converge to the derivatives of the direction in the sky for every orbit that is not predicted at right ascension 0. Not true, and proved so: that they converge there too. When 0 lies between the two right ascensions the column is minus the difference quotient, so for an object predicted at right ascension 0 and moving to smaller ones the column has the wrong sign however small delta is.", "quantifier": "every ephemeris function, state, coordinate and delta, one-sided or central", "why_tests_cant": "Convergence and the sign at the wrap concern all states; tests use one object far from right ascension 0.", "anchors": ["src/adam_core/orbit_determination/least_squares.py::LeastSquares.least_squares", "src/adam_core/orbit_determination/least_squares.py::LeastSquares._residual_columns"]}
{"id": "C149", "title": "One correction of least squares", "statement": "For positive weights, the correction that one iteration of LeastSquares.least_squares applies is the only minimiser of the weighted sum of squares of the linearised residuals, and the covariance is the inverse of the normal matrix. There is an error exactly if some change of the state changes no predicted component. Where predictions are linear the RMS after the correction is at most the one before, and the square of the RMS times twice the number of observations is the weighted sum of squares.", "quantifier": "every number of observations, partial derivatives, residuals and positive weights", "why_tests_cant": "Optimality over all corrections and the exact condition for the error are statements over all matrices.", "anchors": ["src/adam_core/orbit_determination/least_squares.py::LeastSquares.least_squares"]}
{"id": "C150", "title": "Variants prepared for a visualisation", "statement": "prepare_propagated_variants returns the rows of variants that no impact names unchanged and in order, and one table for every body that is hit, with exactly the rows of the variants that hit it: each as it was before its impacts and at the place of an impact, carried along to its own time, afterwards. Coordinates that are not ecliptic are an AssertionError, bodies other than the Earth and the Moon a ValueError, and nothing else is an error. Not true, and proved so: that rows keep their order (rows after an impact go to the end), or that a variant with several impacts on a body is shown at the place of the first.", "quantifier": "every list of propagated rows, impacts, times and places, in any order", "why_tests_cant": "Impacts are applied one after another, each moving rows; that the result is right for all lists of impacts needs an induction over them.", "anchors": ["src/adam_core/dynamics/plots.py::prepare_propagated_variants"]}
{"id": "C151", "title": "Times and tables of an impact visualisation", "statement": "For a positive time step generate_impact_visualization_data propagates to consecutive whole multiples of the time step. They begin at most one step before the range asked for and end less than one step from it; with a range of at least one step all impacts lie between the first and last. Each table is sorted by time and holds every variant at all times: those that no impact names, and for every body those that hit it. No impacts, or impacts on other bodies, are a ValueError. Not true, and proved so: that the times reach the end of the range asked for, or that variants of different orbits are told apart. Only the variant id is compared, so a variant that hits nothing is shown on the surface once a variant of another orbit with the same variant id has hit.", "quantifier": "every set of variants and impacts, every positive step and range, every propagator", "why_tests_cant": "Rounding down to multiples of the step must be right for all times of impact; tests use one.", "anchors": ["src/adam_core/dynamics/plots.py::generate_impact_visualization_data"]}
{"id": "C152", "title": "Dates of a porkchop plot", "statement": "prepare_and_propagate_orbits uses exactly the dates start + k step before the end, in increasing order, and none if the end is not after the start. Not true, and proved so: that the end is among them; it never is, even a whole number of steps after the start.", "quantifier": "every start, end and positive step", "why_tests_cant": "A statement about all intervals and steps, including those that divide the interval.", "anchors": ["src/adam_core/missions/porkchop.py::prepare_and_propagate_orbits"]}
{"id": "C153", "title": "Variants of orbits and back", "statement": "VariantOrbits.create numbers its rows 0, 1, 2, ... over the whole table, keeps the variants of an orbit together in the order of the orbits, and gives each the ids, epoch, origin and physical parameters of its orbit; with sigma points row n belongs to orbit n // 13. It fails exactly if the covariances cannot be sampled. For orbits that differ in id or epoch, sampling by sigma points (or auto) and collapsing onto the same orbits returns every orbit with exactly its covariance. If the variants and orbits with distinct ids are first moved to a common time by affine maps x -> A x + b, the covariances are A C A^T. Not true, and proved so: that it holds for orbits with the same id and epoch; the variants of each are used for all of them, and two orbits without any uncertainty come back with the square of their distance as variance.", "quantifier": "every number of orbits, ids, epochs, states and covariances with an exact square root, all parameters of the sigma points, every affine map", "why_tests_cant": "An identity over all covariances and all tables of orbits through two methods that group rows by different keys.", "anchors": ["src/adam_core/orbits/variants.py::VariantOrbits.create", "src/adam_core/orbits/variants.py::VariantOrbits.collapse", "src/adam_core/orbits/variants.py::VariantOrbits.link_to_orbits"]}
{"id": "C154", "title": "Normalised bandpass curves", "statement": "A bandpass curve that is accepted for packaging comes out with strictly increasing wavelengths, exactly those of its samples; its throughputs are those of samples at these wavelengths, clipped to [0, 1] and divided by one number so that the greatest is 1. Numbers that are not finite, a single wavelength and a curve without positive throughput are a ValueError; no samples at all are an IndexError. For distinct wavelengths the result does not depend on the order of the samples, and normalising again changes nothing. Not true, and proved so: that of several samples at one wavelength the first is kept; the sort is not stable.", "quantifier": "every list of wavelengths and throughputs, in any order, with repetitions, and every way to sort equal wavelengths", "why_tests_cant": "Tests use a few curves; which repeated sample survives depends on the sorting algorithm.", "anchors": ["src/adam_core/photometry/bandpasses/vendor.py::_normalize_curve"]}
{"id": "C155", "title": "The packaged table of bandpass curves", "statement": "Building the bandpass curves succeeds exactly if there are specifications, their filter names are distinct, and every one is answered with two columns of equal length, at least two long, that make a curve. The table then has one row for each specification, in order, with the normalised curve of its answer and wavelengths in nanometres, a tenth of those in the answer.", "quantifier": "every list of specifications and every answer of the service, including failures and tables with missing columns", "why_tests_cant": "The answers of the service are not under control of the tests, and duplicates may be anywhere in the list.", "anchors": ["src/adam_core/photometry/bandpasses/vendor.py::build_bandpass_curves", "src/adam_core/photometry/bandpasses/vendor.py::_parse_svo_curve"]}
{"id": "C156", "title": "The packaged integrals of templates and filters", "statement": "The table of integrals has one row for each template and filter, template by template in the order of the filters, NaN exactly where sun, template and filter do not overlap. The solar spectrum is sorted first, so that the order of its samples does not matter if their wavelengths are distinct. The packaged spectrum has the rows of the file between 3000 and 12000 Angstrom, in their order, in nanometres, with fluxes divided by the greatest of them; without such rows building it is a ValueError. A built-in template and the same curve registered by the user under another name have the same reflectance in every filter where the latter is a number. The mean reflectance through a filter within the range of the template lies between the least and the greatest reflectance of the template, and multiplying the solar flux by a constant multiplies integrals and norms alike. Not true, and proved so: that built-in templates and registered ones always agree; with fewer than two solar samples in the overlap the table has 0 and a registered template NaN.", "quantifier": "all templates, filters and solar spectra", "why_tests_cant": "Two implementations of one integral, for packaging and at run time, compared over all curves.", "anchors": ["src/adam_core/photometry/bandpasses/vendor.py::build_template_bandpass_integrals", "src/adam_core/photometry/bandpasses/api.py::_compute_integral_photon", "src/adam_core/photometry/bandpasses/api.py::get_integrals"]}
{"id": "C157", "title": "The packaged asteroid templates", "statement": "The four packaged templates C, S, NEO and MBA are built without error, on the same wavelengths, with positive reflectances and reflectance 1 at 550 nm. Each is the mix of C and S with the weights in its row, which add up to 1; and with integrals built from them, get_integrals of a template is compute_mix_integrals with its weights (0.5 and 0.5 for NEO, 0.7 and 0.3 for MBA) for all filters, as long as the user has not registered templates under these names.", "quantifier": "all solar spectra and filters, all histories of calls", "why_tests_cant": "The agreement of templates and mixes holds for all filters, also those added later; a test compares packaged numbers.", "anchors": ["src/adam_core/photometry/bandpasses/vendor.py::build_asteroid_templates", "src/adam_core/photometry/bandpasses/api.py::compute_mix_integrals", "src/adam_core/photometry/bandpasses/api.py::get_integrals"]}
{"id": "C158", "title": "Colour terms of many filters", "statement": "bandpass_color_terms has one entry for every distinct non-empty filter asked for except the source (by default, all filters), computed with the templates registered last. An entry is the number that bandpass_delta_mag gives for this pair, and infinity or NaN where that raises. Against another source the terms differ by the term of that source. It raises a ValueError for an empty source, and, if a filter is left, for weights that make no mix, an unknown filter or template, or a source whose reflectance is not positive; there is no other error. Not true, and proved so: that an unknown source or template is always refused; if no filter is left the answer is an empty dictionary.", "quantifier": "all histories of registrations and calls, compositions, sources and lists of targets with repetitions", "why_tests_cant": "The state of the module is shared by all calls; consistency of two functions over all states is not a finite test.", "anchors": ["src/adam_core/photometry/bandpasses/api.py::bandpass_color_terms", "src/adam_core/photometry/bandpasses/api.py::bandpass_delta_mag"]}
{"id": "C159", "title": "OpenSpace assets are Lua tables", "statement": "The text of a LuaDict, read back as a Lua table, has exactly the attributes that are not None, in order, under their names in Pascal case, with their values: strings, numbers, truth values, tuples of numbers, resources and further dictionaries, at any depth and any indentation. Not true, and proved so: that a list of strings is written as a Lua list of these strings (it becomes one string); that every string can be written (one with a quote in it can add attributes of its own).", "quantifier": "all dictionaries of any depth, all strings without quotes, all indentations", "why_tests_cant": "The nesting is unbounded, and a test compares a text with an expected text, not with what a Lua reader makes of it.", "anchors": ["src/adam_core/orbits/openspace/lua.py::LuaDict", "src/adam_core/orbits/openspace/renderable.py::Resource"]}
{"id": "C160", "title": "Trails of orbits for OpenSpace", "statement": "create_renderable_trail_orbit writes for each orbit, in order, one node for the trail and, if asked, one for the head, named Object00000000, Object00000001, ..., all distinct; the asset adds exactly these nodes when initialised and removes exactly these when deinitialised. Identifiers are the object ids (orbit ids for orbits without one) with underscores for blanks. Trail and head have the same translation; with Kepler it has the elements of the orbit, the axis in kilometres, and the period in seconds that is the trail's period in days, 10000 days for an orbit without one. A rendering or bin mode that is not known, and SPICE without kernel path or ids, are a ValueError before a file is touched; an object without SPICE id is a KeyError that leaves the declarations of the orbits before it. gui_name, dim_in_atmosphere, enabled, opacity and tag have no effect. Not true, and proved so: that an unknown type of translation is a ValueError (it is an UnboundLocalError with an emptied file, and without orbits no error); that different objects have different identifiers; that the bin modes of the type annotation are accepted.", "quantifier": "every list of orbits, every combination of options, every map of SPICE ids", "why_tests_cant": "Number of orbits and combinations of options are unbounded; what is left in the file after an exception depends on where it happens.", "anchors": ["src/adam_core/orbits/openspace/assets.py::create_renderable_trail_orbit", "src/adam_core/orbits/openspace/assets.py::create_initialization", "src/adam_core/orbits/openspace/assets.py::_safe_orbital_period", "src/adam_core/orbits/openspace/translation.py::KeplerTranslation", "src/adam_core/orbits/openspace/translation.py::SpiceTranslation"]}
{"id": "C161", "title": "Epochs in SBDB files", "statement": "The date and fraction of a day that orbits_to_sbdb_file writes for an epoch since 1858-11-17 are that epoch, unless it is less than half a millisecond before midnight; then they are one day late. Not true, and proved so: that the file always has the epochs of the orbits.", "quantifier": "every epoch as a rational number of days", "why_tests_cant": "The rounding to milliseconds matters for one epoch in 10^8, and tests use a few.", "anchors": ["src/adam_core/orbits/openspace/assets.py::orbits_to_sbdb_file"]}
{"id": "C162", "title": "The packaged filters and bands of observatories", "statement": "With the filters and the map of observatory bands that adam_core packages, map_to_canonical_filter_bands never names a filter without a curve: with on_unknown='skip' columns of one length are never refused, and with 'raise' they are refused exactly if some row has no filter. A band that is not itself a filter goes, fallbacks aside, to a filter of the survey whose station reports it. Mapping an answer again gives the answer, from every station. Band w is PS1_w for F51 and F52 and unknown elsewhere; U, R and I of stations without a map of their own are, as fallbacks, SDSS filters and not the packaged Johnson-Cousins ones, V is V, and B is not known.", "quantifier": "all columns of observatory codes and reported bands, null or not", "why_tests_cant": "The strings of stations and bands are arbitrary; tests look at a few pairs, not at those that no table mentions.", "anchors": ["src/adam_core/photometry/bandpasses/vendor.py::_default_svo_bandpass_specs", "src/adam_core/photometry/bandpasses/vendor.py::build_observatory_band_map", "src/adam_core/photometry/bandpasses/api.py::map_to_canonical_filter_bands", "src/adam_core/photometry/bandpasses/api.py::assert_filter_ids_have_curves"]}
{"id": "C163", "title": "Orbits of Lambert solutions", "statement": "The four orbit tables of a LambertSolutions have one row per solution, in order: the bodies at departure and arrival with their ids, times and states, and the transfer at departure and arrival at the position and time of the body and with the solved velocity, all in the table's frame and about the row's origin; C3 is the square of the difference of the velocities of transfer and body. Ids of transfers are distinct and not shared between the two tables. A two-body motion about the propagation origin in the state of the departure row is, after a positive time, in the state of the arrival row; that time differs from the time between the rows by no more than the residual of the equation that was solved.", "quantifier": "all tables of departure and arrival states, all two-body motions, every order in which workers finish", "why_tests_cant": "It is a statement about solutions of a differential equation through every pair of states.", "anchors": ["src/adam_core/missions/porkchop.py::LambertSolutions", "src/adam_core/missions/porkchop.py::generate_porkchop_data"]}
{"id": "C164", "title": "Directions of departure", "statement": "departure_spherical_coordinates gives one row per velocity: range 1, no rates, longitude in [0, 360) and latitude in [-90, 90], and the velocity is its own length times the unit vector of that equatorial longitude and latitude, seen in the frame of the velocities. The length does not matter. A velocity of zero has no direction. Columns of different lengths and empty columns are an AssertionError; nothing else is refused.", "quantifier": "all real velocities in either frame, all lengths of columns", "why_tests_cant": "The directions fill a sphere, with seams at the poles and at longitude zero.", "anchors": ["src/adam_core/missions/porkchop.py::departure_spherical_coordinates"]}
{"id": "C165", "title": "States of bodies by SPICE id", "statement": "get_spice_body_state gives every row the state that the kernels loaded at that moment have for the body at the row's instant, in the frame and from the origin asked for, under the times given, whatever was queried, registered or removed before; it neither reads nor writes a cache. An unknown frame and any row without a state are a ValueError for the whole call; a time scale that cannot be converted is the error of the conversion; nothing else is refused. For a body that get_perturber_state knows, both give the same states when the latter's cache is empty; after a kernel is registered they can differ.", "quantifier": "all tables of times, with or without repeated epochs, all histories of calls and kernel registrations", "why_tests_cant": "Rows are grouped by epoch, and the answer must not depend on the history; tests look at a few epochs in a fresh process.", "anchors": ["src/adam_core/utils/spice.py::get_spice_body_state", "src/adam_core/utils/spice.py::get_perturber_state", "src/adam_core/utils/spice.py::register_spice_kernel"]}
{"id": "C166", "title": "When Ray is used", "statement": "initialize_use_ray answers yes exactly if num_cpus is None or at least 2, and then the process is connected to a cluster; otherwise Ray is not touched. A process that is connected stays connected to the same cluster whatever later calls ask for, and none of them fails. One that is not takes a running cluster as it is, and only if there is none to connect to starts one with the numbers asked for; other failures are passed on without a second attempt. Not true, and proved so: that num_cpus limits the number of CPUs used.", "quantifier": "all histories of calls with any arguments, all behaviours of Ray", "why_tests_cant": "It depends on what runs on the machine and on earlier calls in the process; tests start from one situation.", "anchors": ["src/adam_core/ray_cluster.py::initialize_use_ray"]}
{"id": "C167", "title": "Coordinates on the unit sphere", "statement": "to_unit_sphere keeps number and order of rows, angles, their rates, times, covariances and origins; it sets distance 1 and radial rate 0, with only_missing only where they are missing. Doing it again changes nothing. The Cartesian position of a row with longitude and latitude is then a unit vector, the old position divided by the distance if there was one; the velocity is the part of the old one across the line of sight divided by the distance; back in spherical coordinates the angles and rates are the same. Not true, and proved so: that with only_missing all rows are on the unit sphere; that the covariance is that of the new coordinates.", "quantifier": "all tables with any coordinates missing, all real coordinates", "why_tests_cant": "It is an identity between trigonometric functions on all directions, for every pattern of missing values.", "anchors": ["src/adam_core/coordinates/spherical.py::SphericalCoordinates", "src/adam_core/coordinates/transform.py::_spherical_to_cartesian"]}
{"id": "C168", "title": "Orbits written as type 9 SPK segments", "statement": "Each orbit written with kernel type w09 is read by SPICE at the epochs of the file as the orbit's own states there, in km and km/s. A motion whose coordinates are polynomials of degree up to 15 is read exactly at every time from the first to the last epoch, and nothing is read outside. The 16 states used for a time are those around it, except near the ends. An orbit can be written exactly if it has at least 16 states, no two at one time; the order of its rows does not matter, and the segment spans the first to the last epoch.", "quantifier": "all orbits with any number of states in any order, all times read", "why_tests_cant": "It concerns every instant between the epochs and every number of states; tests read a few epochs.", "anchors": ["src/adam_core/orbits/spice_kernel.py::write_spkw09_segment", "src/adam_core/orbits/spice_kernel.py::orbits_to_spk"]}
{"id": "C169", "title": "The SPK file that is written", "statement": "The states that orbits_to_spk asks the propagator for are equally spaced from the start by the step. The file has one segment for each orbit id, in order of first appearance, with all states of that id under its target id, and is closed; the mapping returned is the ids and targets of these segments. If an orbit cannot be written, the error is that of the first such orbit, and the file is left open with the segments of those before it; an unknown kernel type is a ValueError with an open, empty file unless there are no orbits. Not true, and proved so: that the file covers the requested span; its last epoch can be any time less than a step before the end time.", "quantifier": "all tables of orbits with repeated or interleaved ids, all spans and steps, all failures of the writer", "why_tests_cant": "It is about every history of failures and every span; tests write one file that succeeds.", "anchors": ["src/adam_core/orbits/spice_kernel.py::orbits_to_spk"]}
{"id": "C170", "title": "Longitudes, latitudes and time zones of observatories", "statement": "The longitude of an observatory is turned from [0, 360) to (-180, 180], the same direction, and a row without longitude has no latitude either. The latitude lies in [-90, 90]. It is the geodetic latitude of an observatory on the ellipsoid, at the equator or on a round Earth; above the ellipsoid it is too far from the equator, by at most half of h/a times (a/b)^2 - 1, which is below 5e-6 radians up to 9 km. The poles have latitude 90 and -90, the centre of the Earth none. There is one time zone per row, in order, and rows without longitude have the text None. The library is asked for every row, so its refusal of any row fails the whole call. Not true, and proved so: that the latitude is always the geodetic latitude.", "quantifier": "all parallax coefficients, all heights, all ellipsoids, all answers of the time zone library", "why_tests_cant": "It bounds an error over every latitude and height; tests compare a few observatories to a tolerance.", "anchors": ["src/adam_core/observers/observers.py::ObservatoryParallaxCoefficients"]}
{"id": "C171", "title": "Covariances transformed by sampling", "statement": "There is one covariance per row, in order, and it is the sample covariance of the transformed samples of that row alone. It is symmetric and gives no combination of the new coordinates a negative variance. If the function is affine with matrix A, the result is A M A^T where M is the sample covariance of the samples drawn. The call succeeds exactly if there is a row and no covariance has an eigenvalue below -1e-15. Not true, and proved so: that two calls with the same arguments give the same covariances.", "quantifier": "all tables, all functions, all random draws", "why_tests_cant": "It holds for every outcome of the random generator and every function; tests use one function and a seed or a tolerance.", "anchors": ["src/adam_core/coordinates/covariances.py::transform_covariances_sampling"]}
{"id": "C172", "title": "Covariances transformed by derivatives", "statement": "The new covariance of a row is J C J^T, where J is the derivative of the function at that row with the arguments of that row. Symmetry and nonnegative variances are kept. Transforming by one function and then by another is the same as transforming by the composition, and transforming by a function and then by its inverse gives the covariance back. Keyword arguments are passed to the function by position: their names make no difference. Every call in the library passes the right arguments in the right order, except the one for geodetic coordinates, which is always a TypeError. Not true, and proved so: that the order of the keyword arguments makes no difference.", "quantifier": "all tables, all functions differentiable at the rows, all keyword arguments shared or per row", "why_tests_cant": "It is about every differentiable function and every composition; tests compare single transformations to samples.", "anchors": ["src/adam_core/coordinates/covariances.py::transform_covariances_jacobian", "src/adam_core/coordinates/jacobian.py::calc_jacobian"]}
{"id": "C173", "title": "Mahalanobis distance of two orbits", "statement": "Two orbits with all coordinates whose covariances sum to a positive definite matrix S have one distance d, at least zero, with d^2 the product of the difference of the states with the solution z of S z = difference; it is zero exactly if the states are the same. Of tables of such orbits each distance is that of the two orbits of the row alone. It does not matter which orbit is called the observed one, and the distance is the same after any invertible linear change of coordinates of both orbits and their covariances, so it does not depend on units or axes. Not true, and proved so: that the two orbits can always be exchanged; missing covariances of the predicted orbit count as zero, and those of the observed orbit leave no distance.", "quantifier": "all pairs and tables of Cartesian orbits of any dimension, all covariances with invertible sum, all invertible linear changes", "why_tests_cant": "Invariance and symmetry range over all covariances and all changes of coordinates; tests compute one value.", "anchors": ["src/adam_core/dynamics/impacts.py::calculate_mahalanobis_distance"]}
{"id": "C174", "title": "Magnitudes and uncertainties of Cartesian coordinates", "statement": "r_mag and v_mag are the lengths of position and velocity, missing exactly if one of their coordinates is; r_hat and v_hat have length one and point along them, and are missing for the vector zero. h is at right angles to both, its length is the area they span, and it is the same at all times of a two-body motion. sigma_r_mag (and sigma_v_mag) is the root mean square length of the error for every sample with the given covariance, is at least the uncertainty in any direction, does not depend on the axes, and is missing exactly if a diagonal entry is missing or negative. In km and km/s all of these are the values in au times the unit. covariance_km is the covariance of values_km: every entry is multiplied by the units of its row and of its column, and missing entries stay missing. Not true, and proved so: that sigma_r_mag is the uncertainty of r_mag; an error across the line of sight counts fully.", "quantifier": "all rows with any missing values, all covariances, all directions, rotations and two-body motions", "why_tests_cant": "It is about every covariance, every direction and every time of a motion; tests compare a few numbers.", "anchors": ["src/adam_core/coordinates/cartesian.py::CartesianCoordinates.r_mag", "src/adam_core/coordinates/cartesian.py::CartesianCoordinates.r_hat", "src/adam_core/coordinates/cartesian.py::CartesianCoordinates.v_mag", "src/adam_core/coordinates/cartesian.py::CartesianCoordinates.v_hat", "src/adam_core/coordinates/cartesian.py::CartesianCoordinates.sigma_r_mag", "src/adam_core/coordinates/cartesian.py::CartesianCoordinates.sigma_v_mag", "src/adam_core/coordinates/cartesian.py::CartesianCoordinates.h", "src/adam_core/coordinates/cartesian.py::CartesianCoordinates.h_mag", "src/adam_core/coordinates/cartesian.py::CartesianCoordinates.values_km", "src/adam_core/coordinates/cartesian.py::CartesianCoordinates.covariance_km"]}
{"id": "C175", "title": "UTC and TAI on days that end in a leap second", "statement": "rescale('tai') of a UTC timestamp adds exactly TAI - UTC of its day on days without a leap second; on a day that ends in one it adds that before noon, a second more after noon, and at noon whichever is even. A later UTC row stays later in TAI, and utc -> tai -> utc restores every row, on leap-second days too. tai -> utc -> tai is at most a second off, and restores the row unless the UTC row is within a second of noon of a leap-second day. Not true, and proved so: that it always restores the row (2016-12-31 12:00:36.3 TAI comes back a second later).", "quantifier": "every table of leap seconds (TAI - UTC whole, growing by at most a second a day), every normalised row", "why_tests_cant": "The behaviour differs only on the few days that end in a leap second and only near noon; tests use other dates.", "anchors": ["src/adam_core/time/time.py::Timestamp.rescale", "src/adam_core/time/time.py::Timestamp._leap_seconds_correction"]}
{"id": "C176", "title": "ISO 8601 texts of timestamps", "statement": "to_iso8601 of a row is a clock reading of the day in the row's scale: the millisecond nearest to the row's fraction of that day, or midnight of the next day if that is nearest. In all scales but UTC, and in UTC on days without a leap second, it states the time of the row to half a millisecond. Reading a text and printing it again gives the same text, the leap second 23:59:60 included; printing a row and reading it gives a normalised row at most half a millisecond away, and the same row if it is a whole number of milliseconds on such a day. UTC texts taken to TAI are exact on days without a leap second and within half a second (and a nanosecond) on a day with one. Not true, and proved so: that 43200 s into a UTC leap-second day prints as 12:00:00 (it prints 12:00:00.500), and that 2016-12-31T18:00:00 UTC becomes 18:00:36 TAI (it becomes 18:00:36.250).", "quantifier": "every table of leap seconds, every scale, every normalised row, every clock reading with milliseconds", "why_tests_cant": "It must hold for every millisecond of every day; leap-second days are a handful of dates that tests do not use.", "anchors": ["src/adam_core/time/time.py::Timestamp.to_iso8601", "src/adam_core/time/time.py::Timestamp.from_iso8601", "src/adam_core/time/time.py::Timestamp.to_astropy", "src/adam_core/time/time.py::Timestamp.from_astropy", "src/adam_core/time/time.py::Timestamp.rescale"]}
{"id": "C177", "title": "Gravitational parameters and codes of origins", "statement": "Origin.mu gives every row the published gravitational parameter of its own origin in au^3/day^2, whatever the other rows are, and is a ValueError exactly if some row has an origin without one. That of the Solar System barycenter is the sum over the Sun, the eight planets, the Moon and Pluto and agrees with the value of Horizons to 2e-9; that of the Sun agrees with the constant MU to 1e-15; accelerations from it in au/day^2 are those from the published parameter in km/s^2. as_OriginCodes gives the one code that all rows have, which is the NAIF id of that origin, an AssertionError for different codes or no rows, a KeyError for a name that is no OriginCodes, and undoes from_OriginCodes. == compares row by row, a single row with every row, and columns of other different lengths are a ValueError; != is its opposite in every row. Not true, and proved so: that every member of OriginCodes has a gravitational parameter (the Earth-Moon barycenter, Mars, Jupiter, Saturn, Uranus and Neptune have none). The constant MU of the orbit determination is the parameter of the Sun to 10^-15.", "quantifier": "every list of origin codes, every thing compared with", "why_tests_cant": "Tests compare a few origins; that no row gets the value of another, and no origin an uninitialised value, must hold for every mixture of codes.", "anchors": ["src/adam_core/coordinates/origin.py::Origin", "src/adam_core/coordinates/origin.py::OriginGravitationalParameters", "src/adam_core/coordinates/origin.py::_convert_mu_units"]}
{"id": "C178", "title": "Timestamps in 64-bit integers", "statement": "key is the number of nanoseconds since MJD 0 modulo 2^64; two normalised rows have the same key exactly if they are a multiple of 2^64 ns (584.5 years) apart, so rows of a period shorter than that are told apart. signature gives the number of rows, the first and last key and the sum of the keys modulo 2^63, zeros for no rows. add_nanos, add_days and differences are those of exact arithmetic for all day numbers with room for one more day; with check_range=False a sum outside of 64 bits is an ArrowInvalid. add_seconds, add_millis and add_micros of a whole number that is less than 2^63 ns move the time by exactly that or are refused. Not true, and proved so: that two epochs of a table with the same key are the same (get_perturber_state gives an epoch of 2184 the state of one of 1600 asked for in the same call, and get_mpc_observer_state returns the earlier table from its cache); that add_seconds refuses every argument outside of one day (18446744074 s move the time by 0.29 s).", "quantifier": "every row, table and argument that fit in 64 bits, every digest", "why_tests_cant": "Tests use dates of this century; wrap-around is a matter of every pair of dates and every argument.", "anchors": ["src/adam_core/time/time.py::Timestamp.key", "src/adam_core/time/time.py::Timestamp.signature", "src/adam_core/time/time.py::Timestamp.add_nanos", "src/adam_core/time/time.py::Timestamp.add_seconds", "src/adam_core/utils/spice.py::get_perturber_state", "src/adam_core/observers/state.py::get_mpc_observer_state"]}
{"id": "C179", "title": "Iteration of the Lambert solver", "statement": "The three derivative formulas izzo_lambert iterates with are the first, second and third derivative of the time of flight, for elliptic and hyperbolic transfers and every number of revolutions, and a step is that of Householder's method of third order, limited in length. A step of the iteration for the shortest time is that of Halley's method for the zero of the derivative, if it is given the time at its point. Near a transfer with the time asked for, at which the time of flight has a derivative above 1e-5, every step at least halves the distance, so the result is that transfer to within the tolerance or the start distance divided by 2^maxiter. Of the elliptic transfers with a given number of revolutions at most one has a vanishing derivative of the time, and it is strictly the shortest. Not true, and proved so: that the iteration is always carried out (from the first guess -0.1 it stops at once, and for a concrete retrograde transfer the velocities lead to r2 more than 0.5% too early, whatever maxiter and the tolerances are); that the iteration for the shortest time comes to rest at the shortest transfer (it keeps the time of its first point); that a number of revolutions is refused if all such transfers take longer than the time given (a concrete retrograde transfer with one revolution is answered).", "quantifier": "every geometry (|lambda| < 1), every number of revolutions, time of flight, iteration limit and tolerance", "why_tests_cant": "Derivatives and convergence are statements about all x; the failing first guess is a single value that random tests do not hit.", "anchors": ["src/adam_core/dynamics/lambert.py::izzo_lambert", "src/adam_core/dynamics/lambert.py::_householder", "src/adam_core/dynamics/lambert.py::_halley", "src/adam_core/dynamics/lambert.py::_find_xy", "src/adam_core/dynamics/lambert.py::_tof_equation_p"]}
{"id": "C180", "title": "Lambert's problem without revolutions has exactly one answer", "statement": "For two positions whose plane with the centre is not polar, every positive time of flight and either sense (prograde or retrograde), exactly one pair of velocities belongs to a motion that leads from r1 to r2 in that time with less than one revolution. Velocities returned by izzo_lambert (if its unknown x ends above -1, and below 1 unless no revolutions are asked for) belong to a motion from r1 to r2 in the sense and with the number of revolutions asked for, for a time that differs from tof by no more than the residual of the solver's equation; without revolutions no other pair of velocities does. No motion leads from r1 to r2 in no time.", "quantifier": "every pair of positions with a non-zero z component of their cross product, every gravitational parameter, every positive time, both senses; every argument of izzo_lambert", "why_tests_cant": "Uniqueness is a statement about all motions, and existence about all times; tests compare single solutions with reference values.", "anchors": ["src/adam_core/dynamics/lambert.py::izzo_lambert", "src/adam_core/dynamics/lambert.py::_find_xy", "src/adam_core/dynamics/lambert.py::_tof_equation_y", "src/adam_core/dynamics/lambert.py::solve_lambert"]}
{"id": "C181", "title": "Number of transfers with several revolutions", "statement": "With M >= 1 complete revolutions there is a shortest time: for less time there is no transfer from r1 to r2 in the sense asked for, for that time exactly one, and for every longer time exactly two. In M periods of the smallest ellipse through both positions or less no transfer has M complete revolutions; None is returned for less than that time, and for exactly that time whenever the iteration for the shortest time ends at an ellipse. In M + 1 such periods or more there are two, and velocities are returned. Not true, and proved so: that velocities are returned only if a transfer exists (one revolution, retrograde, for a concrete pair of positions and time).", "quantifier": "every pair of positions with a non-zero z component of their cross product, every gravitational parameter, every M >= 1, every time, both senses", "why_tests_cant": "The number of solutions is a statement about all motions; a test finds the solutions it looks for.", "anchors": ["src/adam_core/dynamics/lambert.py::izzo_lambert", "src/adam_core/dynamics/lambert.py::_find_xy", "src/adam_core/dynamics/lambert.py::_compute_T_min"]}
{"id": "C182", "title": "When initial orbit determination finds nothing, nothing it tried was acceptable", "statement": "If outliers are allowed and iod returns no orbit for at least the minimum number of observations, then no orbit that Gauss's method gave for any of the selected triples has a reduced chi2 within the threshold, and none has one without up to the allowed number of worst observations outside the triple while the other observations span at least the minimum arc (equality counts). Not true, and proved so: the same when no outliers are allowed (the triples after the first that gives orbits are never tried, though the next may give an orbit that fits all observations).", "quantifier": "every list of observations with distinct ids, every triple list, every answer of the solver, every threshold and minimum arc", "why_tests_cant": "A missing orbit is observable only against all orbits that could have been accepted; a test knows one.", "anchors": ["src/adam_core/orbit_determination/iod.py::iod"]}
{"id": "C183", "title": "Light times and emission states of collapsed ephemerides", "statement": "VariantEphemeris.collapse_by_object_id returns the same rows, coordinates, covariances and magnitudes in every aberration mode. With 'collapse' either every row gets a light time and an emission state or no row does: all do exactly when every object, time and observatory has the same number of variants, every variant has an emission state and some group has light times of positive total weight, and then each is the mean over exactly the variants of that row with their weights scaled to sum one (light times over those that are there), the emission time being that much before the observation. With 'recompute' every row gets the light time and emission state computed from its own mean state, unless one light time of the table is not finite, in which case every row gets its geometric light time and uncorrected state. An unknown mode or a chunk size below one raises ValueError, except for an empty table. Not true, and proved so: that the light time used for a group without light times is that to the observatory (it is the distance of the emission state from the barycentre divided by the speed of light); that with 'recompute' a row depends only on its own variants.", "quantifier": "all variant ephemerides with any weights, missing light times or states, all group sizes, all row-wise light-time corrections", "why_tests_cant": "which rows get a light time depends on the whole table; tests use complete tables of equal groups and finite light times", "anchors": ["src/adam_core/orbits/variants.py::VariantEphemeris", "src/adam_core/dynamics/aberrations.py::add_light_time", "src/adam_core/utils/chunking.py::process_in_chunks"]}
{"id": "C184", "title": "Conversions of arrays of coordinates: every row by itself, whatever the number of rows", "statement": "The public array conversions (cartesian_to_spherical, spherical_to_cartesian, cartesian_to_geodetic, cartesian_to_keplerian, keplerian_to_cartesian, cometary_to_cartesian, cartesian_to_cometary) convert row i of non-empty arrays of equal length with the epoch and gravitational parameter of row i only, for every number of rows; what the formulas do with rows of zeros is never seen. An empty array gives an empty result for spherical and geodetic coordinates and for cartesian_to_cometary, and a ValueError for cartesian_to_keplerian, keplerian_to_cartesian and cometary_to_cartesian. cartesian_to_cometary rejects arrays of different lengths. Not true, and proved so: the other conversions notice epochs or gravitational parameters of a different length: a missing one counts as zero within a block of 200 rows, and rows of blocks for which there is none are left out of the result.", "quantifier": "every conversion of a row, every number of rows, epochs and gravitational parameters", "why_tests_cant": "depends on the number of rows modulo 200; wrong lengths give plausible numbers and no error", "anchors": ["src/adam_core/coordinates/transform.py::cartesian_to_keplerian", "src/adam_core/coordinates/transform.py::keplerian_to_cartesian", "src/adam_core/coordinates/transform.py::cometary_to_cartesian", "src/adam_core/coordinates/transform.py::cartesian_to_cometary", "src/adam_core/coordinates/transform.py::cartesian_to_spherical", "src/adam_core/coordinates/transform.py::spherical_to_cartesian", "src/adam_core/coordinates/transform.py::cartesian_to_geodetic", "src/adam_core/utils/chunking.py::process_in_chunks"]}
{"id": "C185", "title": "The porkchop plot shows at each pair of dates the solution of that pair", "statement": "`plot_porkchop_plotly` draws C3 at departure (km\u00b2/s\u00b2) and V\u221e at arrival (km/s) over departure and arrival dates. The axes are, in order and once each, the dates of the solutions that belong on the plot: the solved rows with C3, V\u221e and time of flight within the limits (lower limits 0 and no upper limit if not given). Each grid cell holds C3 and V\u221e of the last such row with those two dates, NaN if there is none; the grid of flight times is the difference of the dates in every cell. The contours run from the smallest value drawn to the largest in ten equal steps, those of the time of flight a positive multiple of five days apart. The markers are at the first rows with the smallest C3 and smallest V\u221e; one outside given axis limits is left out. With fewer than two departure or arrival dates the figure is empty. With the default limits every solved row of `generate_porkchop_data` belongs on the plot. Not true, and proved so: that unsolved rows are only left out (one of them makes the plot fail with AssertionError unless both upper limits are given); that the marker is at the smallest value of the grid (rows with equal dates hide one another).", "quantifier": "every table of Lambert solutions, solved or not, in any order and with any dates, all limits and flags", "why_tests_cant": "The grid depends on which dates coincide, on the order of rows with equal dates and on which rows are unsolved or filtered; a test compares a few figures.", "anchors": ["src/adam_core/missions/porkchop.py::plot_porkchop_plotly", "src/adam_core/missions/porkchop.py::LambertSolutions"]}
{"id": "C186", "title": "Colour scales have valid positions, channels and opacities for every base colour", "statement": "`generate_saturated_colorscale` and `generate_perceptual_colorscale` return one entry per level: positions evenly spaced from 0 to 1, opacity going evenly from `min_alpha` to `max_alpha`, and channels from 0 to 255, for any base colour and any limits. A known name in any case and a six-digit hex code give their colour, any other text without `#` red; a malformed hex code raises ValueError, a single level ZeroDivisionError. The saturated scale ends with the base colour. In the perceptual scale no channel rises from the second level on, and the strongest channel is the lightness of the level. Not true, and proved so: that the saturated scale goes from light to dark (it gets lighter from the second level to the last), and that the perceptual scale starts with its lightest colour (purple does not).", "quantifier": "every base colour text, number of levels, lightness limits and opacity limits", "why_tests_cant": "The channel ranges and the monotony have to hold for every colour, every number of levels and every position.", "anchors": ["src/adam_core/missions/porkchop.py::generate_saturated_colorscale", "src/adam_core/missions/porkchop.py::generate_perceptual_colorscale"]}
{"id": "C187", "title": "The impact animation counts impacts and shows variants at the time of each frame", "statement": "`plot_impact_simulation` makes one frame per time given, in order, and stops with the first frame by which every variant in the impacts table has hit some body (at the last time if there is none). The title of a frame has, for every group other than \"Non-Impacting\", the number of distinct variants that have hit that body by the time of the frame, and their share of the variants of all groups; sampling and hiding do not change these. If the times do not go back, neither do the counts; if every variant hits once and the times reach the last impact, the last frame counts all impacts. Each group not hidden is drawn with the positions of its rows on the day of the frame and within 100 microseconds of it, of all variants or of a sample that is the same in all frames and has the given fraction of the variants, rounded up. ValueError if a sample size is negative, IndexError without times, ZeroDivisionError if there are groups of impactors but no variants, and no other refusals. If no variant is in two groups the total is the number of distinct variants, and no percentage exceeds 100 if all impactors have rows. Not true, and proved so: that `show_impacting=False` hides the impacting variants (it has no effect on groups named by body); that the last frame counts all impacts (a later hit of another body by the same variant is missed); that the percentage is the share of the distinct variants (a variant that hits two bodies counts twice); that rows within 100 microseconds are shown across midnight.", "quantifier": "every list of times, groups of variants, impacts, sample fraction, random choice and flags", "why_tests_cant": "Frames, counts and end depend on which variants hit which bodies when, on ties and on a random choice; tests look at a few figures.", "anchors": ["src/adam_core/dynamics/plots.py::plot_impact_simulation"]}
{"id": "C188", "title": "The risk corridor shows the impacts on the Earth one by one in order of time", "statement": "`plot_risk_corridor` shows the impacts on the Earth and no others, and raises ValueError exactly if there are none. There is one frame for each; frame i shows the i+1 earliest, coloured by the minutes since the first impact, which start at 0, are never negative and never go back. The map is centred on the first impact. The ticks of the colour bar are 0 in the first frame, 0 and the largest minute shown in the second, 0, half of it and all of it in later ones; before the animation 0 and the largest of all. Not true, and proved so: that a frame shows all impacts up to the time of the last it shows (those at the same time come one by one).", "quantifier": "every table of impacts, in any order, on any bodies, with any ties, and every order of ties", "why_tests_cant": "The order and the minutes have to be right for every table, and for every order in which ties may be sorted.", "anchors": ["src/adam_core/dynamics/plots.py::plot_risk_corridor"]}
{"id": "C189", "title": "Spheres and surfaces of uncertainty in the plots have the right size, shape and place", "statement": "Every point of `create_sphere` has the radius as its distance from the offset (the origin if there is none); the 50 by 50 grid is closed and every row goes from pole to pole. Every point of `ellipsoid` satisfies the equation of the ellipsoid with that centre, those radii and the rows of the rotation as axes. The surface that `add_observation_plot` adds for a state reaches along the radial, in-track and cross-track axes no further than the uncertainty along that axis times the factor, and along the cross-track axis just as far if the variance is at least 1e-25. If the errors along the three axes are uncorrelated and their variances at least 1e-25 it is the error ellipsoid of the position covariance, scaled by the factor. If a position covariance is missing the surface is NaN. Not true, and proved so: that it is the error ellipsoid whatever the covariance (correlations between the axes are ignored).", "quantifier": "every radius, offset, centre, set of radii, rotation, state, covariance and factor", "why_tests_cant": "Shape and size of a surface in a figure are not looked at by tests, and cannot be for all states and covariances.", "anchors": ["src/adam_core/dynamics/plots.py::create_sphere", "src/adam_core/orbits/plots.py::ellipsoid", "src/adam_core/orbits/plots.py::add_observation_plot"]}
{"id": "C190", "title": "The orbit plot shows a whole revolution of every orbit within its axes", "statement": "`plot_orbit` samples every five days from the start time (by default the time of the first of the orbits with the longest period) to the end of a whole revolution of every orbit and less than six days further. It draws one curve per distinct orbit id, with all the propagated rows of that id in the order of the propagator. The axes reach to the largest coordinate or 4 au, whichever is more, and a tenth further, so all points of the curves lie within. Mercury, Venus, Earth and Mars are always drawn once; Jupiter, Saturn, Uranus and Neptune exactly if some coordinate exceeds 5, 10, 15 and 20 au. ValueError if the propagator returns no rows, IndexError if it returns none of some orbit, no other refusals. Not true, and proved so: that there are more than two dates in a revolution (the step does not depend on the period).", "quantifier": "every non-empty list of orbits with finite periods, every start time and every propagator", "why_tests_cant": "Which dates, planets and rows are shown depends on the periods of all orbits and on what the propagator returns; tests look at a few figures.", "anchors": ["src/adam_core/orbits/plots.py::plot_orbit"]}
{"id": "C191", "title": "Files for many orbits in OpenSpace", "statement": "create_renderable_orbital_kepler writes two files and no others: an asset and a table, in the same directory, named by the identifier with underscores for blanks; the resource of the asset is the name of the table within that directory. The asset declares one node that it adds when initialised and removes when deinitialised. The attributes of the node are the options; an option that is not given is no attribute. The table has one row per orbit, in order, with orbit id, epoch, elements and period. A rendering or bin mode that is not known is a ValueError and no file is touched; no other options are refused. Not true, and proved so: that different identifiers have different files (blanks and underscores are confused); that the files are in the directory given (an identifier may begin with a slash); that the bin modes of the type annotation are accepted.", "quantifier": "every list of orbits, every combination of options, every directory and identifier, every content of the file system", "why_tests_cant": "Paths, options and contents of the file system are unbounded; tests write a few files into an empty directory.", "anchors": ["src/adam_core/orbits/openspace/assets.py::create_renderable_orbital_kepler", "src/adam_core/orbits/openspace/assets.py::orbits_to_sbdb_file"]}
{"id": "C192", "title": "Two-body propagation converges: ellipses up to e = 0.6, and outward on parabolas and hyperbolas", "statement": "In exact arithmetic: on every ellipse with an eccentricity of at most 0.6 and for every time span, the iteration of two-body propagation stops by itself; for semi-major axes up to 1e10 any limit of nine or more and any tolerance from 1e-16 are enough (so the defaults are), at most ten corrections are made, and the anomaly is then within 75 tol^2/sqrt(a) of the solution. For every positive tolerance there is a number of corrections, depending on the tolerance and a bound of the semi-major axis only, that is enough for all such ellipses and time spans. On parabolas and hyperbolas the same holds, with a number that may depend on state and time span, away from the centre forward in time and towards it backward in time. In these cases the propagated position and velocity tend to those of the motion under Newton's equation as the tolerance tends to zero, and the errors are at most proportional to the tolerance. Not true, and proved so: that some iteration limit is enough for all time spans on hyperbolas. Every correction moves the anomaly by at most one (in units of the square root of the semi-major axis) and the start is proportional to the time span, so for every limit there is a time span from which on the returned position is wrong by more than a hundred times the time span; no error is reported.", "quantifier": "every gravitational parameter, initial state, time span, tolerance and iteration limit within the stated ranges; every motion under Newton's equation", "why_tests_cant": "Convergence is a statement about all histories of an iteration started anywhere on a continuum of states; a test sees finitely many, and long time spans on hyperbolas are not among them.", "anchors": ["src/adam_core/dynamics/chi.py::calc_chi", "src/adam_core/dynamics/propagation.py::propagate_2body", "src/adam_core/dynamics/lagrange.py::calc_lagrange_coefficients"]}
{"id": "C193", "title": "Two-body propagation does not depend on the direction of time or on units", "statement": "In exact arithmetic, for every state, time span, tolerance and iteration limit, whether or not the iteration has converged: from the same position with the opposite velocity and the same time span backwards, the same position is reached with the opposite velocity after the same number of corrections. With lengths multiplied by k^2, times by tau, the gravitational parameter by k^6/tau^2 and the tolerance by k, positions are multiplied by k^2 and velocities by k^2/tau.", "quantifier": "every gravitational parameter, state, pair of times, tolerance and iteration limit; every positive factor of length and time (with tolerances below 1e15, which the iteration starts with)", "why_tests_cant": "Symmetries relate pairs of runs on a continuum of inputs, including runs that are cut off by the limit.", "anchors": ["src/adam_core/dynamics/propagation.py::propagate_2body", "src/adam_core/dynamics/chi.py::calc_chi", "src/adam_core/dynamics/lagrange.py::calc_lagrange_coefficients", "src/adam_core/dynamics/lagrange.py::apply_lagrange_coefficients"]}
{"id": "C194", "title": "Timestamps as float64 numbers", "statement": "With float64 rounding in every operation: mjd() of a normalised row less than 2^k days from MJD 0 is off by at most half a unit in the last place of 2^k and 2^-54 days; from_mjd is off by less than 0.52 ns from every number; a row comes back from from_mjd(mjd()) to 314 ns up to 2038 (2^16 days), and from from_jd(jd()) to 20.431 microseconds. from_mjd(x) is normalised for every float64 x that is 32 or more days from MJD 0, from_mjd(x).mjd() == x for 64 or more, and from_jd(x).jd() == x for every float64 JD from 2^21 to 2^22 (1029 to 6771). from_jd(x).mjd() is exactly x - 2400000.5 for these, if that is 64 or more days from 0 (the times of periapsis of SBDB and Horizons). mjd() never inverts the order of two rows, and tells them apart if they are more than a unit in the last place apart. et() of a TDB row of 1948 to 2038 is accurate to 0.44 microseconds. from_et takes its number as seconds since MJD 0 (not since J2000) and is off by less than 315 ns within 2^16 days. Not true, and proved so: that from_mjd is always normalised (the last float64 before 32), that every float64 MJD comes back (the first after 32), that rows at different times have different MJDs, and that a row comes back from its MJD.", "quantifier": "every normalised row, every float64 (a rational with 53 significant bits)", "why_tests_cant": "The errors depend on the last bits of all 2^53 significands; a test compares a few dates with a tolerance.", "anchors": ["src/adam_core/time/time.py::Timestamp.mjd", "src/adam_core/time/time.py::Timestamp.jd", "src/adam_core/time/time.py::Timestamp.et", "src/adam_core/time/time.py::Timestamp.from_mjd", "src/adam_core/time/time.py::Timestamp.from_jd", "src/adam_core/time/time.py::Timestamp.fractional_days", "src/adam_core/time/time.py::Timestamp.from_et"]}
{"id": "C195", "title": "Adding float64 seconds and days", "statement": "With float64 rounding in every operation: any number of nanoseconds written in float64 seconds, milliseconds or microseconds, one or one per row, is added by add_seconds, add_millis and add_micros as add_nanos adds it, to the nanosecond, and refused exactly when add_nanos refuses it. Any other float64 amount that is accepted moves the rows by it to within 0.508 ns. add_fractional_days moves them by its float64 number of days, truncated to a nanosecond, to within 1/64 ns, and a number n of nanoseconds of less than a day written in days adds n or n - 1. Not true, and proved so: that add_fractional_days accepts every finite number, as it raises ValueError exactly when a number is negative and at least -2^-54 (the fraction is rounded to a full day); that it adds n (1.2 days and 13 minutes come out a nanosecond short); and that adding and subtracting the same number of days returns to the start.", "quantifier": "every table of rows, every float64 amount or array of amounts, every number of nanoseconds", "why_tests_cant": "Whether the last nanosecond is right depends on the last bits of the amount; tests add a few round amounts.", "anchors": ["src/adam_core/time/time.py::Timestamp.add_seconds", "src/adam_core/time/time.py::Timestamp.add_millis", "src/adam_core/time/time.py::Timestamp.add_micros", "src/adam_core/time/time.py::Timestamp.add_fractional_days", "src/adam_core/time/time.py::Timestamp.add_nanos"]}
{"id": "C196", "title": "Astropy times in float64 and back", "statement": "With float64 rounding in every operation of from_astropy, and an astropy time given by its two numbers jd1 (a whole or half day, or any for which jd1 - 2400000.5 is a float64) and jd2 (at most half a day): an array gives normalised rows within 0.54 ns of jd1 + jd2, and a scalar the same instant. Every normalised row comes back to the nanosecond from an array whose jd1 + jd2 is within 0.45 ns of it, so from_astropy(to_astropy()) is the same table if astropy keeps the sum of the two numbers it is given to 0.4 ns; rows not at midnight come back from a scalar as well. Not true, and proved so: that a scalar astropy time gives a normalised row (the last float64 before midnight gives a nanosecond count of 86400e9, where an array gives the next day).", "quantifier": "every normalised row, every jd1 and jd2 as described", "why_tests_cant": "Depends on the last bits of two float64 numbers and on four roundings; tests compare a few dates.", "anchors": ["src/adam_core/time/time.py::Timestamp.from_astropy", "src/adam_core/time/time.py::Timestamp._from_astropy_scalar", "src/adam_core/time/time.py::Timestamp.to_astropy"]}
{"id": "C197", "title": "Leap seconds are unaffected by float64 rounding", "statement": "With float64 rounding in every operation of the leap-second correction of rescale: whenever the Julian date that ERFA returns for a row is k seconds from the row's, to within 0.49 s, the correction is exactly k seconds. So the correction is the one of exact arithmetic if the exact shift is within 0.45 s of a whole number of seconds and ERFA is accurate to 0.04 s, and from UTC to TAI on a day without a leap second it is TAI - UTC of that day if ERFA is accurate to 0.49 s. Not true, and proved so: that the last bit of what ERFA returns never matters (at noon of a day that ends in a leap second it decides between two corrections a second apart).", "quantifier": "every row less than 2^51 days from MJD 0, every pair of numbers ERFA returns, every table of leap seconds", "why_tests_cant": "A stray nanosecond depends on the last bits of the fraction of the day; tests convert a sample of dates.", "anchors": ["src/adam_core/time/time.py::Timestamp._leap_seconds_correction", "src/adam_core/time/time.py::Timestamp.rescale"]}
{"id": "C198", "title": "Sampling times in float64", "statement": "With float64 rounding in every operation, for MJDs from 2^15 to 2^16 (1948 to 2038) and a step that is a multiple of 2^-37 days, such as whole days or a quarter of a day: the dates of a porkchop plot are those of exact arithmetic on the MJDs, and so is the number of states of an SPK file. In terms of the timestamps, the states of an SPK file span at most the time asked for, and one more would exceed it, up to 2^-36 days (1.3 microseconds). Not true, and proved so: that the states reach an end a whole number of steps after the start (twelve hours at a step of six hours can give two states instead of three; 0.1 days at a step of 0.1 days from MJD 59000 give one instead of two), that the end of a porkchop plot is never a date for other steps (0.3 days at a step of 0.1 days give four dates, the last less than a microsecond before the end), and that dates with such steps are the nearest float64 numbers (the tenth date from MJD 59000 is over a microsecond off).", "quantifier": "every pair of float64 MJDs (for the span, every pair of normalised timestamps) from 1948 to 2038, every positive multiple of 2^-37 days as step", "why_tests_cant": "Whether one state is missing depends on the last bit of a quotient; tests use a few spans, mostly from a whole day.", "anchors": ["src/adam_core/missions/porkchop.py::prepare_and_propagate_orbits", "src/adam_core/orbits/spice_kernel.py::orbits_to_spk", "src/adam_core/time/time.py::Timestamp.mjd"]}
{"id": "C199", "title": "Durations in float64", "statement": "With float64 rounding in every operation, for normalised timestamps from 1948 to 2127: the number of days between two of them that propagate_2body and the Lambert solver work with, the time of flight of LambertSolutions and the arc length of an orbit evaluation are within 1.3 microseconds of the exact one, however long they are (0.64 up to 2038). The duration from a time to itself is 0; the one back is the negative; durations add up without error; a later time never has a smaller duration and one over 1.3 microseconds later has a larger one. Up to 2038, times at the same time of different days are exactly that number of days apart. The arc length is the longest duration between two observations, 0 for one observation, and IndexError is raised without observations. Not true, and proved so: that the duration depends on the separation only (half a day comes out as less than half a day, or as half a day) and that whole days are exact beyond 2038.", "quantifier": "every pair or triple of normalised timestamps from 1948 to 2127, every table of them", "why_tests_cant": "The error depends on the last bits of both MJDs; tests compare a few durations with a tolerance.", "anchors": ["src/adam_core/dynamics/propagation.py::_propagate_2body_serial", "src/adam_core/missions/porkchop.py::LambertSolutions.time_of_flight", "src/adam_core/missions/porkchop.py::lambert_worker", "src/adam_core/orbit_determination/evaluate.py::evaluate_orbits"]}
{"id": "C200", "title": "Coverage windows to the nanosecond", "statement": "For trajectories whose times are normalised, in TDB and from 1948 to 2127, with the float64 MJDs that the code compares: validate_coverage accepts every trajectory whose windows last at least 1258 ns, contain their epochs and do not overlap for an object (touching allowed). In a trajectory it accepts, every window ends after it starts, every epoch is in its window and no windows of an object overlap, the last two up to 1258 ns. segment_for at the MJD of a time then never raises for an object: a segment is found from the very start of its window until 1258 ns before its end; a segment that is found ends after the time and starts less than 1258 ns after it; where None is returned, every window of the object starts after the time or ends less than 1258 ns after it. Not true, and proved so: that a time in a window gets that window's segment (100 ns before the end the next one is returned), that windows of an accepted trajectory do not overlap at all, and that every window that ends after it starts is accepted.", "quantifier": "every trajectory with any number of segments and objects, every time, from 1948 to 2127", "why_tests_cant": "Overlaps and gaps below a microsecond depend on the rounding of each MJD; tests use windows of whole days.", "anchors": ["src/adam_core/orbits/trajectory.py::Trajectory.validate_coverage", "src/adam_core/orbits/trajectory.py::Trajectory.segment_for", "src/adam_core/orbits/trajectory.py::Trajectory.coverage_start_mjd", "src/adam_core/orbits/trajectory.py::Trajectory.coverage_end_mjd", "src/adam_core/orbits/trajectory.py::Trajectory.epoch_mjd"]}
{"id": "C201", "title": "80-column angles in float64", "statement": "With float64 rounding in every operation: every right ascension that is read is within 1.2e-13 degrees of 15 (h + m/60 + s/3600) of what is written and not negative; every declination that is read is in [-90, 90] and within 3e-14 degrees of the sign times (d + m/60 + s/3600), or within 3e-14 degrees of a pole if what is written lies beyond. Digits in range with at most 59.9999 s are read, right ascensions as less than 360 degrees. Angles written with up to six decimals of the seconds keep their order, and different ones stay different. Not true, and proved so: that a declination beyond the pole is always refused ('+90 00 1e-20' is read as 90) and that every right ascension that is read is less than 360 ('23 59 59.99999999999999' is read as 360).", "quantifier": "every text, every pair of texts", "why_tests_cant": "Rounding depends on the last bits of three numbers; tests compare a few records with a tolerance.", "anchors": ["src/adam_core/observations/obs80.py::_parse_ra", "src/adam_core/observations/obs80.py::_parse_dec", "src/adam_core/observations/obs80.py::parse_optical_obs80"]}
{"id": "C202", "title": "Times in ADES texts", "statement": "The obsTime that ADES_to_string writes with the default three decimals, through the float64 MJD, for a UTC time from 1948 to 2127: on a day without a leap second it is a valid clock reading within half a millisecond and 0.63 microseconds of the time; a whole number of milliseconds is written exactly, and reading the text gives the same row; times that are in order are written in order. On a day that ends in a leap second it is a valid clock reading, 23:59:60 included, that states the row's fraction of the 86401 s to half a millisecond and 0.63 microseconds, or midnight of the next day if that is nearest. Not true, and proved so: that the nearest millisecond is written (2.499999 ms into MJD 60000 is written as 3 ms, where to_iso8601 prints 2 ms).", "quantifier": "every table of leap seconds, every normalised UTC row, every pair of them", "why_tests_cant": "The rounding of an MJD to float64 depends on all the digits of the row; tests compare a few texts.", "anchors": ["src/adam_core/observations/ades.py::ADES_to_string", "src/adam_core/time/time.py::Timestamp.mjd", "src/adam_core/time/time.py::Timestamp.from_iso8601"]}
{"id": "C203", "title": "Middles of exposures in float64", "statement": "With float64 rounding in every operation: Exposures.midpoint and the times of SourceCatalog.observers(exposure_midpoint=True) are the same. For durations of an even number of nanoseconds, written in float64 seconds, the middle is exact to the nanosecond. For float64 durations from 0 to 172799 s it is never refused (with one duration per start time, and at least one) and within 0.508 ns of the true one. It is not before the start and, for at least 1.016 ns, not after the end; so exposures that do not overlap have their middles in order. Not true, and proved so: that half a nanosecond is rounded to the even neighbour, as in exact arithmetic (the middle of 15 ns is at 7 ns).", "quantifier": "every table of normalised start times and float64 durations", "why_tests_cant": "Rounding depends on all the digits of a duration; tests use whole and half seconds.", "anchors": ["src/adam_core/observations/exposures.py::Exposures.midpoint", "src/adam_core/observations/source_catalog.py::SourceCatalog.observers"]}
{"id": "C204", "title": "Unit conversions in float64", "statement": "With float64 rounding in every operation and the float64 constant for 149597870.7: conversions between au and km are correct to a relative error of 3/2^53, between au/day and km/s to 4/2^53, and elements of covariances to 7/2^53. A state converted there and back agrees to 5/2^53 in every component. Order and sign of components are kept, symmetric covariances stay exactly symmetric and variances do not become negative. Not true, and proved so: that converting there and back gives the same numbers (15 au and 7 au/day do not come back), and that a positive semidefinite covariance stays one.", "quantifier": "every float64 value, state and covariance (without overflow and underflow)", "why_tests_cant": "Rounding depends on all the digits of a value; tests compare a few values to a tolerance.", "anchors": ["src/adam_core/coordinates/units.py::au_to_km", "src/adam_core/coordinates/units.py::km_to_au", "src/adam_core/coordinates/units.py::au_per_day_to_km_per_s", "src/adam_core/coordinates/units.py::km_per_s_to_au_per_day", "src/adam_core/coordinates/units.py::convert_cartesian_values_au_to_km", "src/adam_core/coordinates/units.py::convert_cartesian_values_km_to_au", "src/adam_core/coordinates/units.py::convert_cartesian_covariance_au_to_km", "src/adam_core/coordinates/units.py::convert_cartesian_covariance_km_to_au"]}
{"id": "C205", "title": "Times of propagated orbits in float64", "statement": "With float64 rounding in every operation, for normalised times in TDB from 1948 to 2127: the orbits that propagate_2body returns, one for every orbit and time, orbit by orbit, are labelled with TDB times within 629 ns of the requested ones (314 ns up to 2038), the same for every orbit. The label has the MJD of the requested time, so asking for it returns it unchanged, propagating on from or back to it is over the duration from or to the requested time, and durations of propagations that continue one another add up without error. Times in order stay in order, and different if 1.3 microseconds apart. Multiples of a 2^16th of a day, such as midnight, noon and 6 h, are kept. Not true, and proved so: that the times are the requested ones (01:00 on MJD 60000 is returned as 00:59:59.999999790) and that different times stay different.", "quantifier": "every table of normalised TDB times from 1948 to 2127, every number of orbits, every pair of times", "why_tests_cant": "Which times come back depends on all the digits of the nanoseconds; tests use whole days.", "anchors": ["src/adam_core/dynamics/propagation.py::propagate_2body", "src/adam_core/time/time.py::Timestamp.from_mjd", "src/adam_core/time/time.py::Timestamp.mjd"]}
{"id": "C206", "title": "Mean impact times in float64", "statement": "With float64 rounding in every operation, and the MJDs added up in any order: the mean impact time that calculate_impact_probabilities reports for normalised impact times from 1948 to 2038 is within 0.64 microseconds times (d + 1), plus 0.32 microseconds, of the exact mean, where d is the largest number of additions that a term goes through. For one impact, and for two at the same time, it is that time through its float64 MJD; for two it is between theirs. Not true, and proved so: that the mean of equal times is that time, or between the earliest and the latest that are reported beside it (three impacts 1 microsecond into MJD 60000 have their mean 0.886 microseconds later).", "quantifier": "every list of normalised impact times, every order of summation", "why_tests_cant": "The errors depend on all the digits of the times and on the order in which NumPy adds; tests compare means to a tolerance.", "anchors": ["src/adam_core/dynamics/impacts.py::calculate_impact_probabilities", "src/adam_core/time/time.py::Timestamp.mjd", "src/adam_core/time/time.py::Timestamp.from_mjd"]}
