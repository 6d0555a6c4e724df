# Design of the formal model of `doris`

Source under study: `/repo` (xanthospap/doris, C++17).  It is read as text only.
Model and proofs: `/verif/lean` (Lean 4.33.0, Mathlib modules imported one by one).

## 1. Trusted base

* The Lean 4 kernel.
* The axioms `propext`, `Classical.choice`, `Quot.sound`.  No other axiom, no `sorry`,
  no compiled evaluation.  Section 5 lists the axioms each theorem uses.
* That each definition in `Verif/*` transcribes the cited lines of `/repo`.  This is the
  only unproved link.  Every definition cites file and lines; simplifications are stated at
  the definition and repeated in section 3.

## 2. Modelling conventions

* Integers (`int`, `long`, sizes, indices) are `Int` or `Nat`.  Where wrap-around or
  narrowing is observable (flag sets, `int_fast8_t` frequency) it is modelled.
* `double` is an exact field: `ℚ` where only the four operations occur, `ℝ` where roots or
  trigonometric functions occur, or a generic field.  Rounding is not modelled
  there.
* `Verif/Float` is the exception: `Format.lean` defines the doubles (53 digits, subnormal numbers)
  and rounding to nearest, `Arith.lean` adds overflow, infinities and NaN.  Selected functions are
  modelled a second time in this arithmetic.  The theorems hold for every choice between two
  equally near doubles.  Not modelled: the sign of zero, other rounding modes.
* Memory: buffers are `List`/functions on indices; an access outside its buffer is a separate
  outcome (`none`, or an explicit `ub` result), never a default value.
* Text: a line is a `List Char` (bytes); files are lists of lines.  `strtol`, `strtod`,
  `from_chars` are either modelled for the subset needed or passed as parameters.
* External libraries (`datetime`, `iers2010`/SOFA, `cspice`, `libcurl`, `yaml-cpp`, Eigen,
  `sinex`) are parameters or recorded assumptions.
* When the code does not have a property, the negation is proved with a witness
  (`…_counterexample`) and the part that does hold is proved under a name
  ending in `_partial`.

## 3. What is modelled and how it is proved

### 3.1 Properties

Status lives in `MANIFEST.json`; this table states the approach.

| id | modelled code | method |
|----|---------------|--------|
| C01, C02 | `EnumBitset` over bit vectors of any width | induction over operation lists, bit extensionality |
| C03, C04 | `StorageImplementation` address formulas | arithmetic, injectivity/surjectivity for every shape |
| C05 | `Mat2D` ownership (heap histories) | refinement to a pointer-free spec; move assignment refuted |
| C06 | `HarmonicCoeffs::C/S` addresses | arithmetic, store/load laws over operation lists |
| C07 | allocator model of `HarmonicCoeffs` | heap-history semantics; refutations + partial invariant |
| C08, C09 | `factorial.hpp`, `denormalize` | induction, `Nat.factorial`, real square roots |
| C10 | `ObservationType`, `ObservationCode` | case analysis, injectivity |
| C11, C12 | frequency law, iono-free combination | rational/real algebra |
| C13–C15, C21 | RINEX header parser on line lists | invariant of the line loop, label table |
| C16–C20, C22, C23 | data-block reader, skipper, iterator | induction on lines/stations |
| C24, C25 | `EopLookUpTable` arena, C04 parser | history invariant, loop invariant |
| C26–C29 | CelesTrak CSV reader, flux feed, Ap window | history invariant, index arithmetic |
| C30–C32 | ICGEM reader | loop invariant, counting |
| C33, C34 | filter layouts | arithmetic bijection, loop invariant |
| C35–C37 | Kalman filters | matrix algebra over `ℝ`/ordered fields |
| C38 | quaternion hunter | buffer invariant |
| C39, C40, C61 | record-file readers | fold invariants |
| C41–C43 | Shampine–Gordon driver/step/interpolation | state-machine invariants |
| C44–C51 | astrodynamics | real analysis and algebra |
| C52–C54 | spherical harmonics | induction on degree/order |
| C55–C59 | relativity, shadow, frames, variational equations | real algebra |
| C60 | phase-centre tables | table bounds, interpolation algebra |
| C62, C63 | frequency-offset windows, Doppler pairing | list induction |
| C64–C68 | atmosphere models | cache-history semantics, tridiagonal elimination, tables |
| C69–C73 | download, kernels, clock models, Sun/Moon series, YAML | decision logic, history invariants, algebra |
| C74 | station lines of the RINEX header | line-level case analysis, loop invariant |
| C75 | gravity acceleration | directional derivatives, induction on degree |
| C78 | header: observation codes and scale factors | text layout specification, fold over lines |
| C79 | integrator: Adams formulas | invariant over histories, divided differences, integrals of polynomials |
| C80–C83 | variational equations, UTC date, projected area, third bodies | derivatives along curves, quaternion algebra |
| C84, C85 | Earth orientation interpolation, `gcrs2itrs` | loop invariant, library functions as parameters |
| C86 | integrator: refused steps | case analysis, loop invariant of step and driver |
| C87, C88 | classical elements, right ascension | vector algebra in the orbital plane, inverse cosines |
| C89, C90 | conical shadow functions | area of two intersecting discs by integration |
| C91 | fit of the frequency offset over files | induction over blocks and files |
| C92 | altitude of a pressure | induction over the iterations, independence of history |
| C93, C94 | switches and reference conditions of the atmosphere model | simulation of two runs through all calls |
| C95 | residual statistics of the orbit determination program | induction over the residuals |
| C96, C97 | pairing and numbering of observations | invariant of the observation loop |
| C98-C101 | observation equation, design vector, weights | algebra and derivatives over the reals |
| C102, C103 | propagation and time update | composition with the frame and filter models |
| C104-C106 | reference points, troposphere angle | induction over sites, algebra |
| C107 | sequential filter and batch least squares | induction over the observations, matrix algebra |
| C108 | polynomial fit of the frequency offset over files | normal equations over a list of points, Vandermonde matrix |
| C109 | loading a gravity model | composition of header, data and de-normalisation theorems; counting of pairs |
| C110 | debug version of the solid harmonics recursion | loop invariants on the filled part of the arrays |
| C111 | atmosphere model as a function on the sphere | derivatives of Legendre polynomials; simulation of the two runs |
| C112 | inputs of the atmosphere model in the variational equations | induction on evaluations; arbitrary initial memory |
| C113 | work arrays of the integrator | traces of accesses; invariant of the written part over histories of steps |
| C114 | gravity in the integration, from the file to the celestial acceleration | composition of C30, C52, C75, C109; induction on evaluations |
| C115 | height profiles of temperature and density | gluing of differentiable pieces; fundamental theorem of calculus; C65 |
| C116 | `RunningStatistics` in double arithmetic | invariant over the list of values, monotonicity of rounding |
| C117 | `denormalize` in double arithmetic with overflow | relative error per rounding, induction over the product; overflow refutes it from degree 86 on |
| C118 | clock and L2 offsets in double arithmetic | error per rounding against the unit; lost unit as counterexample |
| C119 | date for the Earth orientation in double arithmetic | error and monotonicity of rounding; resolution as counterexample |
| C120 | orbital elements, `pos2ad` in double arithmetic | computed norm bounds every component; NaN states as counterexamples |
| C121 | shadow functions in double arithmetic | forward error analysis of projection and distance; NaN on the axis as counterexamples |
| C122 | time and step size of the integrator in double arithmetic | spacing of doubles, induction over the attempts; endless loop at time zero as counterexample |
| C123 | corrections of the atmosphere model: chemistry, turbopause, magnetic history | monotonicity of the weights, geometric sums, real powers; vanishing densities and constant histories as counterexamples |
| C124 | single species of the atmosphere model | two runs kept in step species by species, memory touched only where it is not read; atomic nitrogen as counterexample |
| C125 | successive calls of the integrator | induction over the loop of the driver for arbitrary step routines; call after a stop at the target as counterexample |
| C126 | densities of the upper thermosphere against the height | closed form of the profiles, monotonicity, estimate of the correction of molecular oxygen, sign of a derivative for anomalous oxygen |
| C127 | download loop of fetch_iers_c04.py | approach to the bulletin by induction over the distance, invariants of the loop for the cases in which it fails |
| C128 | text side of fetch_iers_c04.py against parse_c04.cpp | equivalences for extraction and joining by induction over the lines; decimal digits, words and fields of a written line by induction; the reader applied to any written file |
| C129 | site log parser ids_log_parser.py | induction over parts, pieces and continued lines; the backtracking of the regular expression for heights over all digit strings |
| C130 | script gfc_fortran2c.py with the ICGEM reader | characterisation of the matches of the regular expression; induction along the substitution and over the words of a line |
| C131 | shadow pass lists of test_satellite_shadow.cpp | closed form of the lists over indices of samples; invariants of the state machine by induction over the samples |
| C132 | Doppler counts of test_one_pass.cpp and test_rinex_extract.cpp | specification that looks back over all observations; invariant relating the stored entries to the latest observation of every beacon, by induction over the file |
| C133 | Runge-Kutta-Fehlberg integrator of var/ode_solvers | general explicit Runge-Kutta step with Butcher table and order conditions as specification; bounds on attempts and steps by induction, chain of accepted steps as invariant |
| C134 | propagation of SP3 records in test_sp3_integrator.cpp, test_sp3_fit_state.cpp, rinex_interpolator.cpp | list of lines wanted as specification, induction over the reads; motions followed by the integrator, round trip of the frames |
| C135 | interpolators of var/intrp.cc | distances to all nodes, lines and polynomials as specification; intervals by induction |
| C136 | associated Legendre functions of var/legendre.cc | Rodrigues formula with iterated derivatives of Mathlib polynomials as specification; recurrence over the degrees derived from it, induction over the loop |
| C137 | flags of var/flags.cc and var/compound_measurement.cc | bits and remainders; result wanted of a measurement as specification; counters by induction |
| C138 | conversions of var/cartesian2keplerian | the orbit built from its elements as specification, eccentric anomaly by its two equations; trigonometry over the reals |
| C139 | convergence of both solvers of Kepler's equation; test/test_kepler.cpp | Newton's method: one-sided convergence where the residual is convex, quadratic near the solution, chains of rational bounds for twenty steps; reflection for the second half of the revolution |
| C140 | both solvers of Kepler's equation in double arithmetic | Newton's method with an error in each step: an invariant "close to the solution, or right of it" survives the errors, chains of rational bounds; errors of each operation; `fmod` of doubles is a double |
| C141 | `int` arithmetic of matrix indices and gravity factors | checked `int` operations; induction over the rows; expressions as data with a checked and an exact evaluation, and the ranges of their loop variables |
| C142 | the icgem experiment: acceleration, denormalisation, arguments | loops as sums; comparison with the present code, whose result is the gradient (C75); uniqueness of the gradient |
| C143 | line fit by the Kalman filter of test/test_kalman.py | completing the square at each observation; induction over the observations |
| C144 | configuration, start and end of the orbit determination program (test/rinex_pod.cpp) | invariant of the shared buffer; the setters one after the other; induction over the blocks |
| C145 | programs that repeat textbook exercises (test/test_exc32.cpp, test_exc52.cpp, test_exc71.cpp, test_exc83.cpp, test_ode_example.cpp) | induction over the passes with the invariant of the driver; derivatives along lines; invariants of the system |
| C146 | plots of columns (script/scatterplot.py) | tokens as specification of the strings; invariant after the pass of each file; induction over tokens, lines and files |
| C147 | whole DORIS RINEX files (models of C10-C23) | a writer as specification (WriteSpec.lean); number and column lemmas; one lemma per kind of line; induction over lines, observations, records and blocks |
| C148 | whole space weather files and the feed (model of C26-C29) | a writer as specification; induction over lines for search and store; invariant of the feed over requests |
| C149 | the double models against the exact models | unfolding with the identity for rounding; the Cauchy-Schwarz inequality where an angle has to be a number |
| C150 | written gravity field file through script, reader and gravity | composition of C30, C31, C109, C114, C130 with a writer; counting of the coefficients |
| C151 | scripts for space weather, attitude, list of antennas, C headers | characterisation of extensions; composition with C129 and C148; a small model of conditional compilation |
| C152 | site logs, script and table reader in sequence | composition of C129, C151 and C61 over the columns of the written line |
| C153 | beacons, header and epochs as printed text | bytes of the beacon object up to the first NUL; invariant over the header lines; induction on blocks |
| C154 | phase centre corrections with every operation rounded | gap below each node against the rounding of the fifth; error propagation; Lipschitz bound across cells |
| C155 | header reader, block iterator and frequency-offset fit joined | round trip of written files composed with the normal equations |
| C156 | the two programs that fit frequency offsets | composition with C155; error of the printed digits; induction over the arguments |
| C157 | the program that prints coefficients of a gravity model | composition with the reading of written models; induction over the questions |
| C158 | the two copies of the reader of gravity models | induction over keywords and lines; no keyword is a prefix of another |
| C159 | the programs that compare Sun and Moon positions with reference files | induction over the rows; integer quotient zero |
| C160 | the test program of the space weather feed | composition with the serving of written files; case split over the days that follow |
| C161 | the example program for Earth orientation parameters | composition of reading, regularizing and interpolating; induction over the rounds |
| C162 | the Kalman filter in double arithmetic | sums of products in any order as an inductive relation, error bound by induction over it; counterexamples by evaluation of the rounding |
| C163, C164 | nominal frequencies and ionospheric correction in double arithmetic | every intermediate value is a multiple of 2^-20 below 2^33; gap between neighbouring doubles; error analysis |
| C165 | measured range rate in double arithmetic | error analysis operation by operation; concrete input for sharpness |
| C166 | interpolators in double arithmetic | differences of doubles never underflow; error analysis; Sterbenz lemma; concrete counterexamples |
| C167 | time argument of the tidal models and tidal restoration in double arithmetic | spacing of doubles against error of the operations, case split at midnight; concrete counterexamples |
| C168 | prototypes in var/ against the library | equality of the two models, case by case; two counterexamples |
| C169 | names of files in arrays of 256 characters | invariant of the shared buffer over the look-ups; counterexample |
| C170 | residual of a Doppler count in double arithmetic | error analysis operation by operation, for every choice of fused products |
| C171 | clock polynomials of any order in double arithmetic | induction over the terms with a running error bound; counterexample |
| C172 | dates of attitude records and interpolation parameter in double arithmetic | Sterbenz, grid of the doubles between 2^15 and 2^16 |
| C173 | third-body acceleration, radiation pressure, relativistic clock correction in double arithmetic | relation "equal up to n roundings" closed under products, quotients, roots and sums of one sign |
| C174 | atmospheric drag and its partials in double arithmetic | relation "equal up to n roundings" for a given relative velocity, absolute bound for the relative velocity, triangle inequality |
| C175 | extrapolation of station coordinates in double arithmetic | monotone rounding; exact difference of dates (Sterbenz); sum of the errors |
| C176 | acceleration by the gravity field in double arithmetic | induction over the turns of the loops with a bound (1+u)^n of the sizes of the terms |
| C177 | recurrences of the spherical harmonics in double arithmetic | induction over order and degree with sizes given by the recurrence with all terms added |
| C178 | from the position to the acceleration in double arithmetic | composition of the bounds of C176 and C177 by linearity of the sums |
| C179 | from the orbital elements to the state in double arithmetic | bounds in units of a scale, composed with the error of Kepler's equation (C140) |
| C180 | partials of the gravity acceleration in double arithmetic | relative errors of the recursions of the factors, bounds of sums by the sizes of their terms, composed with the exact sums of C54 |
| C181 | partials of the third-body acceleration and of the radiation pressure in double arithmetic | relative errors; bounds by the sizes of the terms where they cancel |
| C182 | from the celestial to the terrestrial frame and back in double arithmetic | error bounds through three products; sizes from orthogonality |
| C183 | propagation of the state through quaternions in double arithmetic | the quaternion gives the rotation matrix exactly; error bounds through quaternion, matrix and product |
| C184 | the perifocal matrix in double arithmetic | error bounds for all angles; counterexample to the rotation |
| C185 | gravity in the equations of motion in double arithmetic | errors of matrices, position and field composed |
| C76, C77 | two-body state partials, state transition matrix | derivatives along curves, Lagrange/Poisson brackets |

### 3.2 Source files: which lines are modelled

Line numbers refer to the files in `/repo`. Only lines with code are counted: no blank lines, comments, preprocessor lines or lone braces.
Ranges are those cited by the comments of the definitions.

| file | lines modelled | code lines cited | not modelled |
|---|---|---|---|
| `src/antenna_pcv.hpp` | 18, 32, 36-39, 48-61, 70, 73-76, 86, 90-93, 101-114, 123, 126-129, 138, 142-145, 153-166, 175, 178-181 | 58/79 |  |
| `src/astrodynamics.hpp` | 166-169, 188-189 | 6/129 |  |
| `src/astrodynamics/drag.cpp` | 20-103 | 51/52 |  |
| `src/astrodynamics/kepler.cpp` | 5, 10-13, 15-35, 37-58 | 35/37 |  |
| `src/astrodynamics/kepler2state.cpp` | – | 0/0 | file is entirely commented out |
| `src/astrodynamics/occultation.cpp` | 17-44, 46-73, 75-99 | 69/69 |  |
| `src/astrodynamics/perifocal.cpp` | 7-27, 68-88, 98-139 | 74/82 |  |
| `src/astrodynamics/pos2ra.cpp` | 7-32 | 12/12 |  |
| `src/astrodynamics/propagate_state.cpp` | 3-42, 44-99 | 59/59 |  |
| `src/astrodynamics/solar_radiation.cpp` | 3-18, 20-48 | 30/30 |  |
| `src/astrodynamics/state2kepler.cpp` | 16-173, 175-354 | 181/182 |  |
| `src/astrodynamics/state_partials.cpp` | 5-80 | 56/57 |  |
| `src/atmosphere.hpp` | – | 0/12 |  |
| `src/atmosphere/exponential_atmospheric_model.cpp` | 8-67 | 49/49 |  |
| `src/atmosphere/nrlmsise00.hpp` | 35-55, 71-130, 172-178, 182-248, 257-268, 313-343, 346-349, 355-388, 402-408 | 142/208 | declarations and plain data members |
| `src/atmosphere/nrlmsise00_ccor.cpp` | 8-24 | 13/13 |  |
| `src/atmosphere/nrlmsise00_ccor2.cpp` | 8-27 | 15/15 |  |
| `src/atmosphere/nrlmsise00_const.hpp` | 9-15, 36, 72-74 | 7/36 |  |
| `src/atmosphere/nrlmsise00_data.cpp` | 1-712 | 664/664 |  |
| `src/atmosphere/nrlmsise00_densm.cpp` | 10-107 | 64/65 |  |
| `src/atmosphere/nrlmsise00_densu.cpp` | 11-106 | 60/61 |  |
| `src/atmosphere/nrlmsise00_dnet.cpp` | 6-31 | 20/21 |  |
| `src/atmosphere/nrlmsise00_get_flux_data.cpp` | 9-25, 32-164, 166-203 | 95/98 |  |
| `src/atmosphere/nrlmsise00_ghp7.cpp` | 6-87 | 61/62 |  |
| `src/atmosphere/nrlmsise00_glatf.cpp` | 7-11 | 4/5 |  |
| `src/atmosphere/nrlmsise00_glob7s.cpp` | 6-124 | 77/78 |  |
| `src/atmosphere/nrlmsise00_globe7.cpp` | 6-265 | 187/188 |  |
| `src/atmosphere/nrlmsise00_gtd7.cpp` | 7-141 | 87/88 |  |
| `src/atmosphere/nrlmsise00_gtd7d.cpp` | 5-24 | 11/12 |  |
| `src/atmosphere/nrlmsise00_gts7.cpp` | 7-11, 13-419 | 246/247 |  |
| `src/atmosphere/nrlmsise00_params.cpp` | – | 0/9 |  |
| `src/atmosphere/nrlmsise00_splini.cpp` | 4-32 | 25/25 |  |
| `src/atmosphere/nrlmsise00_splint.cpp` | 3-31 | 21/21 |  |
| `src/atmosphere/nrlmsise_spline.cpp` | 4-46 | 33/33 |  |
| `src/beacon_tbl.hpp` | 11-26, 29, 32 | 15/27 |  |
| `src/beacon_tbl/beacon_tbl.cpp` | 4-39 | 27/27 |  |
| `src/cmat2d.hpp` | 17-21, 34, 38-48, 51-53, 61-66, 71-73, 93, 97, 102-104, 114, 134, 138, 143-145, 155, 176, 188-201, 217-219, 227-228, 230-233, 235-238, 240-242, 244-255, 257-262 | 66/112 |  |
| `src/cweb.hpp` | – | 0/3 |  |
| `src/doris/doris_system_info.cpp` | 0, 5-26, 28-48, 56-69, 77-86, 98-126, 128-132, 134-138, 140-152 | 99/101 |  |
| `src/doris/extract_doppler_count.cpp` | 10-13, 15-38, 41-63, 65-160 | 83/83 |  |
| `src/doris/fit_rfo.cpp` | 7-85, 87-280 | 175/175 |  |
| `src/doris_observation_equations.hpp` | 16-19 | 3/11 |  |
| `src/doris_rinex.hpp` | 21-29, 35-53, 55-67, 69-88, 163-166, 262-270, 286-298, 306-312, 323-330, 365-373, 391-404 | 90/181 | constructors, printing, plain accessors |
| `src/doris_system_info.hpp` | 15-21, 24, 27, 31, 35, 38, 46-56, 60-70, 104-106, 118-120, 138-150, 162-179 | 52/68 |  |
| `src/doris_utils.hpp` | 13-17 | 3/32 |  |
| `src/egravity.hpp` | 39-46, 81-90, 162-195 | 32/77 |  |
| `src/enum_bitset.hpp` | 16, 19, 23, 28, 33-37, 41-44, 48-51, 54, 58, 61, 64, 67-69 | 19/26 |  |
| `src/eop.hpp` | 10-12, 20-36, 41-136, 139-145, 148-168, 171-175, 178-184, 187-209, 212-232, 236-252 | 151/164 |  |
| `src/factorial.hpp` | 5-8, 10-12, 17-39 | 27/32 |  |
| `src/filters/ekf.hpp` | 11-15, 19-26, 41-56, 58-75 | 33/46 |  |
| `src/filters/filters.hpp` | 15, 23-31, 90-92, 94-100, 117-127, 143-175, 177-215, 217-222, 245-247, 249-255, 287-319, 321-353, 355-360 | 131/220 | printing and plain accessors |
| `src/filters/models.hpp` | 10-83 | 52/54 |  |
| `src/gravity/gravity_acceleration.cpp` | 11-63, 65-223 | 140/140 |  |
| `src/gravity/harmonic_coeffs.cpp` | 7-12, 14-21, 23-33, 35-108 | 76/76 |  |
| `src/gravity/icgemio_rddata.cpp` | 17-27, 31-167 | 97/102 |  |
| `src/gravity/icgemio_rdhead.cpp` | 50-238 | 139/162 |  |
| `src/gravity/lagrange_poly.cpp` | 5-65, 67-125 | 76/76 | the DEBUG variants |
| `src/gravity/parse_coefficients.cpp` | 5-44 | 25/25 |  |
| `src/gravity/point_mass_acceleration.cpp` | 3-19, 21-44 | 23/23 |  |
| `src/harmonic_coeffs.hpp` | 55-59, 68-69, 71-78, 88, 129-213 | 39/68 |  |
| `src/icgemio.hpp` | 30-38, 50-52 | 11/30 |  |
| `src/ids/get_pdop_crd.cpp` | 6-56, 58-96, 98-183 | 114/114 |  |
| `src/iers/eop_interpolate.cpp` | 6-40, 42-82, 84-105 | 68/68 |  |
| `src/iers/parse_c04.cpp` | 10-15, 33-125 | 70/71 |  |
| `src/integrators.hpp` | – | 0/2 |  |
| `src/integrators/odefun.hpp` | – | 0/8 |  |
| `src/integrators/sgode.hpp` | 15, 17, 48-108, 110-127 | 40/68 |  |
| `src/integrators/sgode_de.cpp` | 9, 11-157 | 90/91 |  |
| `src/integrators/sgode_intrp.cpp` | 8-59 | 36/36 |  |
| `src/integrators/sgode_step.cpp` | 7-15, 18-438 | 236/236 |  |
| `src/itrs2gcrs.cpp` | 80-82, 84-154, 157-220 | 85/115 |  |
| `src/orbit_integration.hpp` | 18-64 | 34/74 |  |
| `src/planetpos.hpp` | 104-110, 149, 160, 170-172, 199 | 7/72 |  |
| `src/planets/cspice_utils.cpp` | 4-75, 77-80 | 46/50 |  |
| `src/planets/moonpos.cpp` | 13-126 | 81/84 |  |
| `src/planets/sunpos.cpp` | 10, 21-131 | 73/77 |  |
| `src/relativity/relativistic_clock_correction.cpp` | 16-30, 44-69 | 20/20 |  |
| `src/rinex/doris_rinex.cpp` | 37-43, 45-67, 69-76, 79-113, 132-206, 210, 239-304, 306-334 | 164/179 |  |
| `src/rinex/fit_rfo.cpp` | 11-129, 131-200 | 105/106 |  |
| `src/rinex/read_rnx_header.cpp` | 19-23, 28-364 | 246/246 |  |
| `src/rinex/rnx_datablock_iterator.cpp` | 3-33, 35-54 | 31/31 |  |
| `src/satellites.hpp` | 30-35, 37 | 6/13 |  |
| `src/satellites/cryosat2.hpp` | 17, 23-26, 46-70, 76-84 | 28/34 |  |
| `src/satellites/jason3.hpp` | 40, 46-49, 69-93, 99-107, 110-121 | 38/46 |  |
| `src/satellites/jason3_quaternions.cpp` | 12-79, 81-88, 90-103, 105-123, 125-193, 195-225 | 126/127 |  |
| `src/satellites/jason3_quaternions.hpp` | 11-16, 69-77, 79-95 | 21/39 |  |
| `src/satellites/satellite_corrections.cpp` | 6-75 | 47/47 |  |
| `src/sunmoon.cpp` | 5-41 | 22/22 |  |
| `src/var/celestrak.hpp` | 14-25 | 10/24 |  |
| `src/var/celestrak_swdata.cpp` | 15-18, 26-130, 132-156, 158-189, 191-296 | 157/162 |  |
| `src/var/yaml_utils.cpp` | 3-16 | 11/11 |  |
| `src/var_utils.hpp` | 15-116 | 26/28 |  |
| `src/variational_equations.cpp` | 9-245 | 115/116 |  |
| `src/web/http_get.cpp` | 13-76 | 27/28 |  |

In total 6376 of 7384 lines with code are cited.  Lines not cited are declarations, includes, accessors, printing, timing and debugging code, unless the last column says otherwise.

Of the programs in `/repo/test`, `test/rinex_pod.cpp` is modelled in part (`Verif/Pod`): RunningStatistics, SatBeacon, TropoDetails, SatelliteState (with attitude), the loop over epochs and beacons with observation equation and filter calls, beacon_coordinates, beacon_arp2ion, prepare_beacon_coordinates, get_tropo, get_tropo_vmf.  Not modelled there: configuration and start-up, relativity_corrections, get_rinex_indexes, printing, the builds with NO_ATTITUDE or FIX_ORBIT.  Of `test/test_satellite_shadow.cpp` the lists of passes and the loop are modelled (`Verif/Forces/PassModel.lean`).  Of `test/test_one_pass.cpp` and `test/test_rinex_extract.cpp` the loop over the observations, the counts and the summary are modelled (`Verif/Pod/OnePassModel.lean`).  Of `test/test_sp3_integrator.cpp`, `test/test_sp3_fit_state.cpp` and `test/rinex_interpolator.cpp` the loops, the propagation of a record and the transformations are modelled (`Verif/Pod/Sp3Model.lean`).  Of `test/test_kepler.cpp` the solver and the comparison are modelled (`Verif/Astro/KeplerTestModel.lean`).  Not modelled at all: the other programs in `/repo/test`, those in `/repo/var` except the integrator RKF45 (`Verif/Rkf`), the interpolators, the Legendre functions, the flags and the conversions to elements (`Verif/Var`), the build files, and all external libraries.  Of the scripts in `/repo/script`, `fetch_iers_c04.py`, `gfc_fortran2c.py` and `pydoris/pydoris/log/ids_log_parser.py` are modelled (`Verif/Script`).

## 4. Disagreements between the code and the properties

### 4.1 Proved

Each theorem below exhibits an input for which the code as modelled does not behave as the property or its own documentation says.

* `Verif.EnumBitset.check_overlap_counterexample` (C01): Without it, `check` only tests overlap: with enumerators `1` and `3`, setting `1` makes `check(3)` true although `3` was never set.
* `Verif.Harmonic.shrink_leaks_counterexample` (C07): C07, violation A shrinking resize followed by destruction loses rows.
* `Verif.Harmonic.moveAssign_leaks_counterexample` (C07): C07, violation Move assignment onto a table with data loses all of its rows.
* `Verif.Harmonic.selfMove_leaks_counterexample` (C07): A self move assignment empties the table and loses its memory.
* `Verif.Harmonic.default_resize_zero_counterexample` (C07): A default-constructed table resized to degree 0 has no data: its only coefficient cannot be accessed.
* `Verif.Factorial.factorialRatio_lt_counterexample` (C08): … so for `n < d` it returns `d!/n!`, not the documented `n!/d!`.
* `Verif.SystemInfo.make_wraps_counterexample` (C10): Outside that range the number is silently wrapped: 257 is taken for frequency 1.
* `Verif.Pod.design_drag_counterexample` (C100): C100 The entry of the drag coefficient is -1 for every observation, although the predicted measurement does not depend on that parameter at all; so every residual is attributed in part to the drag coefficient.
* `Verif.Pod.design_random_counterexample` (C100): C100 Compiled with `RANDOM_RFO`, the entry of the beacon frequency has the wrong sign: it is the negative of the derivative of the predicted measurement.
* `Verif.Pod.sigma_counterexample` (C101): C101 The configured value is documented as the standard deviation at the zenith, but near the zenith the one used exceeds every bound: the best observations get no weight.
* `Verif.Pod.transition_counterexample` (C102): C102 The transition matrix that a successful propagation leaves for the filter is the matrix of the *start* of the integration, whatever the integrator, the forces and the interval: the identity with a zero in the last diagonal place; the partials of the drag parameter are zero.
* `Verif.Pod.transition_not_solution_counterexample` (C102): C102 In particular it is not that of the solution, as soon as the final velocity along the last axis depends on the initial one.
* `Verif.Pod.l3pco_counterexample` (C105): C105 The phase centre of the satellite is not the ionosphere-free one: for Jason-3 it lies more than 13 mm too low along the z axis of the satellite (the beacons have the right sign, C12).
* `Verif.Pod.tropoVmf_counterexample` (C106): C106 With site-wise data, the variant the program uses, the angle is converted from degrees to radians although it is in radians: for every satellite off the zenith the mapping functions are asked for another angle, at most 1.6 degrees if `vmf3`, which is not part of the repository, takes radians.
* `Verif.RfoFit.room_counterexample` (C108): C108 is false: room. The number of rows is a guess from the number of files or the length of the date range; a file with more windows than guessed (observations more often than twice in ten seconds, or longer than a day) is written beyond the matrices.
* `Verif.RfoFit.no_data_counterexample` (C108): C108 is false: files without data. A file without any epoch in range is not reported and adds a row: the value zero at a date that was never set (`t0`, `tend` are the indeterminate contents of local variables).
* `Verif.Icgem.load_degree_1_counterexample` (C109): C109 is false: files without degree 1. Such a file (EGM2008 is one) is accepted and `C(1,0)` and `C(1,1)` are set to zero, but `S(1,1)` is what the memory held before (de-normalised): it is nowhere initialised.
* `Verif.Gravity.Debug.debug_sectorial_counterexample` (C110): C110 is false. The factor `2m - 1` of the sectorial recursion applies to the first product only: at every position off the planes `x = 0` and `y = 0` the values of degree and order 2 are wrong.
* `Verif.Variational.local_time_counterexample` (C112): C112 is false. Local time is never set: of two evaluations at the same instant at longitudes that differ by other than whole turns, at least one is inconsistent, whatever memory held.
* `Verif.Variational.celestial_place_counterexample` (C112): C112 is false. The place is that of the celestial coordinates: after a quarter turn of the Earth the longitude of a satellite over the x axis is taken to be that of the x axis, not that of the Earth-fixed position.
* `Verif.Variational.gravity_zonal_counterexample` (C114): C114 is false for order 0 (zonal coefficients only): with the arrays of the constructor the call with partials reads outside them.
* `Verif.Variational.gravity_degree_1_counterexample` (C114): C114 is false for files without the coefficients of degree 1 (EGM2008 is one): such a file is loaded, but the acceleration during the integration depends on what the memory held before the coefficients were read.
* `Verif.Atmosphere.Profile.profile_gap_counterexample` (C115): The temperature has a gap at 32.5 km when `tn3[0]` differs from `tn2[3]` – and no function of the library writes `tn3[0]` (C64).
* `Verif.Float.denormalize_overflow_counterexample` (C117): C117 (b) The product of the integers `n-m+1 … n+m` overflows: for degree 90, which the shipped configuration asks for, every coefficient of order 83 to 90, whatever its value, becomes zero, although the exact de-normalised coefficient of a nonzero one is nonzero.
* `Verif.Float.denormalize_sectorial_counterexample` (C117): C117 (c) From degree 86 on the sectorial coefficients (order equal to degree) are lost.
* `Verif.Float.clock_offset_counterexample` (C118): C118 (c) An offset of 15 ns, written as 0.000000015, moves the epoch by 14 ns: the product of the nearest double and 1e9 lies just below 15 and is cut off.
* `Verif.Float.l21_offset_counterexample` (C118): C118 (d) Likewise an L2/L1 offset of 1.001 microseconds becomes 1000 ns.
* `Verif.Float.date_resolution_counterexample` (C119): C119 (c) At the start date MJD 58849 (1 January 2020) all integration times within 300 ns of the start have the same date: the date in days resolves 0.6 microseconds only.
* `Verif.Float.perigee_nan_counterexample` (C120): C120 (d) A satellite at its perigee on the first axis, 7042 km from the geocentre, with velocity (0, 4.572, 6.096) km/s: argument of perigee and true anomaly, both zero, are NaN. The computed cosines are the next double above 1.
* `Verif.Float.circular_nan_counterexample` (C120): C120 (e) A satellite on a circular polar orbit, 7001 km from the geocentre with velocity 7912045249/2^20 m/s: the eccentricity of `state2kepler_montenbruck` is NaN, the root of a negative number.
* `Verif.Float.right_ascension_nan_counterexample` (C120): C120 (f) A satellite at (10485760, 0, 0.125) m: the right ascension is NaN. The computed distance is the first coordinate, the cosine of the declination less than 1, the quotient greater.
* `Verif.Float.vallado_nan_counterexample` (C121): C121 (a) `vallado_shadow` gives full light (1) for a satellite exactly behind the Earth, at 7265 km, whatever the constants: the computed cosine is below -1, its arc cosine NaN and the comparison false.
* `Verif.Float.bernese_nan_counterexample` (C121): C121 (b) `bernese_shadow1` gives full light for a satellite exactly behind the Earth on the first axis, at 7707 km, with the Sun at one astronomical unit: the squared distance from the axis is computed negative and its root NaN. With or without fused operations.
* `Verif.Float.conical_nan_counterexample` (C121): C121 (c) `conical_shadow` gives NaN for a satellite exactly behind the Earth, at 7265 km: the computed cosine of the angle between Earth and Sun is above 1.
* `Verif.Float.nan_derivative_hangs_counterexample` (C122): C122 (c) At time zero, where every integration of the orbit program starts, a derivative that is NaN keeps `step` in its loop for ever: the step size is halved without end, and the smallest size allowed there is zero. No number of attempts is enough.
* `Verif.Float.past_output_counterexample` (C122): C122 (e) In the mode that must not go past the output time, a step from time -1 to the output time `2^-53 (1 + 2^-52)` ends at `2^-52`, beyond it.
* `Verif.Atmosphere.Msis.dnet_vanishing_counterexample` (C123): C123 (counterexample) Where diffusive and mixed density vanish, or one vanishes and the other is below a millionth of a particle per cubic centimetre, the net density is one particle per cubic centimetre, more than both.
* `Verif.Atmosphere.Msis.constant_history_counterexample` (C123): C123 (counterexample) The weighted history is not a mean: for a history that is constantly above quiet conditions the result is below the response to that constant.
* `Verif.Atmosphere.Msis.nitrogen_request_counterexample` (C124): C124 (counterexample) The branch for atomic nitrogen is entered for every selection but the one of atomic nitrogen itself. Asked for its density above 450 km the model answers zero; asked for all species it gives a positive density for the same input.
* `Verif.Sgode.continue_after_stop_counterexample` (C125): C125 (counterexample) A call that must not step past its target and ends within the resolution before it leaves the remaining distance as step size, and the record of how it ended is not read by the next call. The next call in this direction is therefore refused with status 3 although nothing is wrong with its arguments.
* `Verif.Script.Fetch.first_day_counterexample` (C127): A start on the first or last day of a bulletin: the script never ends with a file, however long it runs (it goes to and fro between two bulletins, or raises an exception).
* `Verif.Script.Fetch.silent_counterexample` (C127): An end on the first day of the next bulletin: after 1000 passes the script gives up without a word and writes a file that lacks that day.
* `Verif.Script.Fetch.sorted_counterexample` (C127): Three files do not come out in order: the list is not sorted in general.
* `Verif.Script.Bulletin.wide_counterexample` (C128): A value of 1000 or more leaves no blank before it: it runs into the one before.
* `Verif.Script.Bulletin.unreadable_counterexample` (C128): No file that the script writes can be read: every value is written with its sign, `std::from_chars` does not accept a plus sign, and the sixth value of a line, a formal error, is never negative. For every file and every interval that is not empty the reader reports a failure and stores no row.
* `Verif.Script.Bulletin.columns_counterexample` (C128): The columns do not agree either. A reader that accepts every sign would take the fourth value, dX, for the length of day, the fifth, dY, for dX, and the formal error of x for dY.
* `Verif.Script.Log.last_part_counterexample` (C129): The last part of the last block of a file is lost: at the end of the file the dictionary being filled is not stored.
* `Verif.Script.Log.no_part_counterexample` (C129): A block without parts gives one dictionary all the same, an empty one.
* `Verif.Script.Log.blanks_counterexample` (C129): A line of a few blanks inside a block, taken for an empty one by any reader, raises an exception.
* `Verif.Script.Log.header4_counterexample` (C129): The heading of block 4 is never recognised: its parentheses are a group for `re`, and the code of one station stands in the pattern.
* `Verif.Script.Log.block4_counterexample` (C129): So block 4 is not found in any file whose lines that begin with a 4 are its heading and those of its parts.
* `Verif.Script.Log.block3_counterexample` (C129): And block 3 goes on into block 4: the fields of that block end up in the last part of block 3.
* `Verif.Script.Log.short_height_counterexample` (C129): Heights of one or two digits without decimals, as in `3 m`, are taken for zero, for every such number.
* `Verif.Script.Log.millimetre_counterexample` (C129): A height in millimetres is taken for one in metres: for every whole number of at least three digits the unit does not matter.
* `Verif.Script.Log.first_line_counterexample` (C129): `parse_first_log_line` never returns: its pattern has no group, and one is asked for.
* `Verif.Script.Gfc.whole_counterexample` (C130): Numbers without decimals are left as they are, whatever their digits.
* `Verif.Script.Gfc.endless_counterexample` (C130): A file without the end of a header is never finished: after its last line the script prints empty lines for ever.
* `Verif.Script.Gfc.constant_counterexample` (C130): The header is not converted: a constant in Fortran notation is copied as it stands, and the reader takes its mantissa alone, without a message.
* `Verif.Forces.Passes.extra_counterexample` (C131): One pass too many when the first epoch is in light.
* `Verif.Forces.Passes.first_counterexample` (C131): A pass that begins with the first epoch is listed without its beginning.
* `Verif.Forces.Passes.many_counterexample` (C131): Every epoch in penumbra begins a pass of its own, which has no end.
* `Verif.Forces.Passes.lost_counterexample` (C131): Once a pass is closed, epochs in penumbra change nothing: a later pass through penumbra alone is missing, and one through umbra begins at the umbra.
* `Verif.Forces.Passes.umbra_end_counterexample` (C131): The end of umbra listed is always the end of penumbra, even for passes without umbra.
* `Verif.Forces.Passes.conic_counterexample` (C131): The list for the conical model is that of Vallado's model, whatever the conical coefficients.
* `Verif.Pod.OnePass.first_block_counterexample` (C132): C132 The observations of the first block are not used: a file of two blocks with one observation of the same beacon each, without discontinuity, gives no count.
* `Verif.Pod.OnePass.interpolation_counterexample` (C132): C132 The success of the interpolation of the orbit is not looked at: where it fails the previous position is used, and the change of distance printed is 0 whatever the satellite did.
* `Verif.Pod.OnePass.unknown_beacon_counterexample` (C132): C132 A beacon that is not in the header: its name is a null pointer.
* `Verif.Pod.OnePass.stale_counterexample` (C132): C132 With the ionospheric correction switched on, test_rinex_extract would subtract the correction of the first observation of an arc from all later ones, since line 431 is commented out: of three phases with the values 0 free of the ionosphere the second count is not 0.
* `Verif.Pod.OnePass.percent_counterexample` (C132): C132 A station without observations: the percentage is 0 divided by 0.
* `Verif.Pod.OnePass.distance_counterexample` (C132): C132 With both positions in one unit, as used for the zenith angle in the same program, the distance is wrong: a satellite 622 km above a beacon.
* `Verif.Pod.OnePass.pco_counterexample` (C132): C132 The phase centre offset printed at the end has the opposite sign in its second term: up, for a Starec antenna, it differs from the one of the library.
* `Verif.Rkf.too_many_points_counterexample` (C133): C133 The warning of too many output points, flag 7, is never given by a call that does something: the counter is set to zero at the beginning of every call and compared with 100.
* `Verif.Rkf.stuck_counterexample` (C133): C133 After flag 6, 7 or 8 every later call returns 1 without doing anything. The caller cannot set the flag or the tolerances, which are private.
* `Verif.Rkf.tolerance_counterexample` (C133): C133 Two equations: the magnitude of the second component at the end of the step is taken from a derivative of the first (`F(0, i)` for `F(i, 0)`). A step is accepted whose error is more than a thousand times the tolerance.
* `Verif.Rkf.beyond_matrix_counterexample` (C133): C133 Six equations: memory behind the matrix decides whether a step is accepted.
* `Verif.Rkf.decrease_counterexample` (C133): C133 "The decrease is limited to a factor of 1/10": an error of ten times the tolerance reduces the step to less than a hundredth (the square was taken instead of the fifth root).
* `Verif.Rkf.increase_counterexample` (C133): C133 "The increase is limited to a factor of 5": after an error of a tenth of the tolerance the next step is 90 times as long.
* `Verif.Rkf.first_step_counterexample` (C133): C133 The first step is not limited to an expected error within the tolerance: here it is a thousand million times as much.
* `Verif.Rkf.unset_member_counterexample` (C133): C133 For a new solver asked for the time it is at, the result depends on a member that the constructor does not set: it is either an error or success.
* `Verif.Pod.Sp3.last_record_counterexample` (C134): C134 At the end of the file the block is used once more: with a reader that leaves the last record in the block, every file within the limits has its last line printed twice, is counted with one record too many, and the program reports failure.
* `Verif.Pod.Sp3.backwards_counterexample` (C134): C134 For an interval backwards, which the command line of the first program accepts, the epoch printed is any number: a negative number is converted to an unsigned type.
* `Verif.Pod.Sp3.body_mass_counterexample` (C134): C134 The acceleration by the Sun in the second program differs from the right one, for instance for a satellite between the Earth and a Sun of another mass.
* `Verif.Pod.Sp3.transition_counterexample` (C134): C134 The transition matrix after a successful propagation is the identity, whatever the integrator found.
* `Verif.Pod.Sp3.transition_not_solution_counterexample` (C134): C134 It is not the matrix that the integrator found.
* `Verif.Pod.Sp3.read_error_counterexample` (C134): C134 An error while reading the observations is not noticed: the program ends like at the end of the file.
* `Verif.Pod.Sp3.flags_counterexample` (C134): C134 Whether a record has a position is not looked at: with all flags reversed the lines are the same.
* `Verif.Var.last_node_counterexample` (C135): C135 At the last of several nodes the status is 2, "outside", with every interpolator.
* `Verif.Var.two_nodes_counterexample` (C135): C135 With two nodes the quadratic interpolator fails everywhere between them: no third point is found, and the assertion stops the program.
* `Verif.Var.set_combination_counterexample` (C137): C137 Setting a combination of events takes back every other event that was set, although setting one event takes back none.
* `Verif.Var.signed_flag_counterexample` (C137): C137 A first flag of 128 or more is read as negative: the version with separate flags takes a good measurement with a flag of 200 for one with a flag not above 16.
* `Verif.Var.special_value_counterexample` (C137): C137 A measurement with the value `numeric_limits<double>::min()`, which is the least positive number and not the least number, and which the random numbers of the program include, is taken for missing.
* `Verif.Var.later_rounds_counterexample` (C137): C137 In every later pass of 32 or more calls, the first version has no measurement missing and the other two have 32, as the counter is not put back at the start of a pass: the times printed are for different work.
* `Verif.Var.Kepler.beutler_time_counterexample` (C138): C138 With a root of 1 + e² in place of 1 - e², and no regard to the quadrant, the time of the perigee after Beutler is wrong everywhere but at the perigee (and apogee, and where e + cos f = 0).
* `Verif.Var.Kepler.tapley_quadrant_counterexample` (C138): C138 On the half of the orbit away from the perigee the mean anomaly after Tapley is wrong, and where the cosines of true anomaly and argument of latitude differ in sign the argument of the perigee is off by half a turn.
* `Verif.Var.Kepler.schwarz_half_counterexample` (C138): C138 Node and argument of the perigee after Schwarz are wrong, and not only by whole turns, for every orbit where they are in the second half of the circle.
* `Verif.Var.Kepler.test_counterexample` (C138): C138 The program converts the last record of the file once more and counts one line too many (for an empty file: one line, with numbers that were never set).
* `Verif.Astro.gives_up_counterexample` (C139): C139 Close to 1 both functions stop after twenty iterations and report failure, at the tolerance they have by default and at all smaller ones: eccentricity `1 - 10⁻¹³`, mean anomaly 0.
* `Verif.Astro.first_difference_counterexample` (C139): C139 The first difference printed is 0 for every list of pairs, whether or not the anomalies solve the equation: the program compares `kepler` with the same method.
* `Verif.Float.large_counterexample` (C140): C140 The mean anomaly is reduced with the rounded 2π: after `2^50` of its revolutions `kepler` reports success and the anomaly 0, but the mean anomaly is more than a quarter of a radian from all full turns (`e = 0`: the anomalies are equal).
* `Verif.Mat2D.trapezoid_offset_counterexample` (C141): C141 (f) A square trapezoid of 65536 rows has 2147516416 elements, as `num_elements` says, and its constructor allocates them; but the offset of some of its elements overflows `int`.
* `Verif.Mat2D.dense_size_counterexample` (C141): C141 (g) For a dense square matrix of 46341 rows, already the number of elements, computed in `int`, overflows.
* `Verif.Mat2D.gravity_factor_counterexample` (C141): C141 (j) At degree 46340 the factor `(i + 1) * (i + 2)` of the partial derivatives overflows `int` before it is converted to `double`.
* `Verif.Mat2D.negative_size_counterexample` (C141): C141 (m) One row too few, `-1`, by five columns asks for `2^64 - 5` elements.
* `Verif.Var.Icgem.y_component_counterexample` (C142): C142 (d) the y component is wrong as soon as there is a term of order 2: over the equator at longitude 0, in a field whose only coefficient is `C_22` (symmetric in y, so that the y component of the gradient is 0), the program does not give the gradient.
* `Verif.Var.Icgem.denormalize_twice_counterexample` (C142): C142 (g) two calls in a row do not give the result of one.
* `Verif.Var.Icgem.normalised_counterexample` (C142): C142 (i) with `C_20` alone the program's z component at the pole is 3 (unit radius and GM), where the coefficient stands for `3 sqrt 5`.
* `Verif.Var.Icgem.degree_ignored_counterexample` (C142): C142 (m) degree 20, order 10 of a model of degree 360 are taken for degree 360, order 10.
* `Verif.Var.Icgem.argument_count_counterexample` (C142): C142 (n) without a file name the program goes on with a null name instead of the usage text; with too many arguments it goes on and ignores all but the file.
* `Verif.Filters.KalmanPy.process_noise_counterexample` (C143): C143 (e) with process noise the scalar version, which leaves it out, differs from the matrix version.
* `Verif.Filters.KalmanPy.arrays_overwritten_counterexample` (C143): C143 (f) the arrays handed over as a priori values are overwritten: a second filter made from them starts from the estimates of the first.
* `Verif.Pod.Setup.stale_name_counterexample` (C144): C144 is false for five of the thirteen files: without a name for the orbit (SP3), the table of beacons, the grid of the troposphere, the quaternions or the solar activity, the program goes on and opens the file named before it – the observations as the orbit, the coordinates as the table of beacons, a SPICE kernel as the solar activity.
* `Verif.Pod.Setup.degree_counterexample` (C144): C144 is false without a degree in the configuration: the coefficients are created – memory for `(n + 1) (n + 2) / 2` of them – with whatever the uninitialised variable holds, before the status is looked at.
* `Verif.Pod.Setup.covariance_counterexample` (C144): C144 is false for the covariances: of fifty beacons the first has a quarter as the variance of its drift and of the second the zenith delay starts with a variance of 1.
* `Verif.Pod.Setup.half_day_counterexample` (C144): C144 is false for a whole day: of blocks every ten seconds over twenty-four hours those after the first one beyond the twelfth hour are not looked at, and the value returned does not tell.
* `Verif.Pod.Setup.read_error_counterexample` (C144): C144 is false for a file that cannot be read to its end: whatever the status of the reader, an error in the middle of the file included, the program returns 0.
* `Verif.Pod.Setup.relativity_counterexample` (C144): C144 is false for the velocities: for a satellite over the equator on a circular orbit of 7700 km, eastwards with 7200 m/s in the celestial frame, and a beacon at the pole, the correction is too small by more than a centimetre per second.
* `Verif.Pod.Setup.clock_difference_counterexample` (C144): C144 is false for the use of the correction: it is a range rate already, but its change per second is added in its place; while it is constant (a circular orbit over the equator) nothing is corrected.
* `Verif.Exc.stale_lines_counterexample` (C145): C145 (counterexample) The return value of the integrator is not tested (test_exc71.cpp:184-189) and the time is set to the target even if the integrator stopped before it. The next call is then refused, and so are all others: every line after a failure repeats the values of the failure beside the times at which the orbit should have been.
* `Verif.Exc.default_order_counterexample` (C145): C145 (counterexample) Degree and order are documented as optional, but the order stays 20 when only a smaller degree is given; the program then stops at its assertion, whatever the file holds.
* `Verif.Exc.warning_counterexample` (C145): C145 (counterexample) The program compares the leap seconds (TAI - UTC, 32 in March 1999) with the difference of GPS time and UTC (13): it warns when UTC comes out 13 s behind GPS time as it should, and is silent only when it does not.
* `Verif.Exc.printed_matrix_counterexample` (C145): C145 (counterexample) The table printed as the matrix `U` of the exercise is its transpose; they differ whenever the Earth has turned.
* `Verif.Exc.moon_constant_counterexample` (C145): C145 (counterexample) The program takes the constant of the Earth for that of the Moon: for every position the acceleration it prints is that of the Moon times the ratio of the two, which is more than 81.
* `Verif.Exc.truth_counterexample` (C145): C145 (counterexample) The "truth" of a pass is the state at the start propagated over the span of that pass alone: it is the same in all passes, and after the first it is the truth only for an orbit that repeats.
* `Verif.Exc.azimuth_counterexample` (C145): C145 (counterexample) The azimuth residual is not reduced to a turn. However azimuths are assigned to directions within one turn, there are directions as close as one likes whose residual is almost a turn, with the wrong sign; the filter then moves the state by its gain times that.
* `Verif.Script.Plot.eleventh_file_counterexample` (C146): A string in which a file has a number of two digits keeps its `$` and is no expression: from the eleventh file on no column can be plotted.
* `Verif.Script.Plot.colon_counterexample` (C146): One colon anywhere makes the columns without file stay as they are: a string for one file with a slice is no expression.
* `Verif.Script.Plot.blank_line_counterexample` (C146): An empty line, for instance at the end of the file, makes the assertion fail for every file with data.
* `Verif.Script.Plot.time_counterexample` (C146): A column whose first time Python can read (with either format) is never read: the clipping by zero characters leaves nothing of any time, and `strptime` rejects a date without time. So `--time` works only if the fraction has more than six digits.
* `Verif.Script.Plot.ragged_counterexample` (C146): A row that Python could read as it stands (as `a`) but whose clipped text it also reads (as `b`, with digits of the fraction lost) gets the value `b`: the clipping found for the first row is applied to rows with a shorter fraction.
* `Verif.Script.Plot.two_strings_counterexample` (C146): Two strings for two or more files with `--time`, which the help text allows, always fail the assertion.
* `Verif.Script.Plot.odd_counterexample` (C146): The last of an odd number of strings is dropped without a message.
* `Verif.Rinex.Write.all_references_counterexample` (C147): A header in which every station is a time reference is refused, though its counts agree with its lines.
* `Verif.Rinex.Write.no_scale_counterexample` (C147): A header with codes and no line of scale factors is refused: no factor does not mean factor 1.
* `Verif.Rinex.Write.dcbs_counterexample` (C147): A line SYS / DCBS APPLIED, which the format knows, ends the reading with status 130, whatever it says and whatever follows.
* `Verif.Rinex.Write.long_name_counterexample` (C147): A satellite name of 59 or 60 characters, which fits its columns, is refused with status 30.
* `Verif.SpaceWeather.Write.last_day_counterexample` (C148): After the last day but one the position is behind the last line; then every update to another day of the file is refused, the last day included. The refused update resets the position, so the same update succeeds when it is asked for once more.
* `Verif.SpaceWeather.Write.empty_cp_counterexample` (C148): Column CP may be empty in the files. Then its comma is not counted, the columns are taken one further to the right, and the line is refused, since the column of the adjusted value is then read as the observed one and the type as a number.
* `Verif.SpaceWeather.Write.monthly_counterexample` (C148): Lines without 3-hour values are refused.
* `Verif.Rinex.stale_label_counterexample` (C15): A blank line after a STATION REFERENCE line is taken for another station line (status 171), while after an ignored line it is ignored: the outcome depends on the bytes left in the line buffer.
* `Verif.Rinex.empty_file_counterexample` (C15): The whole function on an empty file depends on uninitialised memory.
* `Verif.Rinex.blank_name_counterexample` (C15): A blank satellite name makes `count_length_reverse` read `line[-1]`.
* `Verif.Icgem.Write.no_newline_counterexample` (C150): C150 is false without a newline at the end: whenever the coefficients of the last line are asked for the file is refused, as the loop ends when the end of the file is reached, with the line already in the buffer.
* `Verif.Icgem.Write.trailing_blank_counterexample` (C150): C150 is false with blanks behind `fully_normalized`: one blank is kept as part of the argument, the coefficients then do not count as normalised, and are used as they are though the factors were asked for.
* `Verif.Script.Tools.error_page_counterexample` (C151): The status of the reply is not looked at: whatever page the server sends with an error takes the place of the file, and the script reports success.
* `Verif.Script.Tools.absolute_name_counterexample` (C151): A name that begins with a slash takes the place of the directory.
* `Verif.Script.Tools.address_counterexample` (C151): The address of a directory listing is that of its year within the year 2021 of Jason-3, for every satellite and year: never the one under the satellite and year asked for.
* `Verif.Script.Tools.directory_counterexample` (C151): The listing is stored in full, but as `foo` in the current directory, whatever the directory asked for.
* `Verif.Script.Tools.bad_log_counterexample` (C151): One log that cannot be read ends the list: the antennas of all files listed after it are missing, though their logs are good.
* `Verif.Script.Tools.own_output_counterexample` (C151): Asked to store the list as a log in the directory of the logs, the script takes its own, still empty, output for a log, and stops there.
* `Verif.Script.Tools.missing_header_counterexample` (C151): A missing file gives an output all the same: a C++ compiler sees the message, and a brace that is never closed.
* `Verif.Script.Table.blank_column_counterexample` (C152): The reader looks for the end of an interval one column early, at the blank before it. If the date reader does not skip blanks, every table with an antenna is refused.
* `Verif.Script.Table.long_name_counterexample` (C152): The script does not cut names, and the reader counts columns. A name of five characters shifts the line: the end of the interval is looked for at the last digit of its beginning. If such a text is no date, the whole table is refused: one long name and no height is known of any antenna.
* `Verif.Script.Table.whole_metre_counterexample` (C152): A height of one or two digits without decimals, such as `3 m`, reaches the program as the height zero.
* `Verif.Rinex.Meta.full_name_counterexample` (C153): A name that fills its columns has no end in the object: the DOMES number is printed after it as if it were part of it.
* `Verif.Rinex.Meta.documented_buffer_counterexample` (C153): A buffer of the size that the header file asks for, more than 51 characters, is left by such a name.
* `Verif.Rinex.Meta.overrun_counterexample` (C153): With name and DOMES number filling their columns, beacon type and shift factor are printed as text: for every beacon with a positive shift factor below 256 the buffer of `print_metadata` is overrun.
* `Verif.Rinex.Meta.missing_line_counterexample` (C153): A header needs no line for satellite, receiver, antenna or positions to be accepted; printing it reads members that were never set.
* `Verif.Rinex.Meta.second_read_counterexample` (C153): The loop leaves the stream failed, and a failed stream cannot be moved back: a second call prints nothing, whatever the file.
* `Verif.Rinex.Meta.cut_difference_counterexample` (C153): The differences are cut, not rounded: ten seconds less a nanosecond are printed as nine.
* `Verif.Float.Pcv.right_angle_counterexample` (C154): One double of the range is left: the right angle as the code has it is let through, becomes exactly 90 degrees, and the entry behind the table is read, for every antenna and every rounding to nearest.
* `Verif.Float.Pcv.debug_check_counterexample` (C154): The check of the debug build compares with the number of bytes, so it lets this index pass.
* `Verif.RfoFit.blank_offset_counterexample` (C155): An epoch whose first beacon has no offset is not left out: the marker for a missing value, which is as good as zero, enters the mean.
* `Verif.RfoFit.no_code_counterexample` (C155): A file without the code `F` is not refused: the first epoch in range reads outside an array.
* `Verif.RfoFit.blank_mean_counterexample` (C155): The only offset stated is 2001; the epoch without one halves the data point that the polynomial is fitted to.
* `Verif.RfoFit.slope_lost_counterexample` (C156): The program does not print the line it has fitted: any slope below half a unit of the ninth decimal per second is printed as zero, with which the line is off by up to four units of the fifth decimal after a day.
* `Verif.RfoFit.same_length_counterexample` (C156): The names of two observation files of one satellite have the same length: the second is always written outside its memory.
* `Verif.RfoFit.number_counterexample` (C156): The number of files that is printed is always one too large.
* `Verif.Icgem.Ask.input_end_counterexample` (C157): Input that ends without a negative number, and a word that is no number, are not noticed: variables that were never set are used (and the loop goes on for ever if they are not negative).
* `Verif.Icgem.Ask.order_zero_counterexample` (C157): For order zero the program does not print that `S` is zero, but the coefficient `C` of degree and order `l - n`, which is stored where `S(n, 0)` would be.
* `Verif.Icgem.Ask.degree_zero_counterexample` (C157): Degree zero, which every file has, addresses coefficients outside the table.
* `Verif.SunMoon.Ref.average_counterexample` (C159): The distances of all dates but the first have no influence on what is printed as their average.
* `Verif.SunMoon.Ref.sun_averages_counterexample` (C159): C159 The three averages printed for the Sun are the distances at the first date.
* `Verif.SunMoon.Ref.moon_averages_counterexample` (C159): C159 And so are the two printed for the Moon.
* `Verif.SunMoon.Ref.perfect_counterexample` (C159): A perfect first date and any others, however far off: an average of zero is printed.
* `Verif.Rinex.short_line_counterexample` (C16): A line of fewer than three characters is accepted, and the rest of the id comes from whatever the buffer held before: the same block gives different ids.
* `Verif.SpaceWeather.Write.feed_short_file_counterexample` (C160): The program reports a failure on a file that has every day and every value it asks for but ends with 26 or 27 July: the feed refuses the first request after the last day but one has been read, the program ignores the status, and the values of the day before are compared.
* `Verif.Eop.Example.example_failure_counterexample` (C161): When the interpolation fails at every epoch, the program nevertheless prints 23040 records and ends with status 0: the status of the interpolation is not passed on. The printed pole is what the memory of the record held, plus the tides of all rounds.
* `Verif.Float.negative_variance_counterexample` (C162): C162 (f) Two parameters: from a diagonal prior (variances 4 and 3), two observations with the standard deviation `2^-26` leave the second parameter with a negative variance (about -8.4e-19), whether products and sums are fused or not; the matrix in between is a proper covariance matrix.
* `Verif.Float.asymmetric_counterexample` (C162): C162 (g) The computed matrix is not symmetric either: from the variances 4 and 3, one observation with the design (-3, 1) and the standard deviation 1.
* `Verif.Float.nominal_large_counterexample` (C163): Shift factors beyond that range are rounded: at `2^31 - 1`, the largest `int`, the S1 frequency is not the one of the law.
* `Verif.Float.iono_fused_counterexample` (C164): C164 (b) With a fused product the correction of such carriers is not zero: 543 and 107 cycles are corrected, for every rounding to nearest.
* `Verif.Float.linear_overshoot_counterexample` (C166): C166 Nodes -2^-53 and 15/8 with the values 0 and 249/128: at the last double before 15/8 the computed value is larger than 249/128, fused or not. The computed function leaves the range of the values and falls back at the node.
* `Verif.Float.nearest_wrong_counterexample` (C166): C166 Nodes 2^-60 and 1 with the values 10 and 20: for 1/2 the value of the node 1 is given although 2^-60 is nearer; the distance 1/2 - 2^-60 is rounded to 1/2.
* `Verif.Float.jc_same_counterexample` (C167): C167 On 4 August 1948 (MJD 32767) the day begins with the same argument as the last double of the day before: two different epochs are not distinguished.
* `Verif.Float.restore_counterexample` (C167): C167 UT1 - UTC = 0.1317 s and a tidal effect of -0.0029 s: after subtracting and adding the effect the value is not the one of the file.
* `Verif.Var.Proto.denormalize_twice_counterexample` (C168): C168 A second call of the prototype scales the coefficients again; the library leaves them alone. Here degree one, `C(1,0) = 1`: after two calls 3 instead of the square root of 3.
* `Verif.Var.Proto.pcv2_flag_counterexample` (C168): C168 Below the horizon the prototype reports nothing on the second frequency; the library does.
* `Verif.Pod.Name.construct_overflow_counterexample` (C169): C169 The constructors themselves take any name: one of 256 characters is written past the end of the array.
* `Verif.Float.poly_cancel_counterexample` (C171): C171 No bound holds relative to the value itself: here the constant is 1, the rate the double next to -1/3 and the time 3 s; the computed value is zero and the polynomial is not.
* `Verif.Float.Drag.partials_at_rest_counterexample` (C174): At rest with respect to the air, where the acceleration is zero, every entry of the partials with respect to velocity is 0/0 (drag.cpp:91 divides by the norm without the test that `normalized()` makes): NaN.
* `Verif.Rinex.missing_scaled_counterexample` (C18): The sentinel is divided by the scale factor, too: a missing observation is then not recognisable.
* `Verif.Rinex.trimmed_line_counterexample` (C18): A line whose trailing blanks were removed takes the missing value from an older line: with different lines left in the buffer the same line gives different values.
* `Verif.Float.Peri.not_rotation_counterexample` (C184): C184, counterexample to the rotation In a polar orbit with the node at 90 degrees and the perigee in the node (the angles being the doubles next to the right angle), the perigee direction that the functions give is not of unit length: the squared length of the first column is 2 up to `1e-14`, for every rounding to nearest and every choice of fused products.
* `Verif.Rinex.truncated_counterexample` (C19): A file cut after the first line of a two-line record: success is reported, and values 6 and 7 are those of columns 1 and 2 of the first line.
* `Verif.Rinex.short_epoch_counterexample` (C20): A line that ends after the number of stations: clock offset and flag come from whatever the buffer holds.
* `Verif.Eop.copyCtor_counterexample` (C24): A copy of a one-record table has an indeterminate record.
* `Verif.Eop.copyAssign_counterexample` (C24): Copy assignment keeps the old value of records that should have been overwritten.
* `Verif.Eop.copy_of_moved_counterexample` (C24): Even in the first eighth: a copy of a moved table reads another column's values.
* `Verif.Eop.moveAssign_leak_counterexample` (C24): Move assignment loses the array of its target: after both tables are destroyed, array 0 is still allocated.
* `Verif.Eop.C04.duplicate_counterexample` (C25): A file with the first day twice and the second day missing is reported as complete.
* `Verif.Eop.C04.outside_counterexample` (C25): A repeated day in a one-day request is stored outside the table.
* `Verif.Eop.C04.stale_counterexample` (C25): A short line makes the parser interpret bytes after the end of the line.
* `Verif.SpaceWeather.window_counterexample` (C26): A feed whose window lacks the current day, although its construction succeeded.
* `Verif.SpaceWeather.eof_counterexample` (C27): The file ends two days before the last requested one, yet the status is 0.
* `Verif.SpaceWeather.present_refused_counterexample` (C27): A day that is in the file is refused when the line behind it is not that of the next day.
* `Verif.SpaceWeather.leap_second_counterexample` (C28): Second 86400 and later (which `update` counts as the next day) reads outside the record.
* `Verif.SpaceWeather.failed_update_counterexample` (C29): An unsuccessful update to day 13 (the file has 10, 11, 13) leaves the records of days 10 and 11 in the window of day 4; the next update within day 4 serves wrong values and reports success. A feed that had not been asked for day 13 serves the right ones.
* `Verif.Icgem.read_duplicate_counterexample` (C30): C30, where it fails (1). A repeated pair is counted twice: success is reported though `C(1,0)` was never given and is left at -999.
* `Verif.Icgem.read_order_zero_counterexample` (C30): C30, where it fails (2). With order 0 the coefficient `C(1,1)`, not asked for, is changed to -999.
* `Verif.Icgem.read_outside_counterexample` (C30): C30, where it fails (3). A line whose order exceeds its degree, or whose degree is negative, is stored outside the table.
* `Verif.Icgem.read_degree_zero_counterexample` (C30): C30, where it fails (4). For a table of degree 0 the marker values are stored outside.
* `Verif.Icgem.header_trailing_blank_counterexample` (C32): C32, where it fails (1). When a blank follows the argument, it is stored with it and a normalised model counts as not normalised.
* `Verif.Icgem.header_leftover_counterexample` (C32): C32, where it fails (2). A shorter argument followed by a blank keeps the tail of the old contents of the member.
* `Verif.Icgem.header_bare_keyword_counterexample` (C32): C32, where it fails (3). For a keyword at the very end of its line the argument is taken from bytes behind the terminator.
* `Verif.Icgem.header_tab_counterexample` (C32): C32, where it fails (4). Only blanks separate words, so after a tab the keyword's argument is not isolated from what follows: it is stored together with the tab and the comment.
* `Verif.Filters.setTropo_counterexample` (C34): C34, where it fails. With the linear clock model and any number of beacons above one, setting all troposphere values changes the frequency drift of the first beacon and leaves the troposphere of the last beacon unset.
* `Verif.Attitude.uninitialised_counterexample` (C38): C38, where it fails (1). The constructor reads two records and leaves three uninitialised. If these happen to hold day 0 and the quaternion 100, an epoch between the second and the third record of the file (days 2 and 3) is answered by interpolation between day 0 and day 3, from the value 100 on.
* `Verif.Attitude.first_line_counterexample` (C38): C38, where it fails (2). A first line that cannot be resolved is not noticed by the constructor.
* `Verif.Attitude.mixed_record_counterexample` (C38): C38, where it fails (3). After a line whose quaternion cannot be read, a query fails, but a record made of the new date and the previous quaternion stays in the buffer and is used by the next query: day 50 is answered from the quaternions of days 8 and 8.
* `Verif.Corrections.first_character_counterexample` (C39): C39, where it fails (1). The first character of every number is lost: a digit (day 52 is taken for day 2 and so counts as earlier than day 50; the mass 15 becomes 5) or a sign (-7 becomes 7).
* `Verif.Corrections.later_day_counterexample` (C39): C39, where it fails (2). A later day with a smaller second of day counts as earlier.
* `Verif.Corrections.same_epoch_counterexample` (C39): C39, where it fails (3). A record with exactly the requested epoch is not used.
* `Verif.Corrections.short_line_counterexample` (C39): C39, where it fails (4). An empty line, or one with too few numbers, makes the reader use bytes behind the line.
* `Verif.Stations.missing_tolerated_counterexample` (C40): C40, a disagreement. Stations missing from the file are to be tolerated with `missing_site_is_error = false`, yet the number of estimates is compared with six times the number of *requested* stations: the request is refused although the estimates of the two stations in the file are complete.
* `Verif.Stations.dropped_silently_counterexample` (C40): C40, a disagreement. A station without velocities is dropped silently, with status 0.
* `Verif.Sgode.order_drop_counterexample` (C41): C41, where it fails. The third step is begun with order 3 and rejected once: the order is set to 1 at the first failure (the code tests `ifail < 3` where the method has `ifail > 3`), so it changes by two in one step.
* `Verif.Sgode.uninitialised_ifail_counterexample` (C41): C41, where it fails. The outcome of a step depends on the indeterminate failure counter.
* `Verif.Sgode.zero_tolerance_counterexample` (C42): C42, where it fails. Two zero tolerances are not reported: the test is `eps < 0` and not `eps <= 0`, and the weights become quotients 0/0 (zero in this model, not a number in the code).
* `Verif.Orbit.eigen_round_trip_counterexample` (C46): C46 So the Eigen pair loses the node whenever it differs from the argument of perigee.
* `Verif.Orbit.eigen_disagrees_counterexample` (C47): C47 The Eigen overload places a satellite at the ascending node of a polar orbit over the pole.
* `Verif.Orbit.perifocal_disagrees_counterexample` (C47): C47 By way of the perifocal functions the same satellite is not even at the right distance.
* `Verif.Orbit.perifocal_counterexample` (C48): C48 The matrix is not a rotation, and the inverse conversion does not undo the conversion.
* `Verif.Forces.drag_overloads_counterexample` (C49): C49 In general the overloads differ: the axis of rotation is the third axis of the true equator in one and of the inertial frame in the others.
* `Verif.Forces.drag_dangling_counterexample` (C49): C49 The true-of-date overload reads a temporary that no longer exists: what it returns depends on what is found there.
* `Verif.Forces.srp_zero_coefficient_counterexample` (C50): C50 With a zero coefficient the quotient is 0/0, though the derivative exists.
* `Verif.Forces.point_mass_partials_counterexample` (C51): C51 Along the line to the body the partials are wrong: a satellite at rest one unit from a body two units away feels a gradient of +2, the partials say -11/8.
* `Verif.Gravity.lagrange_one_row_counterexample` (C52): Degree 0 needs a second row all the same: with one row the recursion writes past the buffer.
* `Verif.Gravity.partials_order1_counterexample` (C54): … and with order-1 coefficients `∂ax/∂z` is wrong: degree 1, `C11 = 1`, at `(0, 0, R)` the missing term is `-3` (so the returned entry is off by `3 GM / R³`).
* `Verif.Gravity.partials_symmetry_counterexample` (C54): … and for every model with non-zero `GM / Re³` there is a caller's matrix for which the result is not symmetric.
* `Verif.Gravity.partials_order0_counterexample` (C54): Order 0 refuted: with order 0 and degree at least 1, on arrays of the required size, the order-1 loop reads column 3 of the last row, which lies past the end of the buffer.
* `Verif.Forces.dangling_counterexample` (C57): C57 With something else in the place of the temporary the velocity does not come back.
* `Verif.Forces.gravity_partials_counterexample` (C58): C58 In general they are not: an eighth of a turn and a field along the first Earth-fixed axis.
* `Verif.Forces.density_gradient_counterexample` (C59): C59 So it is not the central difference: a density growing along the third axis.
* `Verif.Pcv.pcv1_ninety_counterexample` (C60): C60, violation at a zenith angle of exactly 90° the table is read one element behind its end, for every antenna.
* `Verif.BeaconTable.load_blank_counterexample` (C61): C61 fails for files with blank lines: the blank line is read as a second copy of the line before it, under a damaged name.
* `Verif.BeaconTable.load_long_counterexample` (C61): C61 fails for over-long lines: they silently end the table.
* `Verif.RfoFit.empty_counterexample` (C62): C62 is false for files without any epoch in range (`n ≥ 2`): a row with value zero and an indeterminate date is still emitted.
* `Verif.RfoFit.every_one_counterexample` (C62): C62 fails for window length one: the date of every row depends on an uninitialised date.
* `Verif.Doppler.unterminated_counterexample` (C63): C63 fails because identifiers are not terminated: if the byte after the stored identifier is not NUL, no count is formed and a second record is stored for the same beacon.
* `Verif.Doppler.repeated_counterexample` (C63): C63 fails for a beacon repeated inside a block: both observations are paired with the one of the block before.
* `Verif.Doppler.one_value_counterexample` (C63): Files with fewer than two observation codes make the code read outside the values.
* `Verif.Atmosphere.Msis.two_instances_counterexample` (C64): C64 is false for two instances. Evaluate an input on one instance and then the same input on a second, new one: the temperature of the second evaluation is computed from the second instance's uninitialised Legendre functions, and any value can come out.
* `Verif.Atmosphere.Msis.near_latitude_counterexample` (C64): C64 is false for latitudes closer than the tolerance. The second evaluation, within the tolerance of the first, uses the Legendre functions of the first; a new instance computes another temperature whenever the latitude terms differ.
* `Verif.Atmosphere.Msis.unset_node_counterexample` (C64): C64 is false at 32.5 km. The temperature returned there is the member `tn3[0]`, which no function writes: whatever the object's storage held when it was created.
* `Verif.Atmosphere.Msis.stale_mix_counterexample` (C64): C64 is false below 72.5 km with switch 14 off. The nitrogen density is then computed from the member `dm28`, which this evaluation does not write.
* `Verif.Atmosphere.splint_two_counterexample` (C65): With two nodes the search fails before the first node: both ends collapse and the constant `1e-30` is returned.
* `Verif.Atmosphere.Exponential.scale_height_row_counterexample` (C66): The row 180–200 km carries a scale height of 29740 km (the published value is 29.740 km), so the density hardly decays there: at every altitude in that layer it is more than 1.9 times the density at 200 km, and it drops by that factor at the boundary.
* `Verif.Web.lost_tail_counterexample` (C69): C69 is false if the last buffered bytes cannot be written. `fclose` reports it, the result is ignored: the value is 0 and the file is incomplete.
* `Verif.Web.unremoved_counterexample` (C69): C69 is false if the partial file cannot be removed (the result of `remove` is ignored too).
* `Verif.Web.directory_counterexample` (C69): A directory of that name is deleted, without `force`, if it is empty: it does not count as an existing file, cannot be opened, and is then removed.
* `Verif.Web.unopened_counterexample` (C69): With `force`, a previous file that cannot be opened for writing is deleted although nothing was transferred.
* `Verif.Spice.text_pck_counterexample` (C70): C70 is false for a text PCK requested through `load_if_unloaded_pck` (as `get_sun_moon_GM` does with the constants file, src/planets/cspice_utils.cpp:77-80): it is loaded at every call.
* `Verif.Spice.prefix_counterexample` (C70): C70 is false if a loaded name continues the requested one: the kernel is not loaded.
* `Verif.Spice.long_name_counterexample` (C70): C70 is false for names that do not fit the buffer: they never compare equal.
* `Verif.Poly.move_counterexample` (C71): C71 is false after a move. The source and the target share the storage, and destroying both frees it twice.
* `Verif.Poly.move_shares_counterexample` (C71): After a move, writing to one object changes the other.
* `Verif.Poly.move_assign_counterexample` (C71): The move assignment, used on a temporary, leaves a freed block behind: using the target is undefined behaviour.
* `Verif.Poly.constant_leak_counterexample` (C71): The storage of a polynomial of order 0 is never released.
* `Verif.SunMoon.curtis_argument_counterexample` (C72): The unit of the argument. The header (src/planetpos.hpp:104-110) documents the argument of `sun_vector_curtis` as Julian centuries, like that of `sun_vector_vallado`. The series advances by one day's motion per unit, so the argument is in days, as the overload for dates passes it (src/planetpos.hpp:170-172).
* `Verif.Yaml.overflow_counterexample` (C73): C73 is false for strings that do not fit: `strcpy` writes past the buffer.
* `Verif.Yaml.scalar_root_counterexample` (C73): C73 is false for three keys if the document is a scalar: an exception leaves the function.
* `Verif.Orbit.equatorial_counterexample` (C76): C76, outside the hypotheses: for an equatorial orbit the vector to the node is divided by zero, although the derivative with respect to the inclination exists.
* `Verif.Rinex.two_lines_counterexample` (C78): C78, a disagreement. Of two lines of scale factors only the last counts: the factor 100 of C2 is lost.
* `Verif.Rinex.all_codes_counterexample` (C78): C78, a disagreement. A blank number of codes means all codes, but the columns of the codes are read nevertheless: blanks are skipped up to the label, whose first letter is no code. The header is refused.
* `Verif.Rinex.no_line_counterexample` (C78): C78, a disagreement. A header without a line of scale factors (all factors 1) is refused.
* `Verif.Sgode.stale_psi_counterexample` (C79): C79, where it fails. After a rejection at order one that returns to the size of the step before (here: doubled to 1, halved to 1/2) the code does not count the steps of equal size anew (the method sets `ns` to zero), so that `psi` keeps the size of the rejected attempt: after the second step, from 1/2 to 1, `psi(0)` is 1 and the interpolated derivative at 1/2 is 31/20, while the derivative used there was 1/10.
* `Verif.Sgode.stale_v_counterexample` (C79): C79, where it fails. Orders of nine steps: 1, 2, 3, 4, 5, 4, 3, 3, 4; the last five are of size 1. The order is lowered at the sixth step, the second of that size, and raised again at the eighth: the code updates the entries of `v` along the diagonal as if they had not been updated since. The ninth step then is not the Adams–Moulton formula `h (251 f₉ + 646 f₈ − 264 f₇ + 106 f₆ − 19 f₅) / 720`.
* `Verif.Variational.sun_partials_counterexample` (C80): C80, where it fails. The partials of the acceleration by the Sun are not in the matrix: for a displacement towards the Sun the acceleration grows, the derivative of the column is zero.
* `Verif.Variational.area_partials_counterexample` (C80): C80, where it fails. The projected area depends on the direction of the velocity, which is not in the partials: turning the velocity towards the normal of the plate increases the deceleration along the first axis; the derivative of the column has no such component.
* `Verif.Variational.utc_seconds_counterexample` (C81): C81, where it fails. At noon the day handed over is the day before, with 129 563 seconds: the second test of the code compares with 1 where 0 is meant.
* `Verif.Variational.sun_acceleration_counterexample` (C83): C83, where it fails. A satellite one kilometre from the geocentre, the Sun at three kilometres in the same direction.
* `Verif.Eop.Interp.failure_counterexample` (C84): C84, where it fails. Success is reported even when all eight interpolations fail: the status of `interpolate_lagrange` is not looked at, and the parameters are what the record happened to hold.
* `Verif.Eop.Interp.omega_counterexample` (C84): C84, where it fails. The rotation rate is never interpolated: the tidal effect is added to what the record held before the call.
* `Verif.Eop.Interp.outside_table_counterexample` (C85): C85, where it fails. No date is ever refused, whatever the table covers: the status is 0 and the pole that of an unset record.
* `Verif.Orbit.montenbruck_counterexample` (C87): The alternative after Montenbruck and Gill divides by `a` and multiplies by `a` again where it should divide by `a²`; on an ellipse of semi-major axis 4 (and eccentricity 3/5) its true anomaly is on the wrong side of the orbit, and the elements do not give the position back.
* `Verif.Orbit.ad_counterexample` (C88): On the half plane of the vernal equinox the right ascension returned is the full turn, not zero.
* `Verif.Forces.conical_annular_counterexample` (C89): Where the Earth is seen inside the solar disc (far behind it on the axis), `conical_shadow` takes the arc cosine of a number above 1, or of 0/0: the result is not a number, though a part of the Sun is visible.
* `Verif.Forces.vallado_penumbra_counterexample` (C90): The sign error makes the penumbra vanish: no satellite an Earth radius or more behind the Earth is ever reported in penumbra, and one that is just an Earth radius off the axis, at any distance of an Earth radius or more behind, is in the penumbra but reported in full light.
* `Verif.Forces.vallado_umbra_counterexample` (C90): On the axis behind the Earth, from the distance where the penumbra has its mirrored apex up to the tip of the umbra, a satellite is in the umbra but reported in full light.
* `Verif.Filters.Rfo.unreadable_first_counterexample` (C91): A first file whose header cannot be read ends the program: the exception of the constructor leaves `get_starting_rfo`, which is declared `noexcept`, so the handler of the caller is never reached.
* `Verif.Filters.Rfo.empty_block_counterexample` (C91): A block without beacons is read outside the array of observations.
* `Verif.Filters.Rfo.missing_counterexample` (C91): A block in which the frequency offset is missing for all beacons is used as if the mark for a missing value were measured: of two blocks, the second without value, both enter the filter.
* `Verif.Atmosphere.Msis.ghp7_not_searched_counterexample` (C92): C92 (what is missing). The altitude is not searched: whatever the pressure asked for, `ghp7` leaves the atmosphere at the altitude of the input, and returns 0 if the pressure there happens to be the one asked for. Proved after any history on the instance, as for `gtd7_history_partial`.
* `Verif.Atmosphere.Msis.ghp7_two_pressures_counterexample` (C92): For every input, at most one of the pressures of 1 and 0.1 millibar is found, although both occur in the atmosphere.
* `Verif.Pod.pair_same_epoch_counterexample` (C96): C96 Two observations of a beacon in one block give a count over no time at all: the program divides by zero.
* `Verif.Pod.pair_missing_counterexample` (C96): C96 The values of the observations are not looked at: with `none` for a value missing in the file, counts are formed from missing values (in the code the sentinel `OBSERVATION_VALUE_MISSING` is subtracted as if it were a phase).
* `Verif.Pod.uobs_iono_counterexample` (C98): C98 The measured range rate is not free of the ionosphere: the correction of both phases is added where it has to be subtracted, which doubles the effect of a change of the electron content (the effect on the uncorrected 2 GHz channel is half of it).
* `Verif.Pod.oc_counterexample` (C99): C99 The residual of an error-free count does not vanish, whichever the sign of the phases: with phases growing with the distance a receiver off the nominal frequency leaves twice its offset (the sign of the whole equation was changed instead of that of the count); with falling phases twice the range rate remains.

### 4.2 Found while reading, recorded at the definitions

These are facts about the source that the model follows literally, or that lie outside the model.

* `filters/filters.hpp`: the `set_*_sigma` functions store their argument as variance, without squaring it.
* `integrators/sgode_step.cpp`: the member `ifail` is read before it is set when a step is not the first; `ifail < 3` stands where the published method has `ifail > 3`; `const auto tau` keeps an unevaluated expression.
* `integrators/sgode_de.cpp`: `isnold` is written but never read; `told` and `delsgn` are uninitialised before the first call.
* `astrodynamics/perifocal.cpp`: the last row of `perifocal2equatorial_matrix` uses the node for the argument of perigee.
* `astrodynamics/state2kepler.cpp`: the Eigen overload of `elements2state` exchanges node and argument of perigee.
* `astrodynamics/drag.cpp`: the true-of-date overload keeps an unevaluated product (`vrel`) that refers to a destroyed temporary.
* `itrs2gcrs.cpp`: `rc2ti` in `ycel2ter` and `yter2cel` is such a product, too.
* `relativity/relativistic_clock_correction.cpp`: the J2 term uses the geodetic latitude.
* `variational_equations.cpp`: the density model gets inertial coordinates; the local solar time is never set; asserts have side effects, so a build with `NDEBUG` drops calls.
* `egravity.hpp`: the wrappers call the recursion inside `assert`.
* `gravity/lagrange_poly.cpp`: the `DEBUG` row-wise version has a misplaced parenthesis (not modelled).
* `var/celestrak_swdata.cpp`: the loops that skip commas run past the terminator of short lines; an empty first column of a field triple is counted wrongly; the file position is -1 when the last line has no newline.
* `satellites/jason3_quaternions.cpp`: the error status of the first line is `i*10`, which is 0.
* `rinex/fit_rfo.cpp`: the last, incomplete window is always wrong (division by zero or access outside the buffer); its time difference is in days where the others are in seconds.
* `doris/extract_doppler_count.cpp`: identifiers are compared with `strcmp` though not terminated; values 0 and 1 are used whatever the observation codes are.
* `atmosphere/nrlmsise00*.cpp`: caches are function-local statics shared by all instances and compared with tolerance 1e-6; `abs(sw[1]) < 0` is never true; `tn3[0]` is never written; `dm28` is stale with switch 14 off; `mass` 0 or an unknown value leaves the caller's output unchanged; `glob7s` reads `p[39]` once for the coefficient of a term that is zero in the tables.
* `atmosphere/exponential_atmospheric_model.cpp`: the scale height of one row is 29740 instead of 29.740.
* `clock` polynomial models: the copy assignment does not compile when it is used; moves share storage.
* `planets/cspice_utils.cpp`: kernel names are compared with `strncmp` over the length of the requested one.

## 5. Axioms per theorem

Obtained with `#print axioms` for every theorem named in `MANIFEST.json`.

Every theorem uses a subset of `propext`, `Classical.choice`, `Quot.sound`.

| claim | theorem | axioms |
|---|---|---|
| C01 | `Verif.EnumBitset.check_run` | propext, Classical.choice, Quot.sound |
| C01 | `Verif.EnumBitset.check_other` | propext, Classical.choice, Quot.sound |
| C01 | `Verif.EnumBitset.isClean_run` | propext, Classical.choice, Quot.sound |
| C01 | `Verif.EnumBitset.eq_run_iff` | propext, Classical.choice, Quot.sound |
| C01 | `Verif.EnumBitset.ne_run_iff` | propext, Classical.choice, Quot.sound |
| C01 | `Verif.EnumBitset.check_overlap_counterexample` | propext, Quot.sound |
| C01 | `Verif.EnumBitset.check_zero` | propext, Quot.sound |
| C02 | `Verif.EnumBitset.ofList_eq_run` | propext, Quot.sound |
| C02 | `Verif.EnumBitset.check_ofList` | propext, Quot.sound |
| C02 | `Verif.EnumBitset.ofList_eq_iff` | propext, Quot.sound |
| C03 | `Verif.Mat2D.offset_lt` | propext, Quot.sound |
| C03 | `Verif.Mat2D.offset_inj` | propext, Quot.sound |
| C03 | `Verif.Mat2D.offset_surj` | propext, Quot.sound |
| C03 | `Verif.Mat2D.trap_row_contiguous` | propext, Quot.sound |
| C03 | `Verif.Mat2D.runSets_spec` | propext, Quot.sound |
| C03 | `Verif.Mat2D.fillWith_spec` | propext, Quot.sound |
| C03 | `Verif.Mat2D.fillWith_outside` | propext, Quot.sound |
| C03 | `Verif.Mat2D.trap_numElements_closed` | propext, Quot.sound |
| C03 | `Verif.Mat2D.trap_upper_alias` | propext, Quot.sound |
| C03 | `Verif.Mat2D.trap_upper_out_of_bounds` | propext, Quot.sound |
| C04 | `Verif.Mat2D.offset_lt` | propext, Quot.sound |
| C04 | `Verif.Mat2D.offset_inj` | propext, Quot.sound |
| C04 | `Verif.Mat2D.offset_surj` | propext, Quot.sound |
| C04 | `Verif.Mat2D.dense_slices` | none |
| C04 | `Verif.Mat2D.dense_numElements` | none |
| C04 | `Verif.Mat2D.runSets_spec` | propext, Quot.sound |
| C04 | `Verif.Mat2D.fillWith_spec` | propext, Quot.sound |
| C04 | `Verif.Mat2D.fillWith_outside` | propext, Quot.sound |
| C05 | `Verif.Mat2D.run_refines` | propext, Classical.choice, Quot.sound |
| C05 | `Verif.Mat2D.no_leak` | propext, Classical.choice, Quot.sound |
| C05 | `Verif.Mat2D.no_ub` | propext, Classical.choice, Quot.sound |
| C05 | `Verif.Mat2D.moveAssign_ub` | propext, Quot.sound |
| C05 | `Verif.Mat2D.moveAssign_leaks` | propext |
| C06 | `Verif.Harmonic.addr_inBuffer` | propext, Quot.sound |
| C06 | `Verif.Harmonic.addr_inj` | propext, Quot.sound |
| C06 | `Verif.Harmonic.addr_surj` | propext, Classical.choice, Quot.sound |
| C06 | `Verif.Harmonic.runStores_spec` | propext, Classical.choice, Quot.sound |
| C06 | `Verif.Harmonic.addr_S_zero` | propext, Quot.sound |
| C07 | `Verif.Harmonic.step_safe` | propext, Classical.choice, Quot.sound |
| C07 | `Verif.Harmonic.no_ub` | propext, Classical.choice, Quot.sound |
| C07 | `Verif.Harmonic.access_ok` | propext, Classical.choice, Quot.sound |
| C07 | `Verif.Harmonic.no_leak_partial` | propext, Classical.choice, Quot.sound |
| C07 | `Verif.Harmonic.shrink_leaks_counterexample` | propext, Quot.sound |
| C07 | `Verif.Harmonic.moveAssign_leaks_counterexample` | propext, Quot.sound |
| C07 | `Verif.Harmonic.selfMove_leaks_counterexample` | propext, Quot.sound |
| C07 | `Verif.Harmonic.default_resize_zero_counterexample` | propext, Quot.sound |
| C08 | `Verif.Factorial.factorial_eq` | propext, Quot.sound |
| C08 | `Verif.Factorial.factorialRatio_mul` | propext, Classical.choice, Quot.sound |
| C08 | `Verif.Factorial.factorialRatio_eq_div` | propext, Classical.choice, Quot.sound |
| C08 | `Verif.Factorial.factorialRatio_comm` | propext |
| C08 | `Verif.Factorial.factorialRatio_lt_counterexample` | propext, Classical.choice, Quot.sound |
| C08 | `Verif.Factorial.factorial_wrap` | propext |
| C09 | `Verif.Harmonic.denormalize_spec` | propext, Classical.choice, Quot.sound |
| C09 | `Verif.Harmonic.denormalize_idem` | propext, Classical.choice, Quot.sound |
| C09 | `Verif.Harmonic.denormalize_bad_order` | propext, Classical.choice, Quot.sound |
| C09 | `Verif.Harmonic.denormalize_degree_zero` | propext, Classical.choice, Quot.sound |
| C09 | `Verif.Harmonic.denormalize_partial_order_sticks` | propext, Classical.choice, Quot.sound |
| C10 | `Verif.SystemInfo.ofChar_toChar` | none |
| C10 | `Verif.SystemInfo.toChar_ofChar` | none |
| C10 | `Verif.SystemInfo.ofChar_isSome` | propext, Quot.sound |
| C10 | `Verif.SystemInfo.make_valid` | propext, Quot.sound |
| C10 | `Verif.SystemInfo.make_of_valid` | propext |
| C10 | `Verif.SystemInfo.make_none_iff` | propext, Classical.choice, Quot.sound |
| C10 | `Verif.SystemInfo.make_wraps_counterexample` | none |
| C10 | `Verif.SystemInfo.toStr_inj` | propext, Quot.sound |
| C10 | `Verif.SystemInfo.eq_iff` | propext, Quot.sound |
| C100 | `Verif.Pod.design_partial` | propext, Classical.choice, Quot.sound |
| C100 | `Verif.Pod.design_drag_counterexample` | propext, Classical.choice, Quot.sound |
| C100 | `Verif.Pod.design_random_counterexample` | propext, Classical.choice, Quot.sound |
| C101 | `Verif.Pod.sigma_grows` | propext, Classical.choice, Quot.sound |
| C101 | `Verif.Pod.sigma_counterexample` | propext, Classical.choice, Quot.sound |
| C102 | `Verif.Pod.transition_counterexample` | propext, Classical.choice, Quot.sound |
| C102 | `Verif.Pod.transition_not_solution_counterexample` | propext, Classical.choice, Quot.sound |
| C102 | `Verif.Pod.covariance_wiped` | propext, Classical.choice, Quot.sound |
| C102 | `Verif.Pod.velocity_never_corrected` | propext, Classical.choice, Quot.sound |
| C102 | `Verif.Pod.epoch_partial` | propext, Classical.choice, Quot.sound |
| C103 | `Verif.Pod.ecc_norm` | propext, Classical.choice, Quot.sound |
| C103 | `Verif.Pod.start_spec` | propext, Classical.choice, Quot.sound |
| C103 | `Verif.Pod.integrate_continues_partial` | propext, Classical.choice, Quot.sound |
| C103 | `Verif.Pod.integrate_reached` | propext, Classical.choice, Quot.sound |
| C104 | `Verif.Pod.prepare_ok` | propext, Classical.choice, Quot.sound |
| C104 | `Verif.Pod.prepare_code` | propext, Classical.choice, Quot.sound |
| C104 | `Verif.Pod.antenna_distance` | propext, Classical.choice, Quot.sound |
| C104 | `Verif.Pod.prepare_failure` | propext, Classical.choice, Quot.sound |
| C104 | `Verif.Pod.coordinates_iff` | propext, Classical.choice, Quot.sound |
| C104 | `Verif.Pod.arp2ion_spec` | propext, Classical.choice, Quot.sound |
| C105 | `Verif.Pod.massCog_spec` | propext, Classical.choice, Quot.sound |
| C105 | `Verif.Pod.massCog_file` | propext, Classical.choice, Quot.sound |
| C105 | `Verif.Pod.l3pco_eq` | propext, Classical.choice, Quot.sound |
| C105 | `Verif.Pod.l3pco_partial` | propext, Classical.choice, Quot.sound |
| C105 | `Verif.Pod.l3pco_counterexample` | propext, Classical.choice, Quot.sound |
| C106 | `Verif.Pod.tropoGpt_angle` | propext, Classical.choice, Quot.sound |
| C106 | `Verif.Pod.tropoVmf_partial` | propext, Classical.choice, Quot.sound |
| C106 | `Verif.Pod.tropoVmf_counterexample` | propext, Classical.choice, Quot.sound |
| C107 | `Verif.Filters.batch_normal` | propext, Classical.choice, Quot.sound |
| C107 | `Verif.Filters.batch_perm` | propext, Classical.choice, Quot.sound |
| C107 | `Verif.Filters.batch_least_squares` | propext, Classical.choice, Quot.sound |
| C108 | `Verif.RfoFit.fit_least_squares_partial` | propext, Classical.choice, Quot.sound |
| C108 | `Verif.RfoFit.fit_exact_partial` | propext, Classical.choice, Quot.sound |
| C108 | `Verif.RfoFit.room_partial` | propext, Classical.choice, Quot.sound |
| C108 | `Verif.RfoFit.room_counterexample` | propext, Classical.choice, Quot.sound |
| C108 | `Verif.RfoFit.no_data_counterexample` | propext, Classical.choice, Quot.sound |
| C108 | `Verif.RfoFit.fit_failure` | propext, Classical.choice, Quot.sound |
| C109 | `Verif.Icgem.load_complete_partial` | propext, Classical.choice, Quot.sound |
| C109 | `Verif.Icgem.load_bad_degree` | propext, Classical.choice, Quot.sound |
| C109 | `Verif.Icgem.load_no_file` | propext, Classical.choice, Quot.sound |
| C109 | `Verif.Icgem.load_degree_1_counterexample` | propext, Classical.choice, Quot.sound |
| C11 | `Verif.SystemInfo.nominal_zero` | propext, Classical.choice, Quot.sound |
| C11 | `Verif.SystemInfo.nominal_law` | propext, Classical.choice, Quot.sound |
| C11 | `Verif.SystemInfo.nominal_strictMono` | propext, Classical.choice, Quot.sound |
| C11 | `Verif.SystemInfo.nominal_ratio` | propext, Classical.choice, Quot.sound |
| C11 | `Verif.SystemInfo.nominal_pos` | propext, Classical.choice, Quot.sound |
| C110 | `Verif.Gravity.Debug.debug_low_orders_partial` | propext, Classical.choice, Quot.sound |
| C110 | `Verif.Gravity.Debug.debug_rejects` | propext, Quot.sound |
| C110 | `Verif.Gravity.Debug.debug_sectorial_counterexample` | propext, Classical.choice, Quot.sound |
| C111 | `Verif.Atmosphere.Msis.plg_legendre` | propext, Classical.choice, Quot.sound |
| C111 | `Verif.Atmosphere.Msis.longitude_turn` | propext, Classical.choice, Quot.sound |
| C111 | `Verif.Atmosphere.Msis.pole_same` | propext, Classical.choice, Quot.sound |
| C112 | `Verif.Variational.density_inputs_partial` | propext, Classical.choice, Quot.sound |
| C112 | `Verif.Variational.ms_close` | propext, Classical.choice, Quot.sound |
| C112 | `Verif.Variational.local_time_unset` | propext, Classical.choice, Quot.sound |
| C112 | `Verif.Variational.local_time_counterexample` | propext, Classical.choice, Quot.sound |
| C112 | `Verif.Variational.celestial_place_counterexample` | propext, Classical.choice, Quot.sound |
| C113 | `Verif.Sgode.step_memory_safe` | propext, Classical.choice, Quot.sound |
| C113 | `Verif.Sgode.intrp_memory_safe` | propext, Classical.choice, Quot.sound |
| C113 | `Verif.Sgode.places_distinct` | propext, Classical.choice, Quot.sound |
| C114 | `Verif.Variational.gravity_from_file_partial` | propext, Classical.choice, Quot.sound |
| C114 | `Verif.Variational.coefficients_used` | propext, Classical.choice, Quot.sound |
| C114 | `Verif.Variational.calls_agree` | propext, Classical.choice, Quot.sound |
| C114 | `Verif.Variational.toM3_mulVec` | propext, Classical.choice, Quot.sound |
| C114 | `Verif.Variational.gravity_zonal_counterexample` | propext, Classical.choice, Quot.sound |
| C114 | `Verif.Variational.gravity_degree_1_counterexample` | propext, Classical.choice, Quot.sound |
| C115 | `Verif.Atmosphere.Profile.upper_temperature` | propext, Classical.choice, Quot.sound |
| C115 | `Verif.Atmosphere.Profile.upper_profile` | propext, Classical.choice, Quot.sound |
| C115 | `Verif.Atmosphere.Profile.caps_of_pos` | propext, Classical.choice, Quot.sound |
| C115 | `Verif.Atmosphere.Profile.lower_profile` | propext, Classical.choice, Quot.sound |
| C115 | `Verif.Atmosphere.Profile.whole_temperature` | propext, Classical.choice, Quot.sound |
| C115 | `Verif.Atmosphere.Profile.nodes_continue` | propext, Classical.choice, Quot.sound |
| C115 | `Verif.Atmosphere.Profile.profile_gap_counterexample` | propext, Classical.choice, Quot.sound |
| C116 | `Verif.Float.double_mean_between` | propext, Classical.choice, Quot.sound |
| C116 | `Verif.Float.double_variance_nonneg` | propext, Classical.choice, Quot.sound |
| C116 | `Verif.Float.double_squares_grow` | propext, Classical.choice, Quot.sound |
| C116 | `Verif.Float.double_equal_values` | propext, Classical.choice, Quot.sound |
| C117 | `Verif.Float.denormalize_accuracy_partial` | propext, Classical.choice, Quot.sound |
| C117 | `Verif.Float.product_le_of_degree` | propext, Classical.choice, Quot.sound |
| C117 | `Verif.Float.denormalize_overflow_counterexample` | propext, Classical.choice, Quot.sound |
| C117 | `Verif.Float.denormalize_sectorial_counterexample` | propext, Classical.choice, Quot.sound |
| C118 | `Verif.Float.l1_epoch_partial` | propext, Classical.choice, Quot.sound |
| C118 | `Verif.Float.l2_epoch_partial` | propext, Classical.choice, Quot.sound |
| C118 | `Verif.Float.clock_offset_counterexample` | propext, Classical.choice, Quot.sound |
| C118 | `Verif.Float.l21_offset_counterexample` | propext, Classical.choice, Quot.sound |
| C119 | `Verif.Float.orientation_date_partial` | propext, Classical.choice, Quot.sound |
| C119 | `Verif.Float.orientation_date_mono` | propext, Classical.choice, Quot.sound |
| C119 | `Verif.Float.date_resolution_counterexample` | propext, Classical.choice, Quot.sound |
| C12 | `Verif.SystemInfo.iono_removed` | propext, Classical.choice, Quot.sound |
| C12 | `Verif.SystemInfo.iono_removed_beacon` | propext, Classical.choice, Quot.sound |
| C12 | `Verif.SystemInfo.iono_none` | propext, Classical.choice, Quot.sound |
| C12 | `Verif.SystemInfo.phase_center` | propext, Classical.choice, Quot.sound |
| C12 | `Verif.SystemInfo.gamma_ne_one` | propext, Classical.choice, Quot.sound |
| C120 | `Verif.Float.norm_ge_component` | propext, Classical.choice, Quot.sound |
| C120 | `Verif.Float.node_number_partial` | propext, Classical.choice, Quot.sound |
| C120 | `Verif.Float.declination_number_partial` | propext, Classical.choice, Quot.sound |
| C120 | `Verif.Float.perigee_nan_counterexample` | propext, Classical.choice, Quot.sound |
| C120 | `Verif.Float.circular_nan_counterexample` | propext, Classical.choice, Quot.sound |
| C120 | `Verif.Float.right_ascension_nan_counterexample` | propext, Classical.choice, Quot.sound |
| C121 | `Verif.Float.cylinder_margin_partial` | propext, Classical.choice, Quot.sound |
| C121 | `Verif.Float.margin_metres` | propext, Classical.choice, Quot.sound |
| C121 | `Verif.Float.vallado_nan_counterexample` | propext, Classical.choice, Quot.sound |
| C121 | `Verif.Float.vallado_exact_dark` | propext, Classical.choice, Quot.sound |
| C121 | `Verif.Float.bernese_nan_counterexample` | propext, Classical.choice, Quot.sound |
| C121 | `Verif.Float.bernese_exact_dark` | propext, Classical.choice, Quot.sound |
| C121 | `Verif.Float.conical_nan_counterexample` | propext, Classical.choice, Quot.sound |
| C122 | `Verif.Float.time_moves` | propext, Classical.choice, Quot.sound |
| C122 | `Verif.Float.step_ends_partial` | propext, Classical.choice, Quot.sound |
| C122 | `Verif.Float.target_ahead` | propext, Classical.choice, Quot.sound |
| C122 | `Verif.Float.last_point_partial` | propext, Classical.choice, Quot.sound |
| C122 | `Verif.Float.nan_derivative_hangs_counterexample` | propext, Classical.choice, Quot.sound |
| C122 | `Verif.Float.past_output_counterexample` | propext, Classical.choice, Quot.sound |
| C122 | `Verif.Float.accepted_within` | propext, Classical.choice, Quot.sound |
| C122 | `Verif.Float.first_size` | propext, Classical.choice, Quot.sound |
| C122 | `Verif.Float.shrink_size` | propext, Classical.choice, Quot.sound |
| C123 | `Verif.Atmosphere.Msis.ccor_transition` | propext, Classical.choice, Quot.sound |
| C123 | `Verif.Atmosphere.Msis.ccor_limit` | propext, Classical.choice, Quot.sound |
| C123 | `Verif.Atmosphere.Msis.ccor2_transition` | propext, Classical.choice, Quot.sound |
| C123 | `Verif.Atmosphere.Msis.ccor2_between` | propext, Classical.choice, Quot.sound |
| C123 | `Verif.Atmosphere.Msis.ccor2_reversed` | propext, Classical.choice, Quot.sound |
| C123 | `Verif.Atmosphere.Msis.scale_lengths` | propext, Classical.choice, Quot.sound |
| C123 | `Verif.Atmosphere.Msis.dnet_powerSum` | propext, Classical.choice, Quot.sound |
| C123 | `Verif.Atmosphere.Msis.dnet_bounds` | propext, Classical.choice, Quot.sound |
| C123 | `Verif.Atmosphere.Msis.dnet_one_zero_partial` | propext, Classical.choice, Quot.sound |
| C123 | `Verif.Atmosphere.Msis.g0_bounds` | propext, Classical.choice, Quot.sound |
| C123 | `Verif.Atmosphere.Msis.sg0_sum` | propext, Classical.choice, Quot.sound |
| C123 | `Verif.Atmosphere.Msis.sg0_bounds` | propext, Classical.choice, Quot.sound |
| C123 | `Verif.Atmosphere.Msis.magnetic_index_bounds` | propext, Classical.choice, Quot.sound |
| C123 | `Verif.Atmosphere.Msis.daily_index_bounds` | propext, Classical.choice, Quot.sound |
| C123 | `Verif.Atmosphere.Msis.response_tables` | propext, Classical.choice, Quot.sound |
| C123 | `Verif.Atmosphere.Msis.flux_factors` | propext, Classical.choice, Quot.sound |
| C123 | `Verif.Atmosphere.Msis.dnet_vanishing_counterexample` | propext, Classical.choice, Quot.sound |
| C123 | `Verif.Atmosphere.Msis.constant_history_counterexample` | propext, Classical.choice, Quot.sound |
| C124 | `Verif.Atmosphere.Msis.gtd7_request_partial` | propext, Classical.choice, Quot.sound |
| C124 | `Verif.Atmosphere.Msis.gts7_request` | propext, Classical.choice, Quot.sound |
| C124 | `Verif.Atmosphere.Msis.gts7_left` | propext, Classical.choice, Quot.sound |
| C124 | `Verif.Atmosphere.Msis.gtdMix_request` | propext, Classical.choice, Quot.sound |
| C124 | `Verif.Atmosphere.Msis.nitrogen_zero` | propext, Classical.choice, Quot.sound |
| C124 | `Verif.Atmosphere.Msis.nitrogen_request_counterexample` | propext, Classical.choice, Quot.sound |
| C125 | `Verif.Sgode.next_call_accepted` | propext, Classical.choice, Quot.sound |
| C125 | `Verif.Sgode.direction_kept` | propext, Classical.choice, Quot.sound |
| C125 | `Verif.Sgode.onward_continues` | propext, Classical.choice, Quot.sound |
| C125 | `Verif.Sgode.turning_restarts` | propext, Classical.choice, Quot.sound |
| C125 | `Verif.Sgode.two_calls_partial` | propext, Classical.choice, Quot.sound |
| C125 | `Verif.Sgode.step_refuses_tiny` | propext, Quot.sound |
| C125 | `Verif.Sgode.continue_after_stop_counterexample` | propext, Classical.choice, Quot.sound |
| C126 | `Verif.Atmosphere.Msis.densities_fall` | propext, Classical.choice, Quot.sound |
| C126 | `Verif.Atmosphere.Msis.anomalous_layer` | propext, Classical.choice, Quot.sound |
| C127 | `Verif.Script.Fetch.fetch_covers_iff` | propext, Classical.choice, Quot.sound |
| C127 | `Verif.Script.Fetch.fetch_finds` | propext, Classical.choice, Quot.sound |
| C127 | `Verif.Script.Fetch.default_limit` | propext, Quot.sound |
| C127 | `Verif.Script.Fetch.sorted_two` | propext |
| C127 | `Verif.Script.Fetch.first_day_counterexample` | propext, Quot.sound |
| C127 | `Verif.Script.Fetch.silent_counterexample` | propext, Classical.choice, Quot.sound |
| C127 | `Verif.Script.Fetch.sorted_counterexample` | none |
| C127 | `Verif.Script.Fetch.put_spec` | propext, Classical.choice, Quot.sound |
| C127 | `Verif.Script.Fetch.first_guess` | propext, Classical.choice, Quot.sound |
| C128 | `Verif.Script.Bulletin.section_iff` | propext, Quot.sound |
| C128 | `Verif.Script.Bulletin.merge_iff` | propext, Quot.sound |
| C128 | `Verif.Script.Bulletin.line_words` | propext, Classical.choice, Quot.sound |
| C128 | `Verif.Script.Bulletin.line_length` | propext, Classical.choice, Quot.sound |
| C128 | `Verif.Script.Bulletin.wide_counterexample` | propext, Classical.choice, Quot.sound |
| C128 | `Verif.Script.Bulletin.unreadable_counterexample` | propext, Classical.choice, Quot.sound |
| C128 | `Verif.Script.Bulletin.columns_counterexample` | propext, Classical.choice, Quot.sound |
| C129 | `Verif.Script.Log.parse_block` | propext, Classical.choice, Quot.sound |
| C129 | `Verif.Script.Log.header_recognised` | propext, Classical.choice, Quot.sound |
| C129 | `Verif.Script.Log.antennas_listed` | propext, Classical.choice, Quot.sound |
| C129 | `Verif.Script.Log.height_decimal` | propext, Quot.sound |
| C129 | `Verif.Script.Log.height_whole` | propext, Classical.choice, Quot.sound |
| C129 | `Verif.Script.Log.last_part_counterexample` | propext, Classical.choice, Quot.sound |
| C129 | `Verif.Script.Log.no_part_counterexample` | propext, Classical.choice, Quot.sound |
| C129 | `Verif.Script.Log.blanks_counterexample` | propext, Classical.choice, Quot.sound |
| C129 | `Verif.Script.Log.header4_counterexample` | propext, Classical.choice, Quot.sound |
| C129 | `Verif.Script.Log.block4_counterexample` | propext, Classical.choice, Quot.sound |
| C129 | `Verif.Script.Log.block3_counterexample` | propext, Classical.choice, Quot.sound |
| C129 | `Verif.Script.Log.short_height_counterexample` | propext, Quot.sound |
| C129 | `Verif.Script.Log.millimetre_counterexample` | propext, Classical.choice, Quot.sound |
| C129 | `Verif.Script.Log.first_line_counterexample` | propext, Classical.choice, Quot.sound |
| C13 | `Verif.Rinex.header_consistent` | propext, Classical.choice, Quot.sound |
| C13 | `Verif.Rinex.header_stations_exact` | propext, Classical.choice, Quot.sound |
| C130 | `Verif.Script.Gfc.matchAt_iff` | propext, Classical.choice, Quot.sound |
| C130 | `Verif.Script.Gfc.sub_chars` | propext, Classical.choice, Quot.sound |
| C130 | `Verif.Script.Gfc.sub_eq_iff` | propext, Classical.choice, Quot.sound |
| C130 | `Verif.Script.Gfc.words_sub` | propext, Classical.choice, Quot.sound |
| C130 | `Verif.Script.Gfc.sub_number` | propext, Classical.choice, Quot.sound |
| C130 | `Verif.Script.Gfc.convert_file` | propext, Classical.choice, Quot.sound |
| C130 | `Verif.Script.Gfc.coefficients_read` | propext, Classical.choice, Quot.sound |
| C130 | `Verif.Script.Gfc.unconverted_refused` | propext, Classical.choice, Quot.sound |
| C130 | `Verif.Script.Gfc.constant_counterexample` | propext, Classical.choice, Quot.sound |
| C130 | `Verif.Script.Gfc.whole_counterexample` | propext, Classical.choice, Quot.sound |
| C130 | `Verif.Script.Gfc.endless_counterexample` | propext, Classical.choice, Quot.sound |
| C131 | `Verif.Forces.Passes.program_lists` | propext, Quot.sound |
| C131 | `Verif.Forces.Passes.count_spec` | propext, Quot.sound |
| C131 | `Verif.Forces.Passes.passes_shadow` | propext, Classical.choice, Quot.sound |
| C131 | `Verif.Forces.Passes.passes_umbra_partial` | propext, Classical.choice, Quot.sound |
| C131 | `Verif.Forces.Passes.umbra_starts` | propext, Classical.choice, Quot.sound |
| C131 | `Verif.Forces.Passes.newest_pass` | propext, Classical.choice, Quot.sound |
| C131 | `Verif.Forces.Passes.extra_counterexample` | propext, Classical.choice, Quot.sound |
| C131 | `Verif.Forces.Passes.first_counterexample` | propext, Classical.choice, Quot.sound |
| C131 | `Verif.Forces.Passes.many_counterexample` | propext, Classical.choice, Quot.sound |
| C131 | `Verif.Forces.Passes.lost_counterexample` | propext, Quot.sound |
| C131 | `Verif.Forces.Passes.umbra_end_counterexample` | propext, Quot.sound |
| C131 | `Verif.Forces.Passes.conic_counterexample` | propext, Quot.sound |
| C132 | `Verif.Pod.OnePass.pass_counts` | propext, Classical.choice, Quot.sound |
| C132 | `Verif.Pod.OnePass.extract_counts` | propext, Classical.choice, Quot.sound |
| C132 | `Verif.Pod.OnePass.pass_iono_free` | propext, Classical.choice, Quot.sound |
| C132 | `Verif.Pod.OnePass.summary_counts` | propext, Classical.choice, Quot.sound |
| C132 | `Verif.Pod.OnePass.percent_range` | propext, Classical.choice, Quot.sound |
| C132 | `Verif.Pod.OnePass.program_counts_partial` | propext, Classical.choice, Quot.sound |
| C132 | `Verif.Pod.OnePass.distance_partial` | propext, Classical.choice, Quot.sound |
| C132 | `Verif.Pod.OnePass.first_block_counterexample` | propext, Classical.choice, Quot.sound |
| C132 | `Verif.Pod.OnePass.interpolation_counterexample` | propext, Classical.choice, Quot.sound |
| C132 | `Verif.Pod.OnePass.unknown_beacon_counterexample` | propext, Classical.choice, Quot.sound |
| C132 | `Verif.Pod.OnePass.stale_counterexample` | propext, Classical.choice, Quot.sound |
| C132 | `Verif.Pod.OnePass.percent_counterexample` | propext, Classical.choice, Quot.sound |
| C132 | `Verif.Pod.OnePass.distance_counterexample` | propext, Classical.choice, Quot.sound |
| C132 | `Verif.Pod.OnePass.pco_counterexample` | propext, Classical.choice, Quot.sound |
| C133 | `Verif.Rkf.fehl_is_step` | propext, Classical.choice, Quot.sound |
| C133 | `Verif.Rkf.error_is_difference` | propext, Classical.choice, Quot.sound |
| C133 | `Verif.Rkf.table_orders` | propext, Classical.choice, Quot.sound |
| C133 | `Verif.Rkf.fehl_polynomial` | propext, Classical.choice, Quot.sound |
| C133 | `Verif.Rkf.fehl_linear` | propext, Classical.choice, Quot.sound |
| C133 | `Verif.Rkf.call_total` | propext, Classical.choice, Quot.sound |
| C133 | `Verif.Rkf.time_in_interval` | propext, Classical.choice, Quot.sound |
| C133 | `Verif.Rkf.no_increase_after_failure` | propext, Quot.sound |
| C133 | `Verif.Rkf.tolerance_partial` | propext, Classical.choice, Quot.sound |
| C133 | `Verif.Rkf.tolerance_counterexample` | propext, Classical.choice, Quot.sound |
| C133 | `Verif.Rkf.beyond_matrix_counterexample` | propext, Classical.choice, Quot.sound |
| C133 | `Verif.Rkf.decrease_counterexample` | propext, Classical.choice, Quot.sound |
| C133 | `Verif.Rkf.increase_counterexample` | propext, Classical.choice, Quot.sound |
| C133 | `Verif.Rkf.first_step_counterexample` | propext, Classical.choice, Quot.sound |
| C133 | `Verif.Rkf.too_many_points_counterexample` | propext, Classical.choice, Quot.sound |
| C133 | `Verif.Rkf.stuck_counterexample` | propext, Quot.sound |
| C133 | `Verif.Rkf.unset_member_counterexample` | propext, Classical.choice, Quot.sound |
| C133 | `Verif.Rkf.resume_after_interruption` | propext, Quot.sound |
| C133 | `Verif.Rkf.first_step_without_tolerance` | propext, Classical.choice, Quot.sound |
| C133 | `Verif.Rkf.output_counter` | propext, Quot.sound |
| C134 | `Verif.Pod.Sp3.lines_partial` | propext, Classical.choice, Quot.sound |
| C134 | `Verif.Pod.Sp3.line_partial` | propext, Classical.choice, Quot.sound |
| C134 | `Verif.Pod.Sp3.epoch_error` | propext, Classical.choice, Quot.sound |
| C134 | `Verif.Pod.Sp3.initial_transition` | propext, Classical.choice, Quot.sound |
| C134 | `Verif.Pod.Sp3.interpolated_date` | propext, Classical.choice, Quot.sound |
| C134 | `Verif.Pod.Sp3.interpolated_state` | propext, Classical.choice, Quot.sound |
| C134 | `Verif.Pod.Sp3.interpolated_lines` | propext, Classical.choice, Quot.sound |
| C134 | `Verif.Pod.Sp3.body_mass_iff` | propext, Classical.choice, Quot.sound |
| C134 | `Verif.Pod.Sp3.moon_mass_iff` | propext, Classical.choice, Quot.sound |
| C134 | `Verif.Pod.Sp3.last_record_counterexample` | propext, Classical.choice, Quot.sound |
| C134 | `Verif.Pod.Sp3.backwards_counterexample` | propext, Classical.choice, Quot.sound |
| C134 | `Verif.Pod.Sp3.body_mass_counterexample` | propext, Classical.choice, Quot.sound |
| C134 | `Verif.Pod.Sp3.transition_counterexample` | propext, Classical.choice, Quot.sound |
| C134 | `Verif.Pod.Sp3.transition_not_solution_counterexample` | propext, Classical.choice, Quot.sound |
| C134 | `Verif.Pod.Sp3.read_error_counterexample` | propext, Classical.choice, Quot.sound |
| C134 | `Verif.Pod.Sp3.flags_counterexample` | propext, Classical.choice, Quot.sound |
| C135 | `Verif.Var.outside` | propext, Quot.sound |
| C135 | `Verif.Var.inside` | propext, Classical.choice, Quot.sound |
| C135 | `Verif.Var.nearest_spec` | propext, Classical.choice, Quot.sound |
| C135 | `Verif.Var.linear_between` | propext, Classical.choice, Quot.sound |
| C135 | `Verif.Var.linear_exact` | propext, Classical.choice, Quot.sound |
| C135 | `Verif.Var.third_spec` | propext, Classical.choice, Quot.sound |
| C135 | `Verif.Var.quadratic_exact` | propext, Classical.choice, Quot.sound |
| C135 | `Verif.Var.quadratic_node` | propext, Classical.choice, Quot.sound |
| C135 | `Verif.Var.last_node_counterexample` | propext, Quot.sound |
| C135 | `Verif.Var.two_nodes_counterexample` | propext, Classical.choice, Quot.sound |
| C136 | `Verif.Var.Legendre.plegendre_spec` | propext, Classical.choice, Quot.sound |
| C136 | `Verif.Var.Legendre.plegendre_domain` | propext, Classical.choice, Quot.sound |
| C137 | `Verif.Var.set_event` | propext, Classical.choice, Quot.sound |
| C137 | `Verif.Var.clear_event` | propext, Classical.choice, Quot.sound |
| C137 | `Verif.Var.reset_all` | propext, Classical.choice, Quot.sound |
| C137 | `Verif.Var.combination_spec` | propext, Classical.choice, Quot.sound |
| C137 | `Verif.Var.set_combination_partial` | propext, Classical.choice, Quot.sound |
| C137 | `Verif.Var.set_combination_counterexample` | propext, Classical.choice, Quot.sound |
| C137 | `Verif.Var.packed_flags` | propext, Classical.choice, Quot.sound |
| C137 | `Verif.Var.version3_spec` | propext, Classical.choice, Quot.sound |
| C137 | `Verif.Var.version1_iff` | propext, Classical.choice, Quot.sound |
| C137 | `Verif.Var.signed_flag_counterexample` | propext, Classical.choice, Quot.sound |
| C137 | `Verif.Var.version2_iff` | propext, Classical.choice, Quot.sound |
| C137 | `Verif.Var.special_value_counterexample` | propext, Classical.choice, Quot.sound |
| C137 | `Verif.Var.first_round_partial` | propext, Classical.choice, Quot.sound |
| C137 | `Verif.Var.later_rounds_counterexample` | propext, Classical.choice, Quot.sound |
| C138 | `Verif.Var.Kepler.bernese_recovers` | propext, Classical.choice, Quot.sound |
| C138 | `Verif.Var.Kepler.beutler_partial` | propext, Classical.choice, Quot.sound |
| C138 | `Verif.Var.Kepler.beutler_time_counterexample` | propext, Classical.choice, Quot.sound |
| C138 | `Verif.Var.Kepler.tapley_iff` | propext, Classical.choice, Quot.sound |
| C138 | `Verif.Var.Kepler.tapley_quadrant_counterexample` | propext, Classical.choice, Quot.sound |
| C138 | `Verif.Var.Kepler.schwarz_partial` | propext, Classical.choice, Quot.sound |
| C138 | `Verif.Var.Kepler.schwarz_half_counterexample` | propext, Classical.choice, Quot.sound |
| C138 | `Verif.Var.Kepler.test_counterexample` | propext, Quot.sound |
| C139 | `Verif.Astro.kepler_converges_partial` | propext, Classical.choice, Quot.sound |
| C139 | `Verif.Astro.vallado_converges_partial` | propext, Classical.choice, Quot.sound |
| C139 | `Verif.Astro.gives_up_counterexample` | propext, Classical.choice, Quot.sound |
| C139 | `Verif.Astro.eccAnom_eq` | propext, Classical.choice, Quot.sound |
| C139 | `Verif.Astro.second_difference` | propext, Classical.choice, Quot.sound |
| C139 | `Verif.Astro.first_difference_counterexample` | propext, Classical.choice, Quot.sound |
| C139 | `Verif.Astro.comparison_partial` | propext, Classical.choice, Quot.sound |
| C14 | `Verif.Rinex.labels_prefix_free` | propext, Classical.choice, Quot.sound |
| C14 | `Verif.Rinex.label_unique` | propext, Classical.choice, Quot.sound |
| C14 | `Verif.Rinex.dispatch_iff` | propext, Classical.choice, Quot.sound |
| C14 | `Verif.Rinex.dispatch_order_irrelevant` | propext, Classical.choice, Quot.sound |
| C14 | `Verif.Rinex.order_complete` | propext |
| C14 | `Verif.Rinex.dispatch_line` | propext, Classical.choice, Quot.sound |
| C14 | `Verif.Rinex.format_labels` | propext, Classical.choice, Quot.sound |
| C14 | `Verif.Rinex.format_labels_all` | propext, Classical.choice, Quot.sound |
| C140 | `Verif.Float.kepler_double_partial` | propext, Classical.choice, Quot.sound |
| C140 | `Verif.Float.vallado_double_partial` | propext, Classical.choice, Quot.sound |
| C140 | `Verif.Float.first_revolution` | propext, Classical.choice, Quot.sound |
| C140 | `Verif.Float.large_counterexample` | propext, Classical.choice, Quot.sound |
| C141 | `Verif.Mat2D.offsets_exact_iff` | propext, Quot.sound |
| C141 | `Verif.Mat2D.some_offset_overflows` | propext, Quot.sound |
| C141 | `Verif.Mat2D.trap_size_exact` | propext, Quot.sound |
| C141 | `Verif.Mat2D.dense_size_iff` | propext, Quot.sound |
| C141 | `Verif.Mat2D.slices_exact` | propext, Quot.sound |
| C141 | `Verif.Mat2D.trapezoid_offset_counterexample` | propext, Quot.sound |
| C141 | `Verif.Mat2D.dense_size_counterexample` | none |
| C141 | `Verif.Mat2D.gravity_ints_exact` | propext, Classical.choice, Quot.sound |
| C141 | `Verif.Mat2D.gravity_ints_iff` | propext, Classical.choice, Quot.sound |
| C141 | `Verif.Mat2D.gravity_factor_counterexample` | propext |
| C141 | `Verif.Mat2D.sites_reached` | propext, Quot.sound |
| C141 | `Verif.Mat2D.site_extremes` | propext, Classical.choice, Quot.sound |
| C141 | `Verif.Mat2D.negative_size` | propext, Quot.sound |
| C141 | `Verif.Mat2D.negative_size_counterexample` | propext, Quot.sound |
| C142 | `Verif.Var.Icgem.old_against_new` | propext, Classical.choice, Quot.sound |
| C142 | `Verif.Var.Icgem.compute_gradient_iff` | propext, Classical.choice, Quot.sound |
| C142 | `Verif.Var.Icgem.zonal_gradient` | propext, Classical.choice, Quot.sound |
| C142 | `Verif.Var.Icgem.y_component_counterexample` | propext, Classical.choice, Quot.sound |
| C142 | `Verif.Var.Icgem.denormalize_once` | propext, Classical.choice, Quot.sound |
| C142 | `Verif.Var.Icgem.denormalize_twice` | propext, Classical.choice, Quot.sound |
| C142 | `Verif.Var.Icgem.denormalize_twice_counterexample` | propext, Classical.choice, Quot.sound |
| C142 | `Verif.Var.Icgem.accel_scale` | propext, Classical.choice, Quot.sound |
| C142 | `Verif.Var.Icgem.zonal_too_small` | propext, Classical.choice, Quot.sound |
| C142 | `Verif.Var.Icgem.normalised_counterexample` | propext, Classical.choice, Quot.sound |
| C142 | `Verif.Var.Icgem.usage_never` | propext, Quot.sound |
| C142 | `Verif.Var.Icgem.arguments_partial` | propext, Classical.choice, Quot.sound |
| C142 | `Verif.Var.Icgem.degree_and_order_iff` | propext, Classical.choice, Quot.sound |
| C142 | `Verif.Var.Icgem.degree_ignored_counterexample` | none |
| C142 | `Verif.Var.Icgem.argument_count_counterexample` | propext, Classical.choice, Quot.sound |
| C143 | `Verif.Filters.KalmanPy.infoForm_inverse` | propext, Classical.choice, Quot.sound |
| C143 | `Verif.Filters.KalmanPy.update_cov` | propext, Classical.choice, Quot.sound |
| C143 | `Verif.Filters.KalmanPy.least_squares` | propext, Classical.choice, Quot.sound |
| C143 | `Verif.Filters.KalmanPy.versions_agree` | propext, Classical.choice, Quot.sound |
| C143 | `Verif.Filters.KalmanPy.order_irrelevant` | propext, Classical.choice, Quot.sound |
| C143 | `Verif.Filters.KalmanPy.process_noise_counterexample` | propext, Classical.choice, Quot.sound |
| C143 | `Verif.Filters.KalmanPy.arrays_overwritten_counterexample` | propext, Classical.choice, Quot.sound |
| C143 | `Verif.Filters.KalmanPy.recreate_before_end` | propext, Classical.choice, Quot.sound |
| C143 | `Verif.Filters.KalmanPy.recreate_ends` | propext, Classical.choice, Quot.sound |
| C143 | `Verif.Filters.KalmanPy.first_used_twice` | propext, Classical.choice, Quot.sound |
| C144 | `Verif.Pod.Setup.first_block_missing` | propext |
| C144 | `Verif.Pod.Setup.failed_block` | propext, Quot.sound |
| C144 | `Verif.Pod.Setup.names` | propext, Quot.sound |
| C144 | `Verif.Pod.Setup.checked_names` | propext, Quot.sound |
| C144 | `Verif.Pod.Setup.own_names_partial` | propext, Quot.sound |
| C144 | `Verif.Pod.Setup.stale_name_counterexample` | propext, Classical.choice, Quot.sound |
| C144 | `Verif.Pod.Setup.degree_partial` | propext, Classical.choice, Quot.sound |
| C144 | `Verif.Pod.Setup.degree_counterexample` | propext |
| C144 | `Verif.Pod.Setup.covariance_eq` | propext, Classical.choice, Quot.sound |
| C144 | `Verif.Pod.Setup.covariance_iff` | propext, Classical.choice, Quot.sound |
| C144 | `Verif.Pod.Setup.covariance_counterexample` | propext, Classical.choice, Quot.sound |
| C144 | `Verif.Pod.Setup.estimates_eq` | propext, Quot.sound |
| C144 | `Verif.Pod.Setup.blocks_done` | propext, Quot.sound |
| C144 | `Verif.Pod.Setup.blocks_partial` | propext, Quot.sound |
| C144 | `Verif.Pod.Setup.half_day_counterexample` | propext, Quot.sound |
| C144 | `Verif.Pod.Setup.read_error_counterexample` | propext |
| C144 | `Verif.Pod.Setup.indexes_spec` | propext, Classical.choice, Quot.sound |
| C144 | `Verif.Pod.Setup.relativity_error` | propext, Classical.choice, Quot.sound |
| C144 | `Verif.Pod.Setup.relativity_counterexample` | propext, Classical.choice, Quot.sound |
| C144 | `Verif.Pod.Setup.clocks_iff` | propext, Classical.choice, Quot.sound |
| C144 | `Verif.Pod.Setup.clock_difference_counterexample` | propext, Classical.choice, Quot.sound |
| C145 | `Verif.Exc.pass_count` | propext, Classical.choice, Quot.sound |
| C145 | `Verif.Exc.line_times` | propext, Classical.choice, Quot.sound |
| C145 | `Verif.Exc.initial_values_once` | propext, Classical.choice, Quot.sound |
| C145 | `Verif.Exc.stale_lines_counterexample` | propext, Classical.choice, Quot.sound |
| C145 | `Verif.Exc.resumes` | propext, Classical.choice, Quot.sound |
| C145 | `Verif.Exc.elliptic_invariants` | propext, Classical.choice, Quot.sound |
| C145 | `Verif.Exc.default_order_partial` | propext, Classical.choice, Quot.sound |
| C145 | `Verif.Exc.default_order_counterexample` | propext, Classical.choice, Quot.sound |
| C145 | `Verif.Exc.state_columns` | propext, Classical.choice, Quot.sound |
| C145 | `Verif.Exc.variational_columns` | propext, Classical.choice, Quot.sound |
| C145 | `Verif.Exc.start_columns` | propext, Classical.choice, Quot.sound |
| C145 | `Verif.Exc.times_spec` | propext, Classical.choice, Quot.sound |
| C145 | `Verif.Exc.warning_counterexample` | propext, Classical.choice, Quot.sound |
| C145 | `Verif.Exc.matrices` | propext, Classical.choice, Quot.sound |
| C145 | `Verif.Exc.printed_matrix_counterexample` | propext, Classical.choice, Quot.sound |
| C145 | `Verif.Exc.moon_constant_counterexample` | propext, Classical.choice, Quot.sound |
| C145 | `Verif.Exc.pass_span` | propext, Classical.choice, Quot.sound |
| C145 | `Verif.Exc.truth_counterexample` | propext, Classical.choice, Quot.sound |
| C145 | `Verif.Exc.partials_chain` | propext, Classical.choice, Quot.sound |
| C145 | `Verif.Exc.range_partials` | propext, Classical.choice, Quot.sound |
| C145 | `Verif.Exc.azimuth_counterexample` | propext, Classical.choice, Quot.sound |
| C145 | `Verif.Exc.args_accepted` | propext, Classical.choice, Quot.sound |
| C146 | `Verif.Script.Plot.several_files_partial` | propext, Quot.sound |
| C146 | `Verif.Script.Plot.one_file` | propext, Quot.sound |
| C146 | `Verif.Script.Plot.eleventh_file_counterexample` | propext, Classical.choice, Quot.sound |
| C146 | `Verif.Script.Plot.colon_counterexample` | propext, Classical.choice, Quot.sound |
| C146 | `Verif.Script.Plot.kept_columns` | propext, Quot.sound |
| C146 | `Verif.Script.Plot.columns_iff` | propext, Quot.sound |
| C146 | `Verif.Script.Plot.columns_transpose` | propext, Quot.sound |
| C146 | `Verif.Script.Plot.blank_line_counterexample` | propext, Quot.sound |
| C146 | `Verif.Script.Plot.convert_spec` | propext, Quot.sound |
| C146 | `Verif.Script.Plot.times_partial` | propext, Quot.sound |
| C146 | `Verif.Script.Plot.time_counterexample` | propext, Quot.sound |
| C146 | `Verif.Script.Plot.ragged_counterexample` | propext, Quot.sound |
| C146 | `Verif.Script.Plot.time_columns` | propext, Classical.choice, Quot.sound |
| C146 | `Verif.Script.Plot.two_strings_counterexample` | propext, Classical.choice, Quot.sound |
| C146 | `Verif.Script.Plot.subplots_spec` | propext, Classical.choice, Quot.sound |
| C146 | `Verif.Script.Plot.odd_counterexample` | propext, Classical.choice, Quot.sound |
| C147 | `Verif.Rinex.Write.file_roundtrip` | propext, Classical.choice, Quot.sound |
| C147 | `Verif.Rinex.Write.header_roundtrip` | propext, Classical.choice, Quot.sound |
| C147 | `Verif.Rinex.Write.data_roundtrip` | propext, Classical.choice, Quot.sound |
| C147 | `Verif.Rinex.Write.header_lists` | propext, Classical.choice, Quot.sound |
| C147 | `Verif.Rinex.Write.header_refused` | propext, Classical.choice, Quot.sound |
| C147 | `Verif.Rinex.Write.exact_honest` | propext, Classical.choice, Quot.sound |
| C147 | `Verif.Rinex.Write.all_references_counterexample` | propext, Classical.choice, Quot.sound |
| C147 | `Verif.Rinex.Write.no_scale_counterexample` | propext, Classical.choice, Quot.sound |
| C147 | `Verif.Rinex.Write.dcbs_counterexample` | propext, Classical.choice, Quot.sound |
| C147 | `Verif.Rinex.Write.long_name_counterexample` | propext, Classical.choice, Quot.sound |
| C148 | `Verif.SpaceWeather.Write.header_names` | propext, Classical.choice, Quot.sound |
| C148 | `Verif.SpaceWeather.Write.line_roundtrip` | propext, Classical.choice, Quot.sound |
| C148 | `Verif.SpaceWeather.Write.parse_written` | propext, Classical.choice, Quot.sound |
| C148 | `Verif.SpaceWeather.Write.parse_at_end` | propext, Classical.choice, Quot.sound |
| C148 | `Verif.SpaceWeather.Write.parse_before` | propext, Classical.choice, Quot.sound |
| C148 | `Verif.SpaceWeather.Write.construct_served` | propext, Classical.choice, Quot.sound |
| C148 | `Verif.SpaceWeather.Write.update_served` | propext, Classical.choice, Quot.sound |
| C148 | `Verif.SpaceWeather.Write.updates_served_partial` | propext, Classical.choice, Quot.sound |
| C148 | `Verif.SpaceWeather.Write.last_day_counterexample` | propext, Classical.choice, Quot.sound |
| C148 | `Verif.SpaceWeather.Write.empty_cp_counterexample` | propext, Quot.sound |
| C148 | `Verif.SpaceWeather.Write.monthly_counterexample` | propext, Classical.choice, Quot.sound |
| C149 | `Verif.Float.norm_exact` | propext, Classical.choice, Quot.sound |
| C149 | `Verif.Float.elements_exact` | propext, Classical.choice, Quot.sound |
| C149 | `Verif.Float.elements_numbers` | propext, Classical.choice, Quot.sound |
| C149 | `Verif.Float.vallado_node_exact` | propext, Classical.choice, Quot.sound |
| C149 | `Verif.Float.montenbruck_ecc_exact` | propext, Classical.choice, Quot.sound |
| C149 | `Verif.Float.pos2ad_exact` | propext, Classical.choice, Quot.sound |
| C149 | `Verif.Float.pos2ad_numbers` | propext, Classical.choice, Quot.sound |
| C149 | `Verif.Float.montebruck_exact` | propext, Classical.choice, Quot.sound |
| C149 | `Verif.Float.conical_angles_exact` | propext, Classical.choice, Quot.sound |
| C149 | `Verif.Float.conical_exact` | propext, Classical.choice, Quot.sound |
| C149 | `Verif.Float.bernese_exact` | propext, Classical.choice, Quot.sound |
| C149 | `Verif.Float.vallado_exact` | propext, Classical.choice, Quot.sound |
| C149 | `Verif.Float.stat_exact` | propext, Classical.choice, Quot.sound |
| C149 | `Verif.Float.epochs_exact` | propext, Classical.choice, Quot.sound |
| C149 | `Verif.Float.kepler_exact` | propext, Classical.choice, Quot.sound |
| C15 | `Verif.Rinex.header_buffer_independent_partial` | propext, Classical.choice, Quot.sound |
| C15 | `Verif.Rinex.header_in_bounds_partial` | propext, Classical.choice, Quot.sound |
| C15 | `Verif.Rinex.stale_label_counterexample` | propext, Classical.choice, Quot.sound |
| C15 | `Verif.Rinex.empty_file_counterexample` | propext, Classical.choice, Quot.sound |
| C15 | `Verif.Rinex.blank_name_counterexample` | propext, Classical.choice, Quot.sound |
| C150 | `Verif.Icgem.Write.load_written` | propext, Classical.choice, Quot.sound |
| C150 | `Verif.Icgem.Write.gravity_written` | propext, Classical.choice, Quot.sound |
| C150 | `Verif.Icgem.Write.load_converted` | propext, Classical.choice, Quot.sound |
| C150 | `Verif.Icgem.Write.no_newline_counterexample` | propext, Classical.choice, Quot.sound |
| C150 | `Verif.Icgem.Write.trailing_blank_counterexample` | propext, Classical.choice, Quot.sound |
| C151 | `Verif.Script.Tools.extension_iff` | propext, Quot.sound |
| C151 | `Verif.Script.Tools.isLog_iff` | propext, Classical.choice, Quot.sound |
| C151 | `Verif.Script.Tools.fetched_served` | propext, Classical.choice, Quot.sound |
| C151 | `Verif.Script.Tools.default_names` | propext, Classical.choice, Quot.sound |
| C151 | `Verif.Script.Tools.stations_listed` | propext, Classical.choice, Quot.sound |
| C151 | `Verif.Script.Tools.heading_columns` | propext, Classical.choice, Quot.sound |
| C151 | `Verif.Script.Tools.header_wrapped` | propext, Classical.choice, Quot.sound |
| C151 | `Verif.Script.Tools.error_page_counterexample` | propext, Classical.choice, Quot.sound |
| C151 | `Verif.Script.Tools.absolute_name_counterexample` | propext, Classical.choice, Quot.sound |
| C151 | `Verif.Script.Tools.address_counterexample` | propext, Classical.choice, Quot.sound |
| C151 | `Verif.Script.Tools.directory_counterexample` | propext, Classical.choice, Quot.sound |
| C151 | `Verif.Script.Tools.bad_log_counterexample` | propext, Classical.choice, Quot.sound |
| C151 | `Verif.Script.Tools.own_output_counterexample` | propext, Classical.choice, Quot.sound |
| C151 | `Verif.Script.Tools.missing_header_counterexample` | propext, Classical.choice, Quot.sound |
| C152 | `Verif.Script.Table.heights_from_logs` | propext, Classical.choice, Quot.sound |
| C152 | `Verif.Script.Table.height_iff` | propext, Classical.choice, Quot.sound |
| C152 | `Verif.Script.Table.lines_loaded` | propext, Classical.choice, Quot.sound |
| C152 | `Verif.Script.Table.record_line` | propext, Classical.choice, Quot.sound |
| C152 | `Verif.Script.Table.line_columns` | propext, Classical.choice, Quot.sound |
| C152 | `Verif.Script.Table.blank_column_counterexample` | propext, Classical.choice, Quot.sound |
| C152 | `Verif.Script.Table.long_name_counterexample` | propext, Classical.choice, Quot.sound |
| C152 | `Verif.Script.Table.whole_metre_counterexample` | propext, Classical.choice, Quot.sound |
| C153 | `Verif.Rinex.Meta.toStr_text` | propext, Classical.choice, Quot.sound |
| C153 | `Verif.Rinex.Meta.beaconText_inj` | propext, Classical.choice, Quot.sound |
| C153 | `Verif.Rinex.Meta.metadata_written` | propext, Classical.choice, Quot.sound |
| C153 | `Verif.Rinex.Meta.metadata_report` | propext, Classical.choice, Quot.sound |
| C153 | `Verif.Rinex.Meta.read_epochs` | propext, Classical.choice, Quot.sound |
| C153 | `Verif.Rinex.Meta.epochOf_header` | propext, Classical.choice, Quot.sound |
| C153 | `Verif.Rinex.Meta.full_name_counterexample` | propext, Classical.choice, Quot.sound |
| C153 | `Verif.Rinex.Meta.documented_buffer_counterexample` | propext, Classical.choice, Quot.sound |
| C153 | `Verif.Rinex.Meta.overrun_counterexample` | propext, Classical.choice, Quot.sound |
| C153 | `Verif.Rinex.Meta.missing_line_counterexample` | propext, Classical.choice, Quot.sound |
| C153 | `Verif.Rinex.Meta.second_read_counterexample` | propext, Classical.choice, Quot.sound |
| C153 | `Verif.Rinex.Meta.cut_difference_counterexample` | propext, Quot.sound |
| C154 | `Verif.Float.Pcv.pcv_double` | propext, Classical.choice, Quot.sound |
| C154 | `Verif.Float.Pcv.cell_exact` | propext, Classical.choice, Quot.sound |
| C154 | `Verif.Float.Pcv.degrees_close` | propext, Classical.choice, Quot.sound |
| C154 | `Verif.Float.Pcv.before_right` | propext, Classical.choice, Quot.sound |
| C154 | `Verif.Float.Pcv.interpolate_close` | propext, Classical.choice, Quot.sound |
| C154 | `Verif.Float.Pcv.exact_lipschitz` | propext, Classical.choice, Quot.sound |
| C154 | `Verif.Float.Pcv.pcv_double_outside` | propext, Classical.choice, Quot.sound |
| C154 | `Verif.Float.Pcv.right_angle_counterexample` | propext, Classical.choice, Quot.sound |
| C154 | `Verif.Float.Pcv.debug_check_counterexample` | propext, Classical.choice, Quot.sound |
| C155 | `Verif.RfoFit.textFile_written` | propext, Classical.choice, Quot.sound |
| C155 | `Verif.RfoFit.text_least_squares_partial` | propext, Classical.choice, Quot.sound |
| C155 | `Verif.RfoFit.text_exact_partial` | propext, Classical.choice, Quot.sound |
| C155 | `Verif.RfoFit.value_written` | propext, Classical.choice, Quot.sound |
| C155 | `Verif.RfoFit.blank_offset_counterexample` | propext, Classical.choice, Quot.sound |
| C155 | `Verif.RfoFit.blank_mean_counterexample` | propext, Classical.choice, Quot.sound |
| C155 | `Verif.RfoFit.no_code_counterexample` | propext, Classical.choice, Quot.sound |
| C156 | `Verif.RfoFit.values_prints_partial` | propext, Classical.choice, Quot.sound |
| C156 | `Verif.RfoFit.printed_line` | propext, Classical.choice, Quot.sound |
| C156 | `Verif.RfoFit.values_usage` | propext, Classical.choice, Quot.sound |
| C156 | `Verif.RfoFit.copies_inside` | propext, Classical.choice, Quot.sound |
| C156 | `Verif.RfoFit.copies_outside` | none |
| C156 | `Verif.RfoFit.slope_lost_counterexample` | propext, Classical.choice, Quot.sound |
| C156 | `Verif.RfoFit.same_length_counterexample` | propext, Classical.choice, Quot.sound |
| C156 | `Verif.RfoFit.number_counterexample` | propext, Classical.choice, Quot.sound |
| C157 | `Verif.Icgem.Ask.ask_written_partial` | propext, Classical.choice, Quot.sound |
| C157 | `Verif.Icgem.Ask.session_words` | propext, Classical.choice, Quot.sound |
| C157 | `Verif.Icgem.Ask.session_left` | propext |
| C157 | `Verif.Icgem.Ask.ask_degree` | propext, Classical.choice, Quot.sound |
| C157 | `Verif.Icgem.Ask.order_zero_counterexample` | propext, Classical.choice, Quot.sound |
| C157 | `Verif.Icgem.Ask.input_end_counterexample` | propext, Classical.choice, Quot.sound |
| C157 | `Verif.Icgem.Ask.degree_zero_counterexample` | propext, Classical.choice, Quot.sound |
| C158 | `Verif.Icgem.Ask.old_header` | propext, Classical.choice, Quot.sound |
| C158 | `Verif.Icgem.Ask.old_data` | propext, Classical.choice, Quot.sound |
| C158 | `Verif.Icgem.Ask.old_program` | propext, Classical.choice, Quot.sound |
| C159 | `Verif.SunMoon.Ref.average_mean_partial` | propext, Classical.choice, Quot.sound |
| C159 | `Verif.SunMoon.Ref.average_first` | propext, Classical.choice, Quot.sound |
| C159 | `Verif.SunMoon.Ref.average_double` | propext, Classical.choice, Quot.sound |
| C159 | `Verif.SunMoon.Ref.sun_rows` | propext, Classical.choice, Quot.sound |
| C159 | `Verif.SunMoon.Ref.moon_rows` | propext, Classical.choice, Quot.sound |
| C159 | `Verif.SunMoon.Ref.intended_mean` | propext, Classical.choice, Quot.sound |
| C159 | `Verif.SunMoon.Ref.average_counterexample` | propext, Classical.choice, Quot.sound |
| C159 | `Verif.SunMoon.Ref.sun_averages_counterexample` | propext, Classical.choice, Quot.sound |
| C159 | `Verif.SunMoon.Ref.moon_averages_counterexample` | propext, Classical.choice, Quot.sound |
| C159 | `Verif.SunMoon.Ref.perfect_counterexample` | propext, Classical.choice, Quot.sound |
| C16 | `Verif.Rinex.block_shape` | propext, Classical.choice, Quot.sound |
| C16 | `Verif.Rinex.block_values_partial` | propext, Classical.choice, Quot.sound |
| C16 | `Verif.Rinex.isSpace_iff` | propext, Classical.choice, Quot.sound |
| C16 | `Verif.Rinex.block_ids` | propext, Classical.choice, Quot.sound |
| C16 | `Verif.Rinex.short_line_counterexample` | propext, Classical.choice, Quot.sound |
| C160 | `Verif.SpaceWeather.Write.feed_status` | propext, Classical.choice, Quot.sound |
| C160 | `Verif.SpaceWeather.Write.feed_passes_partial` | propext, Classical.choice, Quot.sound |
| C160 | `Verif.SpaceWeather.Write.feed_short_file_counterexample` | propext, Classical.choice, Quot.sound |
| C161 | `Verif.Eop.Example.example_status` | propext, Classical.choice, Quot.sound |
| C161 | `Verif.Eop.Example.example_rows_partial` | propext, Classical.choice, Quot.sound |
| C161 | `Verif.Eop.Example.example_failure_counterexample` | propext, Classical.choice, Quot.sound |
| C162 | `Verif.Float.variance_scalar` | propext, Classical.choice, Quot.sound |
| C162 | `Verif.Float.state_direction` | propext, Classical.choice, Quot.sound |
| C162 | `Verif.Float.variance_floor_partial` | propext, Classical.choice, Quot.sound |
| C162 | `Verif.Float.time_floor_partial` | propext, Classical.choice, Quot.sound |
| C162 | `Verif.Float.observation_exact` | propext, Classical.choice, Quot.sound |
| C162 | `Verif.Float.negative_variance_counterexample` | propext, Classical.choice, Quot.sound |
| C162 | `Verif.Float.asymmetric_counterexample` | propext, Classical.choice, Quot.sound |
| C163 | `Verif.Float.nominal_exact` | propext, Classical.choice, Quot.sound |
| C163 | `Verif.Float.nominal_same` | propext, Classical.choice, Quot.sound |
| C163 | `Verif.Float.nominal_large_counterexample` | propext, Classical.choice, Quot.sound |
| C164 | `Verif.Float.iono_zero_partial` | propext, Classical.choice, Quot.sound |
| C164 | `Verif.Float.iono_bound` | propext, Classical.choice, Quot.sound |
| C164 | `Verif.Float.iono_fused_counterexample` | propext, Classical.choice, Quot.sound |
| C165 | `Verif.Float.range_rate_bound` | propext, Classical.choice, Quot.sound |
| C165 | `Verif.Float.range_rate_sharp` | propext, Classical.choice, Quot.sound |
| C166 | `Verif.Float.linear_node` | propext, Classical.choice, Quot.sound |
| C166 | `Verif.Float.linear_mono` | propext, Classical.choice, Quot.sound |
| C166 | `Verif.Float.linear_anti` | propext, Classical.choice, Quot.sound |
| C166 | `Verif.Float.linear_error` | propext, Classical.choice, Quot.sound |
| C166 | `Verif.Float.linear_overshoot_counterexample` | propext, Classical.choice, Quot.sound |
| C166 | `Verif.Float.nearest_exact_partial` | propext, Classical.choice, Quot.sound |
| C166 | `Verif.Float.nearest_close` | propext, Classical.choice, Quot.sound |
| C166 | `Verif.Float.nearest_wrong_counterexample` | propext, Classical.choice, Quot.sound |
| C167 | `Verif.Float.jc_error` | propext, Classical.choice, Quot.sound |
| C167 | `Verif.Float.jc_strict_partial` | propext, Classical.choice, Quot.sound |
| C167 | `Verif.Float.jc_same_counterexample` | propext, Classical.choice, Quot.sound |
| C167 | `Verif.Float.restore_bound_partial` | propext, Classical.choice, Quot.sound |
| C167 | `Verif.Float.restore_counterexample` | propext, Classical.choice, Quot.sound |
| C168 | `Verif.Var.Proto.nextH_agrees` | propext, Classical.choice, Quot.sound |
| C168 | `Verif.Var.Proto.accept_agrees` | propext, Classical.choice, Quot.sound |
| C168 | `Verif.Var.Proto.denormalize_agrees` | propext, Classical.choice, Quot.sound |
| C168 | `Verif.Var.Proto.denormalize_twice_counterexample` | propext, Classical.choice, Quot.sound |
| C168 | `Verif.Var.Proto.pcv1_agrees` | propext, Classical.choice, Quot.sound |
| C168 | `Verif.Var.Proto.pcv2_agrees_partial` | propext, Classical.choice, Quot.sound |
| C168 | `Verif.Var.Proto.pcv2_flag_counterexample` | propext, Classical.choice, Quot.sound |
| C169 | `Verif.Pod.Name.construct_iff` | propext, Quot.sound |
| C169 | `Verif.Pod.Name.program_fits` | propext, Quot.sound |
| C169 | `Verif.Pod.Name.construct_overflow_counterexample` | propext, Quot.sound |
| C17 | `Verif.Rinex.linesPerBeacon_eq` | propext, Quot.sound |
| C17 | `Verif.Rinex.skip_eq_read` | propext, Classical.choice, Quot.sound |
| C17 | `Verif.Rinex.skip_consumes` | propext, Classical.choice, Quot.sound |
| C170 | `Verif.Float.dist_bound` | propext, Classical.choice, Quot.sound |
| C170 | `Verif.Float.utheo_bound` | propext, Classical.choice, Quot.sound |
| C170 | `Verif.Float.residual_bound` | propext, Classical.choice, Quot.sound |
| C171 | `Verif.Float.poly_error` | propext, Classical.choice, Quot.sound |
| C171 | `Verif.Float.poly_ref` | propext, Classical.choice, Quot.sound |
| C171 | `Verif.Float.line_mono` | propext, Classical.choice, Quot.sound |
| C171 | `Verif.Float.lineD_mono` | propext, Classical.choice, Quot.sound |
| C171 | `Verif.Float.poly_mono` | propext, Classical.choice, Quot.sound |
| C171 | `Verif.Float.order_ok` | propext, Classical.choice, Quot.sound |
| C171 | `Verif.Float.rfo_value` | propext, Classical.choice, Quot.sound |
| C171 | `Verif.Float.poly_cancel_counterexample` | propext, Classical.choice, Quot.sound |
| C172 | `Verif.Float.slerpD_exact` | propext, Classical.choice, Quot.sound |
| C172 | `Verif.Float.slerpD_range` | propext, Classical.choice, Quot.sound |
| C172 | `Verif.Float.slerpD_start` | propext, Classical.choice, Quot.sound |
| C172 | `Verif.Float.slerpD_mono` | propext, Classical.choice, Quot.sound |
| C172 | `Verif.Float.slerpD_near` | propext, Classical.choice, Quot.sound |
| C172 | `Verif.Float.recTime_err` | propext, Classical.choice, Quot.sound |
| C172 | `Verif.Float.recTime_strict` | propext, Classical.choice, Quot.sound |
| C172 | `Verif.Float.slerpD_total` | propext, Classical.choice, Quot.sound |
| C173 | `Verif.Float.sq_rel` | propext, Classical.choice, Quot.sound |
| C173 | `Verif.Float.nrm_rel` | propext, Classical.choice, Quot.sound |
| C173 | `Verif.Float.cube_rel` | propext, Classical.choice, Quot.sound |
| C173 | `Verif.Float.pointMass_error` | propext, Classical.choice, Quot.sound |
| C173 | `Verif.Float.pointMass_small` | propext, Classical.choice, Quot.sound |
| C173 | `Verif.Float.srp_rel` | propext, Classical.choice, Quot.sound |
| C173 | `Verif.Float.srp_error` | propext, Classical.choice, Quot.sound |
| C173 | `Verif.Float.clock_rel` | propext, Classical.choice, Quot.sound |
| C173 | `Verif.Float.clockJ2_rel` | propext, Classical.choice, Quot.sound |
| C173 | `Verif.Float.drel_error` | propext, Classical.choice, Quot.sound |
| C174 | `Verif.Float.Drag.relVel_error` | propext, Classical.choice, Quot.sound |
| C174 | `Verif.Float.Drag.acc_rel` | propext, Classical.choice, Quot.sound |
| C174 | `Verif.Float.Drag.acc_opposes` | propext, Classical.choice, Quot.sound |
| C174 | `Verif.Float.Drag.acc_rest` | propext, Classical.choice, Quot.sound |
| C174 | `Verif.Float.Drag.drag_error` | propext, Classical.choice, Quot.sound |
| C174 | `Verif.Float.Drag.dc_rel` | propext, Classical.choice, Quot.sound |
| C174 | `Verif.Float.Drag.dv_rel` | propext, Classical.choice, Quot.sound |
| C174 | `Verif.Float.Drag.dv_symm` | propext, Classical.choice, Quot.sound |
| C174 | `Verif.Float.Drag.dragDV_entry` | propext, Classical.choice, Quot.sound |
| C174 | `Verif.Float.Drag.dragDR_entry` | propext, Classical.choice, Quot.sound |
| C174 | `Verif.Float.Drag.dr_error` | propext, Classical.choice, Quot.sound |
| C174 | `Verif.Float.Drag.dvI_fin` | propext, Classical.choice, Quot.sound |
| C174 | `Verif.Float.Drag.partials_at_rest_counterexample` | propext, Classical.choice, Quot.sound |
| C175 | `Verif.Float.Station.at_epoch` | propext, Classical.choice, Quot.sound |
| C175 | `Verif.Float.Station.at_rest` | propext, Classical.choice, Quot.sound |
| C175 | `Verif.Float.Station.moves_with_velocity` | propext, Classical.choice, Quot.sound |
| C175 | `Verif.Float.Station.mjd_err` | propext, Classical.choice, Quot.sound |
| C175 | `Verif.Float.Station.extrap_error` | propext, Classical.choice, Quot.sound |
| C175 | `Verif.Float.Station.extrap_exact` | propext, Classical.choice, Quot.sound |
| C176 | `Verif.Float.Gravity.accel_error` | propext, Classical.choice, Quot.sound |
| C176 | `Verif.Float.Gravity.accel_error_120` | propext, Classical.choice, Quot.sound |
| C176 | `Verif.Float.Gravity.accel_exact` | propext, Classical.choice, Quot.sound |
| C176 | `Verif.Float.Gravity.accel_zero` | propext, Classical.choice, Quot.sound |
| C176 | `Verif.Float.Gravity.accel_point` | propext, Classical.choice, Quot.sound |
| C176 | `Verif.Float.Gravity.turns_length` | propext, Quot.sound |
| C176 | `Verif.Float.Gravity.Ev.sum` | propext, Classical.choice, Quot.sound |
| C177 | `Verif.Float.Recur.geo_rel` | propext, Classical.choice, Quot.sound |
| C177 | `Verif.Float.Recur.sect_error` | propext, Classical.choice, Quot.sound |
| C177 | `Verif.Float.Recur.col_error` | propext, Classical.choice, Quot.sound |
| C177 | `Verif.Float.Recur.entry_error` | propext, Classical.choice, Quot.sound |
| C177 | `Verif.Float.Recur.zonal_size` | propext, Classical.choice, Quot.sound |
| C177 | `Verif.Float.Recur.zonal_error` | propext, Classical.choice, Quot.sound |
| C177 | `Verif.Float.Recur.plane_exact` | propext, Classical.choice, Quot.sound |
| C177 | `Verif.Float.Recur.zonal_first` | propext, Classical.choice, Quot.sound |
| C178 | `Verif.Float.Field.field_error` | propext, Classical.choice, Quot.sound |
| C178 | `Verif.Float.Field.field_error_120` | propext, Classical.choice, Quot.sound |
| C178 | `Verif.Float.Field.field_exact` | propext, Classical.choice, Quot.sound |
| C178 | `Verif.Float.Field.accel_lin` | propext, Classical.choice, Quot.sound |
| C178 | `Verif.Float.Field.total_lin` | propext, Classical.choice, Quot.sound |
| C178 | `Verif.Float.Field.size_lin` | propext, Classical.choice, Quot.sound |
| C179 | `Verif.Float.State.pos_error` | propext, Classical.choice, Quot.sound |
| C179 | `Verif.Float.State.vel_error` | propext, Classical.choice, Quot.sound |
| C179 | `Verif.Float.State.mean_error` | propext, Classical.choice, Quot.sound |
| C179 | `Verif.Float.State.mean_epoch` | propext, Classical.choice, Quot.sound |
| C179 | `Verif.Float.State.epoch_state` | propext, Classical.choice, Quot.sound |
| C179 | `Verif.Float.State.later_state` | propext, Classical.choice, Quot.sound |
| C179 | `Verif.Float.State.row_nr` | propext, Classical.choice, Quot.sound |
| C179 | `Verif.Float.State.vmag_nr` | propext, Classical.choice, Quot.sound |
| C18 | `Verif.Rinex.block_values_partial` | propext, Classical.choice, Quot.sound |
| C18 | `Verif.Rinex.missing_scaled_counterexample` | propext, Classical.choice, Quot.sound |
| C18 | `Verif.Rinex.trimmed_line_counterexample` | propext, Classical.choice, Quot.sound |
| C18 | `Verif.Rinex.missing_least` | propext, Classical.choice, Quot.sound |
| C180 | `Verif.Float.Hess.up_rel` | propext, Classical.choice, Quot.sound |
| C180 | `Verif.Float.Hess.down_rel` | propext, Classical.choice, Quot.sound |
| C180 | `Verif.Float.Hess.ratio_exact` | propext, Classical.choice, Quot.sound |
| C180 | `Verif.Float.Hess.down_end` | propext, Classical.choice, Quot.sound |
| C180 | `Verif.Float.Hess.ent_error` | propext, Classical.choice, Quot.sound |
| C180 | `Verif.Float.Hess.part_error` | propext, Classical.choice, Quot.sound |
| C180 | `Verif.Float.Hess.yy_error` | propext, Classical.choice, Quot.sound |
| C180 | `Verif.Float.Hess.part_error_120` | propext, Classical.choice, Quot.sound |
| C180 | `Verif.Float.Hess.ent_exact` | propext, Classical.choice, Quot.sound |
| C180 | `Verif.Float.Hess.matrix_error` | propext, Classical.choice, Quot.sound |
| C180 | `Verif.Float.Hess.part_point` | propext, Classical.choice, Quot.sound |
| C181 | `Verif.Float.ForcePart.pm_symmetric` | propext, Classical.choice, Quot.sound |
| C181 | `Verif.Float.ForcePart.srp_symmetric` | propext, Classical.choice, Quot.sound |
| C181 | `Verif.Float.ForcePart.pm_rel` | propext, Classical.choice, Quot.sound |
| C181 | `Verif.Float.ForcePart.pm_error` | propext, Classical.choice, Quot.sound |
| C181 | `Verif.Float.ForcePart.srpFac_rel` | propext, Classical.choice, Quot.sound |
| C181 | `Verif.Float.ForcePart.srp_terms` | propext, Classical.choice, Quot.sound |
| C181 | `Verif.Float.ForcePart.srp_off_rel` | propext, Classical.choice, Quot.sound |
| C181 | `Verif.Float.ForcePart.srp_part_error` | propext, Classical.choice, Quot.sound |
| C181 | `Verif.Float.ForcePart.srp_dc_rel` | propext, Classical.choice, Quot.sound |
| C182 | `Verif.Float.Frame.axis_nr` | propext, Classical.choice, Quot.sound |
| C182 | `Verif.Float.Frame.c2t_nr` | propext, Classical.choice, Quot.sound |
| C182 | `Verif.Float.Frame.rcel2ter_error` | propext, Classical.choice, Quot.sound |
| C182 | `Verif.Float.Frame.rter2cel_error` | propext, Classical.choice, Quot.sound |
| C182 | `Verif.Float.Frame.round_trip_error` | propext, Classical.choice, Quot.sound |
| C182 | `Verif.Float.Frame.omega_error` | propext, Classical.choice, Quot.sound |
| C182 | `Verif.Float.Frame.omega_mono` | propext, Classical.choice, Quot.sound |
| C183 | `Verif.Float.Quat.matX_quatX` | propext, Classical.choice, Quot.sound |
| C183 | `Verif.Float.Quat.quat_nr` | propext, Classical.choice, Quot.sound |
| C183 | `Verif.Float.Quat.mat_nr` | propext, Classical.choice, Quot.sound |
| C183 | `Verif.Float.Quat.angles_nr` | propext, Classical.choice, Quot.sound |
| C183 | `Verif.Float.Quat.propagate_error` | propext, Classical.choice, Quot.sound |
| C183 | `Verif.Float.Quat.eigen_error` | propext, Classical.choice, Quot.sound |
| C183 | `Verif.Float.Quat.propagate_epoch` | propext, Classical.choice, Quot.sound |
| C183 | `Verif.Float.Quat.routes_agree` | propext, Classical.choice, Quot.sound |
| C183 | `Verif.Float.Quat.perifocal_same` | propext, Classical.choice, Quot.sound |
| C183 | `Verif.Float.Quat.perifocal_error` | propext, Classical.choice, Quot.sound |
| C183 | `Verif.Float.Quat.propagate_later` | propext, Classical.choice, Quot.sound |
| C184 | `Verif.Float.Peri.p2e_nr` | propext, Classical.choice, Quot.sound |
| C184 | `Verif.Float.Peri.convert_error` | propext, Classical.choice, Quot.sound |
| C184 | `Verif.Float.Peri.last_row_error` | propext, Classical.choice, Quot.sound |
| C184 | `Verif.Float.Peri.not_rotation_counterexample` | propext, Classical.choice, Quot.sound |
| C184 | `Verif.Float.Peri.rotation_partial` | propext, Classical.choice, Quot.sound |
| C185 | `Verif.Float.Inertial.acc_error` | propext, Classical.choice, Quot.sound |
| C185 | `Verif.Float.Inertial.acc_error_field` | propext, Classical.choice, Quot.sound |
| C185 | `Verif.Float.Inertial.mul_left_err` | propext, Classical.choice, Quot.sound |
| C185 | `Verif.Float.Inertial.mul_right_err` | propext, Classical.choice, Quot.sound |
| C185 | `Verif.Float.Inertial.part_error` | propext, Classical.choice, Quot.sound |
| C19 | `Verif.Rinex.truncated_reported_partial` | propext, Classical.choice, Quot.sound |
| C19 | `Verif.Rinex.truncated_reported_one_line` | propext, Classical.choice, Quot.sound |
| C19 | `Verif.Rinex.truncated_counterexample` | propext, Classical.choice, Quot.sound |
| C20 | `Verif.Rinex.epoch_columns_partial` | propext, Classical.choice, Quot.sound |
| C20 | `Verif.Rinex.epoch_marker` | propext, Classical.choice, Quot.sound |
| C20 | `Verif.Rinex.short_epoch_counterexample` | propext, Classical.choice, Quot.sound |
| C21 | `Verif.Rinex.internal_lookup` | propext, Classical.choice, Quot.sound |
| C21 | `Verif.Rinex.station_lookup` | propext, Classical.choice, Quot.sound |
| C21 | `Verif.Rinex.lookups_inverse` | propext, Classical.choice, Quot.sound |
| C21 | `Verif.Rinex.shift_lookup` | propext, Quot.sound |
| C21 | `Verif.Rinex.station_by_internal` | propext, Classical.choice, Quot.sound |
| C21 | `Verif.Rinex.block_lookup` | propext, Classical.choice, Quot.sound |
| C21 | `Verif.Rinex.code_lookup` | propext, Classical.choice, Quot.sound |
| C22 | `Verif.Rinex.next_block` | propext, Classical.choice, Quot.sound |
| C22 | `Verif.Rinex.iterate_visits_all` | propext, Classical.choice, Quot.sound |
| C22 | `Verif.Rinex.eof_only_at_end` | propext, Classical.choice, Quot.sound |
| C23 | `Verif.Rinex.l1_epoch` | propext, Classical.choice, Quot.sound |
| C23 | `Verif.Rinex.overloads_agree` | propext, Classical.choice, Quot.sound |
| C24 | `Verif.Eop.no_undefined_behaviour` | propext, Classical.choice, Quot.sound |
| C24 | `Verif.Eop.read_defined` | propext, Classical.choice, Quot.sound |
| C24 | `Verif.Eop.write_read_same` | propext, Classical.choice, Quot.sound |
| C24 | `Verif.Eop.write_read_other` | propext, Classical.choice, Quot.sound |
| C24 | `Verif.Eop.resize_keeps` | propext, Quot.sound |
| C24 | `Verif.Eop.moveCtor_reads` | propext, Quot.sound |
| C24 | `Verif.Eop.moveAssign_reads` | propext, Quot.sound |
| C24 | `Verif.Eop.copyCtor_reads_partial` | propext, Classical.choice, Quot.sound |
| C24 | `Verif.Eop.no_leak` | propext, Classical.choice, Quot.sound |
| C24 | `Verif.Eop.copyCtor_counterexample` | propext |
| C24 | `Verif.Eop.copyAssign_counterexample` | propext |
| C24 | `Verif.Eop.copy_of_moved_counterexample` | propext |
| C24 | `Verif.Eop.moveAssign_leak_counterexample` | propext |
| C25 | `Verif.Eop.C04.success_counts` | propext, Quot.sound |
| C25 | `Verif.Eop.C04.success_complete_partial` | propext, Quot.sound |
| C25 | `Verif.Eop.C04.inside_table_partial` | propext, Quot.sound |
| C25 | `Verif.Eop.C04.complete_succeeds_partial` | propext, Classical.choice, Quot.sound |
| C25 | `Verif.Eop.C04.file_read_partial` | propext, Classical.choice, Quot.sound |
| C25 | `Verif.Eop.C04.items_until` | propext, Quot.sound |
| C25 | `Verif.Eop.C04.empty_interval` | propext, Quot.sound |
| C25 | `Verif.Eop.C04.duplicate_counterexample` | propext, Classical.choice, Quot.sound |
| C25 | `Verif.Eop.C04.outside_counterexample` | propext, Classical.choice, Quot.sound |
| C25 | `Verif.Eop.C04.stale_counterexample` | propext, Classical.choice, Quot.sound |
| C26 | `Verif.SpaceWeather.construct_window_partial` | propext, Classical.choice, Quot.sound |
| C26 | `Verif.SpaceWeather.advance_window` | propext, Classical.choice, Quot.sound |
| C26 | `Verif.SpaceWeather.failed_advance` | propext, Classical.choice, Quot.sound |
| C26 | `Verif.SpaceWeather.window_after_advances_partial` | propext, Classical.choice, Quot.sound |
| C26 | `Verif.SpaceWeather.window_counterexample` | propext, Classical.choice, Quot.sound |
| C27 | `Verif.SpaceWeather.success_stores` | propext, Classical.choice, Quot.sound |
| C27 | `Verif.SpaceWeather.success_complete_partial` | propext, Classical.choice, Quot.sound |
| C27 | `Verif.SpaceWeather.single_day_complete` | propext, Classical.choice, Quot.sound |
| C27 | `Verif.SpaceWeather.regular_complete` | propext, Classical.choice, Quot.sound |
| C27 | `Verif.SpaceWeather.eof_counterexample` | propext, Classical.choice, Quot.sound |
| C27 | `Verif.SpaceWeather.present_refused_counterexample` | propext, Classical.choice, Quot.sound |
| C28 | `Verif.SpaceWeather.ap_entries` | propext, Classical.choice, Quot.sound |
| C28 | `Verif.SpaceWeather.From.ap_length` | propext |
| C28 | `Verif.SpaceWeather.leap_second_counterexample` | propext, Classical.choice, Quot.sound |
| C28 | `Verif.SpaceWeather.init_congr` | propext, Classical.choice, Quot.sound |
| C29 | `Verif.SpaceWeather.history_independent_partial` | propext, Classical.choice, Quot.sound |
| C29 | `Verif.SpaceWeather.current_unique` | propext, Classical.choice, Quot.sound |
| C29 | `Verif.SpaceWeather.construct_current` | propext, Classical.choice, Quot.sound |
| C29 | `Verif.SpaceWeather.update_current` | propext, Classical.choice, Quot.sound |
| C29 | `Verif.SpaceWeather.failed_update_counterexample` | propext, Classical.choice, Quot.sound |
| C30 | `Verif.Icgem.read_success_partial` | propext, Classical.choice, Quot.sound |
| C30 | `Verif.Icgem.read_complete` | propext, Classical.choice, Quot.sound |
| C30 | `Verif.Icgem.read_complete_but_1` | propext, Classical.choice, Quot.sound |
| C30 | `Verif.Icgem.read_duplicate_counterexample` | propext, Classical.choice, Quot.sound |
| C30 | `Verif.Icgem.read_order_zero_counterexample` | propext, Classical.choice, Quot.sound |
| C30 | `Verif.Icgem.read_outside_counterexample` | propext, Classical.choice, Quot.sound |
| C30 | `Verif.Icgem.read_degree_zero_counterexample` | propext, Classical.choice, Quot.sound |
| C30 | `Verif.Icgem.read_last_line_refused` | propext, Classical.choice, Quot.sound |
| C31 | `Verif.Icgem.coeffsNr_eq` | propext, Classical.choice, Quot.sound |
| C31 | `Verif.Icgem.pairs_spec` | propext, Classical.choice, Quot.sound |
| C32 | `Verif.Icgem.header_members_partial` | propext, Classical.choice, Quot.sound |
| C32 | `Verif.Icgem.header_normalized_partial` | propext, Classical.choice, Quot.sound |
| C32 | `Verif.Icgem.header_success_end` | propext, Classical.choice, Quot.sound |
| C32 | `Verif.Icgem.header_trailing_blank_counterexample` | propext, Classical.choice, Quot.sound |
| C32 | `Verif.Icgem.header_leftover_counterexample` | propext, Classical.choice, Quot.sound |
| C32 | `Verif.Icgem.header_bare_keyword_counterexample` | propext, Classical.choice, Quot.sound |
| C32 | `Verif.Icgem.header_tab_counterexample` | propext, Classical.choice, Quot.sound |
| C33 | `Verif.Filters.slot_lt` | propext, Quot.sound |
| C33 | `Verif.Filters.slot_inj` | propext, Classical.choice, Quot.sound |
| C33 | `Verif.Filters.slot_surj` | propext, Quot.sound |
| C34 | `Verif.Filters.setTropo_one` | propext, Classical.choice, Quot.sound |
| C34 | `Verif.Filters.setTropo_all_none` | propext, Quot.sound |
| C34 | `Verif.Filters.setTropo_all_linear_partial` | propext, Quot.sound |
| C34 | `Verif.Filters.setTropo_counterexample` | propext, Quot.sound |
| C34 | `Verif.Filters.setRfoffLinear_one` | propext, Classical.choice, Quot.sound |
| C34 | `Verif.Filters.setRfoffLinear_all` | propext, Classical.choice, Quot.sound |
| C34 | `Verif.Filters.setRfoffNone_one` | propext, Classical.choice, Quot.sound |
| C34 | `Verif.Filters.setRfoffNone_all` | propext, Quot.sound |
| C34 | `Verif.Filters.setDrag_spec` | propext, Classical.choice, Quot.sound |
| C35 | `Verif.Filters.observation_psd` | propext, Classical.choice, Quot.sound |
| C35 | `Verif.Filters.observation_not_larger` | propext, Classical.choice, Quot.sound |
| C35 | `Verif.Filters.observation_textbook` | propext, Classical.choice, Quot.sound |
| C35 | `Verif.Filters.observation_variance` | propext, Classical.choice, Quot.sound |
| C35 | `Verif.Filters.filter_psd` | propext, Classical.choice, Quot.sound |
| C36 | `Verif.Filters.time_psd` | propext, Classical.choice, Quot.sound |
| C36 | `Verif.Filters.time_variance` | propext, Classical.choice, Quot.sound |
| C36 | `Verif.Filters.filter_psd` | propext, Classical.choice, Quot.sound |
| C37 | `Verif.Filters.Rfo.update_valid` | propext, Classical.choice, Quot.sound |
| C37 | `Verif.Filters.Rfo.update_info` | propext, Classical.choice, Quot.sound |
| C37 | `Verif.Filters.Rfo.run_info` | propext, Classical.choice, Quot.sound |
| C37 | `Verif.Filters.Rfo.run_perm` | propext, Classical.choice, Quot.sound |
| C37 | `Verif.Filters.Rfo.info_injective` | propext, Classical.choice, Quot.sound |
| C37 | `Verif.Filters.Rfo.new_valid` | propext, Classical.choice, Quot.sound |
| C37 | `Verif.Filters.Rfo.offdiagonal_symmetric` | propext, Classical.choice, Quot.sound |
| C38 | `Verif.Attitude.success_brackets` | propext, Classical.choice, Quot.sound |
| C38 | `Verif.Attitude.slerp_param_range` | propext, Classical.choice, Quot.sound |
| C38 | `Verif.Attitude.before_buffer_reported` | propext, Classical.choice, Quot.sound |
| C38 | `Verif.Attitude.success_uses_file_records_partial` | propext, Classical.choice, Quot.sound |
| C38 | `Verif.Attitude.epoch_in_file_answered` | propext, Classical.choice, Quot.sound |
| C38 | `Verif.Attitude.uninitialised_counterexample` | propext, Classical.choice, Quot.sound |
| C38 | `Verif.Attitude.first_line_counterexample` | propext, Classical.choice, Quot.sound |
| C38 | `Verif.Attitude.mixed_record_counterexample` | propext, Classical.choice, Quot.sound |
| C39 | `Verif.Corrections.corrections_general` | propext, Quot.sound |
| C39 | `Verif.Corrections.corrections_in_force_partial` | propext, Classical.choice, Quot.sound |
| C39 | `Verif.Corrections.bad_date_refused` | propext, Quot.sound |
| C39 | `Verif.Corrections.bad_value_refused` | propext, Classical.choice, Quot.sound |
| C39 | `Verif.Corrections.first_character_counterexample` | propext, Classical.choice, Quot.sound |
| C39 | `Verif.Corrections.later_day_counterexample` | propext, Classical.choice, Quot.sound |
| C39 | `Verif.Corrections.same_epoch_counterexample` | propext, Classical.choice, Quot.sound |
| C39 | `Verif.Corrections.short_line_counterexample` | propext, Classical.choice, Quot.sound |
| C40 | `Verif.Stations.results_in_order` | propext, Classical.choice, Quot.sound |
| C40 | `Verif.Stations.results_extrapolated` | propext, Classical.choice, Quot.sound |
| C40 | `Verif.Stations.refused_empty` | propext, Classical.choice, Quot.sound |
| C40 | `Verif.Stations.refused_status` | propext, Classical.choice, Quot.sound |
| C40 | `Verif.Stations.station_found` | propext, Classical.choice, Quot.sound |
| C40 | `Verif.Stations.station_tolerated_iff` | propext, Classical.choice, Quot.sound |
| C40 | `Verif.Stations.axis_defined_iff` | propext, Classical.choice, Quot.sound |
| C40 | `Verif.Stations.strncmpEq_four` | propext |
| C40 | `Verif.Stations.beacons_in_order` | propext, Classical.choice, Quot.sound |
| C40 | `Verif.Stations.beacons_core` | propext, Classical.choice, Quot.sound |
| C40 | `Verif.Stations.missing_tolerated_counterexample` | propext, Classical.choice, Quot.sound |
| C40 | `Verif.Stations.dropped_silently_counterexample` | propext, Classical.choice, Quot.sound |
| C41 | `Verif.Sgode.order_in_range` | propext, Classical.choice, Quot.sound |
| C41 | `Verif.Sgode.order_change_partial` | propext, Classical.choice, Quot.sound |
| C41 | `Verif.Sgode.order_after_rejection` | propext, Classical.choice, Quot.sound |
| C41 | `Verif.Sgode.rejected_restores` | propext, Classical.choice, Quot.sound |
| C41 | `Verif.Sgode.beta_positive` | propext, Classical.choice, Quot.sound |
| C41 | `Verif.Sgode.order_drop_counterexample` | propext, Classical.choice, Quot.sound |
| C41 | `Verif.Sgode.uninitialised_ifail_counterexample` | propext, Classical.choice, Quot.sound |
| C42 | `Verif.Sgode.invalid_reported` | propext, Classical.choice, Quot.sound |
| C42 | `Verif.Sgode.success_at_target` | propext, Classical.choice, Quot.sound |
| C42 | `Verif.Sgode.steps_bounded` | propext, Classical.choice, Quot.sound |
| C42 | `Verif.Sgode.failure_reported` | propext, Classical.choice, Quot.sound |
| C42 | `Verif.Sgode.step_arguments` | propext, Classical.choice, Quot.sound |
| C42 | `Verif.Sgode.first_step` | propext, Classical.choice, Quot.sound |
| C42 | `Verif.Sgode.zero_tolerance_counterexample` | propext, Classical.choice, Quot.sound |
| C43 | `Verif.Sgode.intrp_current` | propext, Classical.choice, Quot.sound |
| C43 | `Verif.Sgode.intrp_current_derivative` | propext, Quot.sound |
| C43 | `Verif.Sgode.accepted_derivative` | propext, Classical.choice, Quot.sound |
| C44 | `Verif.Astro.kepler_unique` | propext, Classical.choice, Quot.sound |
| C44 | `Verif.Astro.kepler_accurate` | propext, Classical.choice, Quot.sound |
| C44 | `Verif.Astro.vallado_accurate` | propext, Classical.choice, Quot.sound |
| C44 | `Verif.Astro.reduced_anomaly` | propext, Classical.choice, Quot.sound |
| C44 | `Verif.Astro.iterations_bounded` | propext, Classical.choice, Quot.sound |
| C44 | `Verif.Astro.failure_meaning` | propext, Classical.choice, Quot.sound |
| C45 | `Verif.Orbit.state_invariants` | propext, Classical.choice, Quot.sound |
| C45 | `Verif.Orbit.propagate_invariants` | propext, Classical.choice, Quot.sound |
| C45 | `Verif.Orbit.eigen_invariants` | propext, Classical.choice, Quot.sound |
| C45 | `Verif.Orbit.momentum_tilt` | propext, Classical.choice, Quot.sound |
| C46 | `Verif.Orbit.round_trip_partial` | propext, Classical.choice, Quot.sound |
| C46 | `Verif.Orbit.angles_recovered_partial` | propext, Classical.choice, Quot.sound |
| C46 | `Verif.Orbit.mean_anomaly_recovered_partial` | propext, Classical.choice, Quot.sound |
| C46 | `Verif.Orbit.mean_anomaly_moderate_partial` | propext, Classical.choice, Quot.sound |
| C46 | `Verif.Orbit.eigen_round_trip` | propext, Classical.choice, Quot.sound |
| C46 | `Verif.Orbit.eigen_round_trip_counterexample` | propext, Classical.choice, Quot.sound |
| C47 | `Verif.Orbit.overloads_agree_partial` | propext, Classical.choice, Quot.sound |
| C47 | `Verif.Orbit.eigen_agrees_partial` | propext, Classical.choice, Quot.sound |
| C47 | `Verif.Orbit.eigen_exchanges` | propext, Classical.choice, Quot.sound |
| C47 | `Verif.Orbit.eigen_disagrees_counterexample` | propext, Classical.choice, Quot.sound |
| C47 | `Verif.Orbit.perifocal_disagrees_counterexample` | propext, Classical.choice, Quot.sound |
| C48 | `Verif.Orbit.p2e_orthogonal_iff` | propext, Classical.choice, Quot.sound |
| C48 | `Verif.Orbit.perifocal_round_trip_partial` | propext, Classical.choice, Quot.sound |
| C48 | `Verif.Orbit.perifocal_counterexample` | propext, Classical.choice, Quot.sound |
| C48 | `Verif.Orbit.intended_matrix_rotation` | propext, Classical.choice, Quot.sound |
| C49 | `Verif.Forces.drag_law` | propext, Classical.choice, Quot.sound |
| C49 | `Verif.Forces.drag_antiparallel` | propext, Classical.choice, Quot.sound |
| C49 | `Verif.Forces.drag_velocity_partials` | propext, Classical.choice, Quot.sound |
| C49 | `Verif.Forces.drag_coefficient_partials` | propext, Classical.choice, Quot.sound |
| C49 | `Verif.Forces.drag_position_partials` | propext, Classical.choice, Quot.sound |
| C49 | `Verif.Forces.drag_overloads_agree_partial` | propext, Classical.choice, Quot.sound |
| C49 | `Verif.Forces.drag_overloads_counterexample` | propext, Classical.choice, Quot.sound |
| C49 | `Verif.Forces.drag_dangling_counterexample` | propext, Classical.choice, Quot.sound |
| C50 | `Verif.Forces.srp_direction` | propext, Classical.choice, Quot.sound |
| C50 | `Verif.Forces.srp_inverse_square` | propext, Classical.choice, Quot.sound |
| C50 | `Verif.Forces.srp_overloads_agree` | propext, Classical.choice, Quot.sound |
| C50 | `Verif.Forces.srp_position_partials` | propext, Classical.choice, Quot.sound |
| C50 | `Verif.Forces.srp_coefficient_partials_partial` | propext, Classical.choice, Quot.sound |
| C50 | `Verif.Forces.srp_zero_coefficient_counterexample` | propext, Classical.choice, Quot.sound |
| C51 | `Verif.Forces.point_mass_geocentre` | propext, Classical.choice, Quot.sound |
| C51 | `Verif.Forces.point_mass_overloads_agree` | propext, Classical.choice, Quot.sound |
| C51 | `Verif.Forces.point_mass_jacobian` | propext, Classical.choice, Quot.sound |
| C51 | `Verif.Forces.point_mass_partials_partial` | propext, Classical.choice, Quot.sound |
| C51 | `Verif.Forces.point_mass_partials_counterexample` | propext, Classical.choice, Quot.sound |
| C52 | `Verif.Gravity.lagrange_safe` | propext, Classical.choice, Quot.sound |
| C52 | `Verif.Gravity.lagrange_rejects` | propext, Quot.sound |
| C52 | `Verif.Gravity.wrapper_accel_safe` | propext, Classical.choice, Quot.sound |
| C52 | `Verif.Gravity.wrapper_partials_safe` | propext, Classical.choice, Quot.sound |
| C52 | `Verif.Gravity.lagrange_zonal_W` | propext, Classical.choice, Quot.sound |
| C52 | `Verif.Gravity.lagrange_plane` | propext, Classical.choice, Quot.sound |
| C52 | `Verif.Gravity.lagrange_parity` | propext, Classical.choice, Quot.sound |
| C52 | `Verif.Gravity.lagrange_one_row_counterexample` | propext, Classical.choice, Quot.sound |
| C53 | `Verif.Gravity.overloads_agree` | propext, Quot.sound |
| C53 | `Verif.Gravity.accel_safe` | propext, Classical.choice, Quot.sound |
| C53 | `Verif.Gravity.accel_linear` | propext, Classical.choice, Quot.sound |
| C53 | `Verif.Gravity.accel_central` | propext, Classical.choice, Quot.sound |
| C54 | `Verif.Gravity.partials_trace_partial` | propext, Classical.choice, Quot.sound |
| C54 | `Verif.Gravity.partials_safe` | propext, Classical.choice, Quot.sound |
| C54 | `Verif.Gravity.partials_upper` | propext, Quot.sound |
| C54 | `Verif.Gravity.partials_symmetry_counterexample` | propext, Classical.choice, Quot.sound |
| C54 | `Verif.Gravity.partials_order0_counterexample` | propext, Quot.sound |
| C54 | `Verif.Gravity.accAt_deriv` | propext, Classical.choice, Quot.sound |
| C54 | `Verif.Gravity.partials_entries_partial` | propext, Classical.choice, Quot.sound |
| C54 | `Verif.Gravity.partials_lower_no_order1` | propext, Classical.choice, Quot.sound |
| C54 | `Verif.Gravity.partials_order1_counterexample` | propext, Classical.choice, Quot.sound |
| C55 | `Verif.Forces.clock_agree` | propext, Classical.choice, Quot.sound |
| C55 | `Verif.Forces.clock_difference` | propext, Classical.choice, Quot.sound |
| C55 | `Verif.Forces.clock_isotropic` | propext, Classical.choice, Quot.sound |
| C56 | `Verif.Forces.shadow_spec` | propext, Classical.choice, Quot.sound |
| C56 | `Verif.Forces.shadow_light` | propext, Classical.choice, Quot.sound |
| C56 | `Verif.Forces.shadow_overloads_agree` | propext, Classical.choice, Quot.sound |
| C56 | `Verif.Forces.shadow_direction_only` | propext, Classical.choice, Quot.sound |
| C56 | `Verif.Forces.bernese_spec` | propext, Classical.choice, Quot.sound |
| C57 | `Verif.Forces.position_round_trip` | propext, Classical.choice, Quot.sound |
| C57 | `Verif.Forces.position_round_trip'` | propext, Classical.choice, Quot.sound |
| C57 | `Verif.Forces.length_preserved` | propext, Classical.choice, Quot.sound |
| C57 | `Verif.Forces.length_preserved'` | propext, Classical.choice, Quot.sound |
| C57 | `Verif.Forces.state_round_trip_partial` | propext, Classical.choice, Quot.sound |
| C57 | `Verif.Forces.state_round_trip'_partial` | propext, Classical.choice, Quot.sound |
| C57 | `Verif.Forces.velocity_is_derivative_partial` | propext, Classical.choice, Quot.sound |
| C57 | `Verif.Forces.omega_lod` | propext, Classical.choice, Quot.sound |
| C57 | `Verif.Forces.dangling_counterexample` | propext, Classical.choice, Quot.sound |
| C58 | `Verif.Forces.inertial_jacobian` | propext, Classical.choice, Quot.sound |
| C58 | `Verif.Forces.gravity_partials_partial` | propext, Classical.choice, Quot.sound |
| C58 | `Verif.Forces.gravity_partials_counterexample` | propext, Classical.choice, Quot.sound |
| C59 | `Verif.Forces.density_gradient_partial` | propext, Classical.choice, Quot.sound |
| C59 | `Verif.Forces.density_gradient_z` | propext, Classical.choice, Quot.sound |
| C59 | `Verif.Forces.density_gradient_counterexample` | propext, Classical.choice, Quot.sound |
| C60 | `Verif.Pcv.pcv1_interpolates_partial` | propext, Classical.choice, Quot.sound |
| C60 | `Verif.Pcv.pcv1_node` | propext, Classical.choice, Quot.sound |
| C60 | `Verif.Pcv.lin5_right` | propext, Classical.choice, Quot.sound |
| C60 | `Verif.Pcv.lin5_between` | propext, Classical.choice, Quot.sound |
| C60 | `Verif.Pcv.out_of_range_flagged` | propext, Classical.choice, Quot.sound |
| C60 | `Verif.Pcv.pcv2_in_range` | propext, Classical.choice, Quot.sound |
| C60 | `Verif.Pcv.alcatel_never_flags` | propext, Classical.choice, Quot.sound |
| C60 | `Verif.Pcv.zenith_zero` | propext, Classical.choice, Quot.sound |
| C60 | `Verif.Pcv.pcv1_ninety_counterexample` | propext, Classical.choice, Quot.sound |
| C61 | `Verif.BeaconTable.load_exact` | propext, Classical.choice, Quot.sound |
| C61 | `Verif.BeaconTable.load_valid` | propext, Quot.sound |
| C61 | `Verif.BeaconTable.load_one_per_site` | propext, Classical.choice, Quot.sound |
| C61 | `Verif.BeaconTable.load_blank_counterexample` | propext, Classical.choice, Quot.sound |
| C61 | `Verif.BeaconTable.load_long_counterexample` | propext, Classical.choice, Quot.sound |
| C61 | `Verif.BeaconTable.load_stale_errno` | propext, Quot.sound |
| C62 | `Verif.RfoFit.designRow_eq` | propext, Quot.sound |
| C62 | `Verif.RfoFit.windows_partial` | propext, Classical.choice, Quot.sound |
| C62 | `Verif.RfoFit.windows_values_partial` | propext, Classical.choice, Quot.sound |
| C62 | `Verif.RfoFit.leftover_never_mean` | propext, Classical.choice, Quot.sound |
| C62 | `Verif.RfoFit.empty_counterexample` | propext, Classical.choice, Quot.sound |
| C62 | `Verif.RfoFit.every_one_counterexample` | propext, Classical.choice, Quot.sound |
| C63 | `Verif.Doppler.counts_partial` | propext, Classical.choice, Quot.sound |
| C63 | `Verif.Doppler.one_record_partial` | propext, Quot.sound |
| C63 | `Verif.Doppler.unterminated_counterexample` | propext, Classical.choice, Quot.sound |
| C63 | `Verif.Doppler.repeated_counterexample` | propext, Classical.choice, Quot.sound |
| C63 | `Verif.Doppler.one_value_counterexample` | propext, Classical.choice, Quot.sound |
| C64 | `Verif.Atmosphere.Msis.gtd7_agree` | propext, Classical.choice, Quot.sound |
| C64 | `Verif.Atmosphere.Msis.gtd7_history_partial` | propext, Classical.choice, Quot.sound |
| C64 | `Verif.Atmosphere.Msis.Data.tabQ_ok` | propext, Classical.choice, Quot.sound |
| C64 | `Verif.Atmosphere.Msis.Data.tabR_ok` | propext, Classical.choice, Quot.sound |
| C64 | `Verif.Atmosphere.Msis.spread_example` | propext, Classical.choice, Quot.sound |
| C64 | `Verif.Atmosphere.Msis.two_instances_counterexample` | propext, Classical.choice, Quot.sound |
| C64 | `Verif.Atmosphere.Msis.near_latitude_counterexample` | propext, Classical.choice, Quot.sound |
| C64 | `Verif.Atmosphere.Msis.unset_node_counterexample` | propext, Classical.choice, Quot.sound |
| C64 | `Verif.Atmosphere.Msis.stale_mix_counterexample` | propext, Classical.choice, Quot.sound |
| C65 | `Verif.Atmosphere.spline_solves` | propext, Classical.choice, Quot.sound |
| C65 | `Verif.Atmosphere.spline_unique` | propext, Classical.choice, Quot.sound |
| C65 | `Verif.Atmosphere.bisect_brackets` | propext, Classical.choice, Quot.sound |
| C65 | `Verif.Atmosphere.splint_eq` | propext, Classical.choice, Quot.sound |
| C65 | `Verif.Atmosphere.splint_node` | propext, Classical.choice, Quot.sound |
| C65 | `Verif.Atmosphere.splint_at_node` | propext, Classical.choice, Quot.sound |
| C65 | `Verif.Atmosphere.cubic_hasDerivAt` | propext, Classical.choice, Quot.sound |
| C65 | `Verif.Atmosphere.splint_hasDerivAt_inside` | propext, Classical.choice, Quot.sound |
| C65 | `Verif.Atmosphere.splint_smooth_at_nodes` | propext, Classical.choice, Quot.sound |
| C65 | `Verif.Atmosphere.splini_eq_integral` | propext, Classical.choice, Quot.sound |
| C65 | `Verif.Atmosphere.splint_two` | propext, Classical.choice, Quot.sound |
| C65 | `Verif.Atmosphere.splint_two_counterexample` | propext, Classical.choice, Quot.sound |
| C66 | `Verif.Atmosphere.Exponential.layer_covers` | propext, Classical.choice, Quot.sound |
| C66 | `Verif.Atmosphere.Exponential.layer_unique` | propext, Classical.choice, Quot.sound |
| C66 | `Verif.Atmosphere.Exponential.density_eq` | propext, Classical.choice, Quot.sound |
| C66 | `Verif.Atmosphere.Exponential.density_pos` | propext, Classical.choice, Quot.sound |
| C66 | `Verif.Atmosphere.Exponential.density_strictAnti` | propext, Classical.choice, Quot.sound |
| C66 | `Verif.Atmosphere.Exponential.density_le_nominal` | propext, Classical.choice, Quot.sound |
| C66 | `Verif.Atmosphere.Exponential.table_contiguous` | propext, Classical.choice, Quot.sound |
| C66 | `Verif.Atmosphere.Exponential.scale_height_row_counterexample` | propext, Classical.choice, Quot.sound |
| C67 | `Verif.Atmosphere.Msis.gtd7d_mass` | propext, Classical.choice, Quot.sound |
| C67 | `Verif.Atmosphere.Msis.gtd7d_others` | propext, Classical.choice, Quot.sound |
| C67 | `Verif.Atmosphere.Msis.gtd7_units` | propext, Classical.choice, Quot.sound |
| C67 | `Verif.Atmosphere.Msis.gtd7d_units` | propext, Classical.choice, Quot.sound |
| C68 | `Verif.Atmosphere.Switches.setSwitch_spec` | propext, Quot.sound |
| C68 | `Verif.Atmosphere.Switches.setSwitch_outside` | propext, Quot.sound |
| C68 | `Verif.Atmosphere.Switches.run_spec` | propext, Classical.choice, Quot.sound |
| C68 | `Verif.Atmosphere.Switches.run_defined_iff` | propext, Classical.choice, Quot.sound |
| C68 | `Verif.Atmosphere.Switches.run_range` | propext, Classical.choice, Quot.sound |
| C69 | `Verif.Web.existing_untouched` | propext |
| C69 | `Verif.Web.refused_iff` | propext, Classical.choice, Quot.sound |
| C69 | `Verif.Web.others_untouched` | propext |
| C69 | `Verif.Web.zero_iff` | propext, Classical.choice, Quot.sound |
| C69 | `Verif.Web.value_range` | propext, Quot.sound |
| C69 | `Verif.Web.success_complete_partial` | propext, Classical.choice, Quot.sound |
| C69 | `Verif.Web.failure_absent_partial` | propext |
| C69 | `Verif.Web.lost_tail_counterexample` | propext |
| C69 | `Verif.Web.unremoved_counterexample` | propext |
| C69 | `Verif.Web.directory_counterexample` | propext |
| C69 | `Verif.Web.unopened_counterexample` | propext |
| C70 | `Verif.Spice.found_iff` | propext, Quot.sound |
| C70 | `Verif.Spice.strnEq_take` | propext |
| C70 | `Verif.Spice.loadIfUnloaded_spec` | propext, Quot.sound |
| C70 | `Verif.Spice.kernels_once_partial` | propext, Classical.choice, Quot.sound |
| C70 | `Verif.Spice.text_pck_counterexample` | propext, Classical.choice, Quot.sound |
| C70 | `Verif.Spice.prefix_counterexample` | propext, Classical.choice, Quot.sound |
| C70 | `Verif.Spice.long_name_counterexample` | propext, Classical.choice, Quot.sound |
| C71 | `Verif.Poly.valueAt_eq` | propext, Classical.choice, Quot.sound |
| C71 | `Verif.Poly.linear_eq_poly` | propext, Classical.choice, Quot.sound |
| C71 | `Verif.Poly.value_semantics_partial` | propext, Classical.choice, Quot.sound |
| C71 | `Verif.Poly.eval_after` | propext, Classical.choice, Quot.sound |
| C71 | `Verif.Poly.move_counterexample` | propext, Quot.sound |
| C71 | `Verif.Poly.move_shares_counterexample` | propext, Quot.sound |
| C71 | `Verif.Poly.move_assign_counterexample` | propext, Classical.choice, Quot.sound |
| C71 | `Verif.Poly.constant_leak_counterexample` | propext, Quot.sound |
| C72 | `Verif.SunMoon.equatorial_length` | propext, Classical.choice, Quot.sound |
| C72 | `Verif.SunMoon.sunMontenbruck_eq` | propext, Classical.choice, Quot.sound |
| C72 | `Verif.SunMoon.sunMontenbruck_length` | propext, Classical.choice, Quot.sound |
| C72 | `Verif.SunMoon.sunVallado_eq` | propext, Classical.choice, Quot.sound |
| C72 | `Verif.SunMoon.sunVallado_length` | propext, Classical.choice, Quot.sound |
| C72 | `Verif.SunMoon.sunApprox21_eq` | propext, Classical.choice, Quot.sound |
| C72 | `Verif.SunMoon.sunCurtis_eq` | propext, Classical.choice, Quot.sound |
| C72 | `Verif.SunMoon.sunCurtis_length` | propext, Classical.choice, Quot.sound |
| C72 | `Verif.SunMoon.dlambda_eq` | propext, Classical.choice, Quot.sound |
| C72 | `Verif.SunMoon.latitudeSeries_eq` | propext, Classical.choice, Quot.sound |
| C72 | `Verif.SunMoon.moonDistance_eq` | propext, Classical.choice, Quot.sound |
| C72 | `Verif.SunMoon.moonApprox_eq` | propext, Classical.choice, Quot.sound |
| C72 | `Verif.SunMoon.moonApprox_length` | propext, Classical.choice, Quot.sound |
| C72 | `Verif.SunMoon.moonVallado_eq` | propext, Classical.choice, Quot.sound |
| C72 | `Verif.SunMoon.moonVallado_length` | propext, Classical.choice, Quot.sound |
| C72 | `Verif.SunMoon.mbDistance_pos` | propext, Classical.choice, Quot.sound |
| C72 | `Verif.SunMoon.vaDistance_pos` | propext, Classical.choice, Quot.sound |
| C72 | `Verif.SunMoon.cuDistance_pos` | propext, Classical.choice, Quot.sound |
| C72 | `Verif.SunMoon.moonDistance_pos` | propext, Classical.choice, Quot.sound |
| C72 | `Verif.SunMoon.vmDistance_bounds` | propext, Classical.choice, Quot.sound |
| C72 | `Verif.SunMoon.curtis_argument_counterexample` | propext, Classical.choice, Quot.sound |
| C73 | `Verif.Yaml.lookup_iff` | propext, Quot.sound |
| C73 | `Verif.Yaml.depth2_spec` | propext, Quot.sound |
| C73 | `Verif.Yaml.depth2_zombie` | propext |
| C73 | `Verif.Yaml.depth3_partial` | propext, Quot.sound |
| C73 | `Verif.Yaml.depth2s_partial` | propext, Quot.sound |
| C73 | `Verif.Yaml.overflow_counterexample` | propext, Classical.choice, Quot.sound |
| C73 | `Verif.Yaml.scalar_root_counterexample` | propext, Classical.choice, Quot.sound |
| C74 | `Verif.SystemInfo.station_line_columns` | propext, Classical.choice, Quot.sound |
| C74 | `Verif.SystemInfo.station_line_status` | propext, Classical.choice, Quot.sound |
| C74 | `Verif.Rinex.header_stations_exact` | propext, Classical.choice, Quot.sound |
| C75 | `Verif.Gravity.accel_is_gradient` | propext, Classical.choice, Quot.sound |
| C76 | `Verif.Orbit.state_partials_deriv` | propext, Classical.choice, Quot.sound |
| C76 | `Verif.Orbit.state_partials_code` | propext, Classical.choice, Quot.sound |
| C76 | `Verif.Orbit.stateOf_propagate` | propext, Classical.choice, Quot.sound |
| C76 | `Verif.Orbit.equatorial_counterexample` | propext, Classical.choice, Quot.sound |
| C77 | `Verif.Orbit.element_rows_inverse` | propext, Classical.choice, Quot.sound |
| C77 | `Verif.Orbit.transition_identity` | propext, Classical.choice, Quot.sound |
| C77 | `Verif.Orbit.transition_deriv` | propext, Classical.choice, Quot.sound |
| C77 | `Verif.Orbit.propagate_transition` | propext, Classical.choice, Quot.sound |
| C78 | `Verif.Rinex.obsTypes_line` | propext, Classical.choice, Quot.sound |
| C78 | `Verif.Rinex.scaleFactor_line` | propext, Classical.choice, Quot.sound |
| C78 | `Verif.Rinex.readHeader_reads` | propext, Classical.choice, Quot.sound |
| C78 | `Verif.Rinex.header_codes_partial` | propext, Classical.choice, Quot.sound |
| C78 | `Verif.Rinex.two_lines_counterexample` | propext, Classical.choice, Quot.sound |
| C78 | `Verif.Rinex.all_codes_counterexample` | propext, Classical.choice, Quot.sound |
| C78 | `Verif.Rinex.no_line_counterexample` | propext, Classical.choice, Quot.sound |
| C79 | `Verif.Sgode.predictor_partial` | propext, Classical.choice, Quot.sound |
| C79 | `Verif.Sgode.corrector_partial` | propext, Classical.choice, Quot.sound |
| C79 | `Verif.Sgode.interpolation_partial` | propext, Classical.choice, Quot.sound |
| C79 | `Verif.Sgode.coefficients_partial` | propext, Classical.choice, Quot.sound |
| C79 | `Verif.Sgode.stale_psi_counterexample` | propext, Classical.choice, Quot.sound |
| C79 | `Verif.Sgode.stale_v_counterexample` | propext, Classical.choice, Quot.sound |
| C80 | `Verif.Variational.layout` | propext, Classical.choice, Quot.sound |
| C80 | `Verif.Variational.columns_partial` | propext, Classical.choice, Quot.sound |
| C80 | `Verif.Variational.sun_partials_counterexample` | propext, Classical.choice, Quot.sound |
| C80 | `Verif.Variational.area_partials_counterexample` | propext, Classical.choice, Quot.sound |
| C81 | `Verif.Variational.utc_instant` | propext, Classical.choice, Quot.sound |
| C81 | `Verif.Variational.utc_seconds_partial` | propext, Classical.choice, Quot.sound |
| C81 | `Verif.Variational.utc_seconds_counterexample` | propext, Classical.choice, Quot.sound |
| C82 | `Verif.Variational.area_bounds` | propext, Classical.choice, Quot.sound |
| C82 | `Verif.Variational.area_scale` | propext, Classical.choice, Quot.sound |
| C82 | `Verif.Variational.jason3_area` | propext, Classical.choice, Quot.sound |
| C83 | `Verif.Variational.moon_acceleration_partial` | propext, Classical.choice, Quot.sound |
| C83 | `Verif.Variational.sun_acceleration_millionth` | propext, Classical.choice, Quot.sound |
| C83 | `Verif.Variational.sun_acceleration_counterexample` | propext, Classical.choice, Quot.sound |
| C84 | `Verif.Eop.Interp.regularize_rows` | propext, Classical.choice, Quot.sound |
| C84 | `Verif.Eop.Interp.restored_at_nodes_partial` | propext, Classical.choice, Quot.sound |
| C84 | `Verif.Eop.Interp.between_nodes_partial` | propext, Classical.choice, Quot.sound |
| C84 | `Verif.Eop.Interp.failure_counterexample` | propext, Classical.choice, Quot.sound |
| C84 | `Verif.Eop.Interp.omega_counterexample` | propext, Classical.choice, Quot.sound |
| C85 | `Verif.Eop.Interp.tt_date` | propext, Classical.choice, Quot.sound |
| C85 | `Verif.Eop.Interp.rotation_partial` | propext, Classical.choice, Quot.sound |
| C85 | `Verif.Eop.Interp.outside_table_counterexample` | propext, Classical.choice, Quot.sound |
| C86 | `Verif.Sgode.refused_keeps` | propext, Classical.choice, Quot.sound |
| C86 | `Verif.Sgode.refused_tolerance` | propext, Classical.choice, Quot.sound |
| C86 | `Verif.Sgode.second_retry` | propext, Classical.choice, Quot.sound |
| C86 | `Verif.Sgode.attempt_made` | propext, Classical.choice, Quot.sound |
| C86 | `Verif.Sgode.driver_tolerances` | propext, Classical.choice, Quot.sound |
| C87 | `Verif.Orbit.classic_round_trip` | propext, Classical.choice, Quot.sound |
| C87 | `Verif.Orbit.vallado_agrees` | propext, Classical.choice, Quot.sound |
| C87 | `Verif.Orbit.montenbruck_partial` | propext, Classical.choice, Quot.sound |
| C87 | `Verif.Orbit.montenbruck_counterexample` | propext, Classical.choice, Quot.sound |
| C88 | `Verif.Orbit.ad_recovers` | propext, Classical.choice, Quot.sound |
| C88 | `Verif.Orbit.ad_counterexample` | propext, Classical.choice, Quot.sound |
| C89 | `Verif.Forces.conical_angles` | propext, Classical.choice, Quot.sound |
| C89 | `Verif.Forces.conical_uncovered_partial` | propext, Classical.choice, Quot.sound |
| C89 | `Verif.Forces.conical_number` | propext, Classical.choice, Quot.sound |
| C89 | `Verif.Forces.conical_extremes` | propext, Classical.choice, Quot.sound |
| C89 | `Verif.Forces.conical_annular_counterexample` | propext, Classical.choice, Quot.sound |
| C90 | `Verif.Forces.vallado_value` | propext, Classical.choice, Quot.sound |
| C90 | `Verif.Forces.vallado_shadow_partial` | propext, Classical.choice, Quot.sound |
| C90 | `Verif.Forces.vallado_penumbra_counterexample` | propext, Classical.choice, Quot.sound |
| C90 | `Verif.Forces.vallado_umbra_counterexample` | propext, Classical.choice, Quot.sound |
| C91 | `Verif.Filters.Rfo.fit_ok_iff` | propext, Classical.choice, Quot.sound |
| C91 | `Verif.Filters.Rfo.fit_least_squares` | propext, Classical.choice, Quot.sound |
| C91 | `Verif.Filters.Rfo.unreadable_first_counterexample` | propext, Classical.choice, Quot.sound |
| C91 | `Verif.Filters.Rfo.empty_block_counterexample` | propext, Classical.choice, Quot.sound |
| C91 | `Verif.Filters.Rfo.missing_counterexample` | propext, Classical.choice, Quot.sound |
| C92 | `Verif.Atmosphere.Msis.ghp7_found_partial` | propext, Classical.choice, Quot.sound |
| C92 | `Verif.Atmosphere.Msis.ghp7_not_searched_counterexample` | propext, Classical.choice, Quot.sound |
| C92 | `Verif.Atmosphere.Msis.ghp7_two_pressures_counterexample` | propext, Classical.choice, Quot.sound |
| C93 | `Verif.Atmosphere.Msis.longitude_ut_off` | propext, Classical.choice, Quot.sound |
| C93 | `Verif.Atmosphere.Msis.longitude_off` | propext, Classical.choice, Quot.sound |
| C93 | `Verif.Atmosphere.Msis.ut_off` | propext, Classical.choice, Quot.sound |
| C93 | `Verif.Atmosphere.Msis.local_time_off` | propext, Classical.choice, Quot.sound |
| C93 | `Verif.Atmosphere.Msis.magnetic_off` | propext, Classical.choice, Quot.sound |
| C93 | `Verif.Atmosphere.Msis.flux_off` | propext, Classical.choice, Quot.sound |
| C93 | `Verif.Atmosphere.Msis.season_off` | propext, Classical.choice, Quot.sound |
| C94 | `Verif.Atmosphere.Msis.reference_flux` | propext, Classical.choice, Quot.sound |
| C94 | `Verif.Atmosphere.Msis.reference_ap` | propext, Classical.choice, Quot.sound |
| C94 | `Verif.Atmosphere.Msis.reference_aparr` | propext, Classical.choice, Quot.sound |
| C95 | `Verif.Pod.running_mean` | propext, Classical.choice, Quot.sound |
| C95 | `Verif.Pod.running_count` | propext, Classical.choice, Quot.sound |
| C95 | `Verif.Pod.running_variance` | propext, Classical.choice, Quot.sound |
| C95 | `Verif.Pod.running_perm` | propext, Classical.choice, Quot.sound |
| C95 | `Verif.Pod.screen_spec` | propext, Classical.choice, Quot.sound |
| C95 | `Verif.Pod.screen_iff` | propext, Classical.choice, Quot.sound |
| C95 | `Verif.Pod.screen_lockout` | propext, Classical.choice, Quot.sound |
| C96 | `Verif.Pod.pair_iff` | propext, Classical.choice, Quot.sound |
| C96 | `Verif.Pod.pair_interval_partial` | propext, Classical.choice, Quot.sound |
| C96 | `Verif.Pod.pair_same_epoch_counterexample` | none |
| C96 | `Verif.Pod.pair_missing_counterexample` | none |
| C97 | `Verif.Pod.number_bound` | propext, Classical.choice, Quot.sound |
| C97 | `Verif.Pod.number_iff` | propext, Classical.choice, Quot.sound |
| C97 | `Verif.Pod.number_first` | propext, Classical.choice, Quot.sound |
| C97 | `Verif.Pod.arc_number` | propext, Classical.choice, Quot.sound |
| C97 | `Verif.Pod.track_some_iff` | propext, Quot.sound |
| C98 | `Verif.Pod.uobs_iono` | propext, Classical.choice, Quot.sound |
| C98 | `Verif.Pod.uobs_iono_counterexample` | propext, Classical.choice, Quot.sound |
| C98 | `Verif.Pod.uobs_iono_partial` | propext, Classical.choice, Quot.sound |
| C98 | `Verif.Pod.uobs_minus` | propext, Classical.choice, Quot.sound |
| C99 | `Verif.Pod.oc_grows` | propext, Classical.choice, Quot.sound |
| C99 | `Verif.Pod.oc_falls` | propext, Classical.choice, Quot.sound |
| C99 | `Verif.Pod.difference_falls` | propext, Classical.choice, Quot.sound |
| C99 | `Verif.Pod.oc_zero_partial` | propext, Classical.choice, Quot.sound |
| C99 | `Verif.Pod.oc_counterexample` | propext, Classical.choice, Quot.sound |
