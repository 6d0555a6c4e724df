{"id": "C01", "title": "Flag sets behave like sets", "statement": "After any sequence of set, clear-one and clear-all calls on a flag set built over an enum whose values are distinct single bits, check(f) answers true exactly when the last operation concerning f was a set; operations on one flag never disturb another, is_clean() is true exactly when no flag is set, and the order in which distinct flags are set is irrelevant to equality of two flag sets.", "quantifier": "every sequence of operations, every pair of flags, every width of the underlying integer", "why_tests_cant": "Unit tests exercise a handful of operation sequences; independence of flags has to hold after every history.", "anchors": ["src/enum_bitset.hpp: EnumBitset::set, EnumBitset::clear, EnumBitset::check, EnumBitset::is_clean, operator=="]}
{"id": "C02", "title": "Initializer-list flag sets equal setting flags one by one", "statement": "Building a flag set from a list of flags gives the same set as starting empty and setting each listed flag, whatever the order and the multiplicity of the list.", "quantifier": "every list of flags", "why_tests_cant": "The number of lists is unbounded and duplicates/permutations are rarely tested.", "anchors": ["src/enum_bitset.hpp: EnumBitset(std::initializer_list)"]}
{"id": "C03", "title": "Trapezoidal matrix cells do not overlap and stay in the buffer", "statement": "For a lower-trapezoidal matrix with any number of rows and columns not exceeding rows, two different cells (row, column) with column <= row never share storage, every cell lies inside the allocated buffer, and every buffer slot belongs to some cell; consecutive cells of a row are consecutive in memory.", "quantifier": "every matrix shape rows >= columns >= 1 and every pair of in-range cells", "why_tests_cant": "Index arithmetic errors show only for particular shapes; shapes are unbounded.", "anchors": ["src/cmat2d.hpp: StorageImplementation<MatrixStorageType::Trapezoid>", "src/cmat2d.hpp: Mat2D::operator()"]}
{"id": "C04", "title": "Row-wise and column-wise matrix addressing is a bijection", "statement": "For dense storage (row-wise or column-wise), the map from (row, column) to buffer slot is a bijection between the cells of a rows x columns matrix and the slots 0..rows*columns-1, and slices (rows, respectively columns) start where the storage class says.", "quantifier": "every shape and every cell", "why_tests_cant": "Unbounded shapes.", "anchors": ["src/cmat2d.hpp: StorageImplementation<MatrixStorageType::RowWise>", "src/cmat2d.hpp: StorageImplementation<MatrixStorageType::ColumnWise>"]}
{"id": "C05", "title": "Matrices own their buffer exactly once", "statement": "For every history of construction, move construction, move assignment, element access and destruction of matrices, no buffer is freed twice or used after being freed, each allocated buffer is owned by exactly one matrix, and once all matrices are destroyed nothing is left allocated.", "quantifier": "every history of operations on any number of matrices", "why_tests_cant": "Ownership errors show up only for particular interleavings of moves and destructions; a test sees a handful of them and a leak is invisible to assertions.", "anchors": ["src/cmat2d.hpp: Mat2D::Mat2D(Mat2D&&), Mat2D::operator=, Mat2D::~Mat2D, Mat2D::operator()"]}
{"id": "C06", "title": "C and S harmonic coefficients never alias", "statement": "In a coefficient table of degree N, storing any C(n,m) (0<=m<=n<=N) or S(n,m) (1<=m<=n<=N) leaves all other C and S coefficients unchanged, reads back the stored value, touches only allocated memory, and together the two families use every one of the (N+1)^2 slots.", "quantifier": "every degree N, every pair of coefficient indices, every sequence of stores", "why_tests_cant": "C and S share one square array by folding the triangle; an off-by-one aliases only particular pairs at particular degrees.", "anchors": ["src/harmonic_coeffs.hpp: HarmonicCoeffs::C, HarmonicCoeffs::S, HarmonicCoeffs::C_row, HarmonicCoeffs::S_row"]}
{"id": "C07", "title": "Coefficient tables survive any sequence of resize, move and destruction without memory errors", "statement": "For every history of construction, resize, move construction, move assignment and destruction of coefficient tables, no row is freed twice, no freed row is accessed, and at the end nothing allocated is lost.", "quantifier": "every history of operations", "why_tests_cant": "Leaks and double frees depend on the order of grow/shrink/move operations.", "anchors": ["src/harmonic_coeffs.hpp: HarmonicCoeffs::resize, HarmonicCoeffs(HarmonicCoeffs&&), operator=(HarmonicCoeffs&&)", "src/gravity/harmonic_coeffs.cpp: HarmonicCoeffs::allocate, HarmonicCoeffs::deallocate"]}
{"id": "C08", "title": "Factorial table and factorial ratio are exact", "statement": "The compile-time table holds i! at index i for every index, and factorialRatio(N, D) is N!/D! for every N >= D.", "quantifier": "every table size, every index, every pair N, D", "why_tests_cant": "Only a few factorials can be tested; the ratio argument order matters for all pairs.", "anchors": ["src/factorial.hpp: FactorialLookUpTable", "src/factorial.hpp: factorialRatio"]}
{"id": "C09", "title": "Denormalisation scales each coefficient by the geodetic normalisation factor, once", "statement": "Denormalising a fully-normalised table up to (degree, order) multiplies C(n,m) and S(n,m) by sqrt((2-delta_0m)(2n+1)(n-m)!/(n+m)!) for m up to the order, leaves other coefficients alone, and a second call changes nothing.", "quantifier": "every degree, order, and coefficient value", "why_tests_cant": "The loop uses a running product; correctness for all (n,m) needs induction.", "anchors": ["src/gravity/harmonic_coeffs.cpp: HarmonicCoeffs::denormalize"]}
{"id": "C10", "title": "Observation codes: only valid type/frequency pairs exist and text is unambiguous", "statement": "Every observation code that can be constructed has frequency 1 or 2 when its type is a carrier type (phase L, pseudorange C, power W) and 0 otherwise; construction succeeds for every valid pair and fails for a carrier type with any other frequency number that fits the frequency field (-128..127), while for the other types the frequency argument is ignored; the type<->character conversions are mutually inverse, unknown characters are rejected, and two codes print the same text only if they are equal.", "quantifier": "every type, every character and every frequency number", "why_tests_cant": "The invariant must hold for each of the 256 characters and all frequency arguments.", "anchors": ["src/doris_system_info.hpp: ObservationCode", "src/doris/doris_system_info.cpp: ObservationType_to_char, char_to_observationType, observationType_has_frequency"]}
{"id": "C11", "title": "Beacon nominal frequencies follow the shift-factor law", "statement": "Nominal S1 and U2 frequencies are affine and strictly increasing in the shift factor k, equal 2036.25 MHz and 401.25 MHz at k = 0, and their ratio is the same for every k.", "quantifier": "every integer shift factor", "why_tests_cant": "Tests cover particular beacons only.", "anchors": ["src/doris/doris_system_info.cpp: beacon_nominal_frequency", "src/doris_system_info.hpp: USO_F0, DORIS_FREQ1_MHZ, DORIS_FREQ2_MHZ"]}
{"id": "C12", "title": "Iono-free combination removes exactly the 1/f^2 delay", "statement": "For any geometric range and any first-order ionospheric delay, the dual-frequency correction computed from the two carriers removes the whole ionospheric term and nothing else, and the iono-free phase-centre combination weights sum to one.", "quantifier": "all real ranges, ionosphere contents, frequencies f1 != f2", "why_tests_cant": "An algebraic identity over reals.", "anchors": ["src/doris_observation_equations.hpp: carrier_iono_correction", "src/doris_system_info.hpp: iono_free_phase_center"]}
{"id": "C13", "title": "A RINEX header accepted as valid is internally consistent", "statement": "If reading a RINEX header reports success then the number of observation codes equals the announced number and equals the number of scale factors, no scale factor is zero, the number of stations equals the announced number, and every time-reference station refers to a listed beacon.", "quantifier": "every byte sequence offered as a header", "why_tests_cant": "The set of malformed headers is unbounded.", "anchors": ["src/rinex/read_rnx_header.cpp: DorisObsRinex::read_header"]}
{"id": "C14", "title": "Header lines are dispatched to one meaning", "statement": "No header line can match two of the recognised header labels: the order of the label tests is irrelevant.", "quantifier": "every 80-column line", "why_tests_cant": "Needs all pairs of labels and all lines.", "anchors": ["src/rinex/read_rnx_header.cpp: DorisObsRinex::read_header"]}
{"id": "C15", "title": "Reading a header stays inside its line buffer", "statement": "For every header content, every byte examined while parsing a line lies in the part of the line buffer filled for that same line (or is its terminator).", "quantifier": "every byte sequence, including short and over-long lines", "why_tests_cant": "Stale-buffer reads depend on the combination of consecutive lines.", "anchors": ["src/rinex/read_rnx_header.cpp: DorisObsRinex::read_header"]}
{"id": "C16", "title": "A data block read with success has the announced shape", "statement": "When reading a data block succeeds, the number of beacon records equals the number announced in the epoch line, every record carries one value per observation code of the header, and beacon ids are those of the block's lines.", "quantifier": "every header, every epoch line, every sequence of lines", "why_tests_cant": "Unbounded inputs.", "anchors": ["src/rinex/doris_rinex.cpp: DorisObsRinex::read_data_block"]}
{"id": "C17", "title": "Skipping and reading a block leave the stream at the same line", "statement": "For every number of stations and observation codes, skipping a data block consumes exactly as many lines as reading it successfully: stations x ceil(codes/5).", "quantifier": "every number of stations and of observation codes", "why_tests_cant": "Off-by-one occurs for multiples of 5 only; the range is unbounded.", "anchors": ["src/rinex/doris_rinex.cpp: skip_data_block, read_data_block", "src/doris_rinex.hpp: lines_per_beacon"]}
{"id": "C18", "title": "Missing observations are recognisable after scaling", "statement": "A blank observation field yields the documented missing-value sentinel, and a non-blank field yields its numeric value divided by the scale factor of its observation code, each value being scaled by its own code's factor.", "quantifier": "every value, every scale factor, every position in the block", "why_tests_cant": "Scale-factor bookkeeping by index; depends on the header.", "anchors": ["src/rinex/doris_rinex.cpp: read_data_block", "src/doris_rinex.hpp: OBSERVATION_VALUE_MISSING"]}
{"id": "C19", "title": "A truncated data block is reported", "statement": "If the file ends before all announced lines of a data block were read, reading the block reports an error and never returns values taken from another line.", "quantifier": "every file and every truncation point", "why_tests_cant": "Every truncation point of every file.", "anchors": ["src/rinex/doris_rinex.cpp: read_data_block, skip_data_block"]}
{"id": "C20", "title": "Epoch lines resolve to their columns", "statement": "Resolving an epoch line succeeds only on lines starting with '>', reports the epoch flag, number of stations and clock offset found in their fixed columns, a blank clock-offset field yields the missing sentinel, and the first failing field determines the status.", "quantifier": "every line", "why_tests_cant": "All column contents.", "anchors": ["src/rinex/doris_rinex.cpp: resolve_data_epoch"]}
{"id": "C21", "title": "Beacon lookups agree with the station list", "statement": "Looking a beacon up by internal id returns the first station with that id and a null/absent answer exactly when no station carries it; looking up by 4-char id is its inverse when ids are unique; observation-code index lookup returns the first matching index or -1.", "quantifier": "every station list and code list, every id", "why_tests_cant": "Requires all lists, with duplicates.", "anchors": ["src/doris_rinex.hpp: beacon_internal_id2id, beacon_id2internal_id, beacon_internal_id2BeaconStation, get_observation_code_index"]}
{"id": "C22", "title": "Block iteration visits each block once and stops at end of file", "statement": "Iterating over a RINEX file with well-formed blocks yields each block exactly once, in order, and then reports end-of-file; an error status is never reported as end-of-file.", "quantifier": "every sequence of blocks", "why_tests_cant": "Unbounded number of blocks.", "anchors": ["src/rinex/rnx_datablock_iterator.cpp: RinexDataBlockIterator::next"]}
{"id": "C23", "title": "L1 epoch correction applies the receiver clock offset once", "statement": "The corrected L1 epoch is the recorded epoch plus the receiver clock offset (in whole nanoseconds) when an offset is given and the file does not say offsets were already applied, and the unmodified epoch otherwise; both overloads agree, and the L2 epoch differs from it by the file's L2/L1 date offset.", "quantifier": "every epoch and every clock offset", "why_tests_cant": "Sentinel handling versus arithmetic for all values.", "anchors": ["src/doris_rinex.hpp: corrected_l1_epoch"]}
{"id": "C24", "title": "EOP look-up tables keep their columns apart and copy faithfully", "statement": "After any sequence of resize and stores, the eight columns (mjd, xp, yp, dut1, lod, dx, dy, omega) never overlap; a copy- or move-constructed table reads back the same records as its source.", "quantifier": "every history of operations, every index", "why_tests_cant": "Column strides depend on capacity history.", "anchors": ["src/eop.hpp: EopLookUpTable"]}
{"id": "C25", "title": "EOP file parsing reports success only when every requested day is present", "statement": "Parsing a C04 file for a date interval succeeds exactly when one record per day of the interval was found and never writes outside the table.", "quantifier": "every file and every interval", "why_tests_cant": "All files.", "anchors": ["src/iers/parse_c04.cpp: parse_iers_C04"]}
{"id": "C26", "title": "Space-weather window stays consecutive", "statement": "After a successful initialisation and any number of successful one-day advances, the four-day window holds four consecutive days ending with the current day; after a failed advance, the window is not silently shifted.", "quantifier": "every file and every sequence of updates", "why_tests_cant": "History dependence.", "anchors": ["src/var/celestrak_swdata.cpp: get_next, parse_csv_for_date", "src/atmosphere/nrlmsise00_get_flux_data.cpp: Nrlmsise00DataFeed::update"]}
{"id": "C27", "title": "Space-weather search delivers all requested days or an error", "statement": "parse_csv_for_date reports success only if the records for the requested day and all requested previous and following days were stored, in order.", "quantifier": "every CSV file and every requested date", "why_tests_cant": "Truncated files etc.", "anchors": ["src/var/celestrak_swdata.cpp: parse_csv_for_date"]}
{"id": "C28", "title": "Ap history array holds the documented 3-hour averages", "statement": "For any time of day the seven Ap entries are: the daily value, the 3-hour values now and 3, 6, 9 hours earlier, the mean of the eight values 12-33 hours earlier and the mean of the eight values 36-57 hours earlier, taken from the four-day window without reading outside it.", "quantifier": "every second of day and every content of the window", "why_tests_cant": "Index arithmetic across day boundaries for each of the 8 intervals and arbitrary data.", "anchors": ["src/atmosphere/nrlmsise00_get_flux_data.cpp: Nrlmsise00DataFeed::init"]}
{"id": "C29", "title": "Flux feed is history independent", "statement": "After any sequence of updates, the parameters delivered for an epoch equal those a freshly constructed feed delivers for that epoch.", "quantifier": "every sequence of update calls", "why_tests_cant": "Histories are unbounded; the fast paths depend on the previous call.", "anchors": ["src/atmosphere/nrlmsise00_get_flux_data.cpp: Nrlmsise00DataFeed::update"]}
{"id": "C30", "title": "Gravity-model files: success means all coefficients were read", "statement": "When reading a gravity-model file to (degree, order) succeeds, each coefficient with n<=degree, m<=min(n,order) was given by the file and stored at its own place, and nothing else is modified.", "quantifier": "every file content", "why_tests_cant": "Duplicates/missing lines for arbitrary files.", "anchors": ["src/gravity/icgemio_rddata.cpp: Icgem::parse_data", "src/icgemio.hpp: coeffs_nr"]}
{"id": "C31", "title": "Number of coefficients expected from a gravity file", "statement": "The count of coefficients expected for (degree l, order m) is the number of index pairs 0<=n<=l, 0<=k<=min(n,m).", "quantifier": "every l, m", "why_tests_cant": "All pairs.", "anchors": ["src/gravity/icgemio_rddata.cpp: coeffs_nr"]}
{"id": "C32", "title": "Gravity-model header parsing terminates and honours keywords", "statement": "Parsing a gravity-model header terminates on every file, stores for each recognised keyword its argument regardless of the position of other keywords, and declares fully normalised coefficients exactly when the norm keyword says so or is absent.", "quantifier": "every file", "why_tests_cant": "All files.", "anchors": ["src/gravity/icgemio_rdhead.cpp: Icgem::parse_header, resolve_header_keyword"]}
{"id": "C33", "title": "Filter parameters have disjoint slots", "statement": "In each filter layout (with or without linear troposphere), the state, per-beacon troposphere and frequency-offset and global parameters occupy disjoint indices that together cover 0..num_params-1 exactly.", "quantifier": "every number of beacons, satellites parameters and every beacon index", "why_tests_cant": "Index arithmetic parametrised by counts.", "anchors": ["src/filters/filters.hpp: EkfFilter, FilterTypeImplementation"]}
{"id": "C34", "title": "Setting a-priori values for all beacons touches only the parameters named", "statement": "Setting troposphere a-priori value or sigma for one beacon, or for all beacons, changes exactly the corresponding parameter slots.", "quantifier": "every number of beacons", "why_tests_cant": "Stride errors only show with more than one beacon.", "anchors": ["src/filters/filters.hpp: set_tropo_apriori, set_tropo_apriori_sigma, set_rfoff_apriori"]}
{"id": "C35", "title": "Kalman measurement update keeps the covariance symmetric positive semidefinite", "statement": "For any prior symmetric positive semidefinite covariance, any design row and any positive observation sigma, the updated covariance is symmetric positive semidefinite, not larger than the prior, and equals the textbook (I-KH)P.", "quantifier": "every dimension, every covariance, every design row, sigma", "why_tests_cant": "Algebra over all matrices.", "anchors": ["src/filters/ekf.hpp: ExtendedKalmanFilter::observation_update"]}
{"id": "C36", "title": "Kalman time update keeps the covariance symmetric positive semidefinite", "statement": "Propagating any symmetric positive semidefinite covariance with any transition matrix keeps it symmetric positive semidefinite.", "quantifier": "every matrix", "why_tests_cant": "All matrices.", "anchors": ["src/filters/ekf.hpp: ExtendedKalmanFilter::time_update"]}
{"id": "C37", "title": "Two-parameter RFO filter: covariance stays valid and the order of observations is irrelevant", "statement": "The linear two-state filter for the receiver frequency offset keeps a symmetric positive definite covariance for every sequence of observations with positive weight, and its information matrix is the sum over observations, hence independent of their order.", "quantifier": "every sequence of observations", "why_tests_cant": "All sequences and permutations.", "anchors": ["src/doris/fit_rfo.cpp: LinearKalman"]}
{"id": "C38", "title": "Attitude lookup interpolates inside the bracketing records", "statement": "When the quaternion hunter answers successfully for an epoch, the two buffered records used bracket the epoch and the slerp parameter lies in [0,1); epochs before the buffer are reported, never extrapolated.", "quantifier": "every record sequence and every sequence of queries", "why_tests_cant": "History of buffer shifts.", "anchors": ["src/satellites/jason3_quaternions.cpp: JasonQuaternionHunter::find_interval, set_at, get_at"]}
{"id": "C39", "title": "Satellite mass/CoG corrections are those in force at the epoch", "statement": "The corrections returned for an epoch are those of the last file record not later than the epoch, and every field is parsed with its sign and all of its digits.", "quantifier": "every file and every epoch", "why_tests_cant": "All files.", "anchors": ["src/satellites/satellite_corrections.cpp: get_satellite_corrections"]}
{"id": "C40", "title": "Station coordinates are extrapolated linearly and in the requested order", "statement": "Extrapolated coordinates equal reference position plus velocity times elapsed years for each axis; results come in the order of the requested ids and each result belongs to a requested id.", "quantifier": "every set of estimates and every request", "why_tests_cant": "All inputs.", "anchors": ["src/ids/get_pdop_crd.cpp: extrapolate_coordinates, extrapolate_sinex_coordinates"]}
{"id": "C41", "title": "Adams integrator: order stays within limits", "statement": "Through any sequence of accepted or rejected steps the method order stays between 1 and 12, order changes by at most one per step, and a rejected step restores the abscissa and divided differences.", "quantifier": "every right-hand side, tolerance and step history", "why_tests_cant": "History dependent.", "anchors": ["src/integrators/sgode_step.cpp: SGOde::step"]}
{"id": "C42", "title": "Integrator driver status is truthful", "statement": "A call to the integrator returns the success status only with the independent variable at the requested point; invalid input is reported as such with no integration performed; the number of internal steps per call is bounded.", "quantifier": "every right-hand side and every argument", "why_tests_cant": "Decision logic for all outcomes of the step routine.", "anchors": ["src/integrators/sgode_de.cpp: SGOde::de"]}
{"id": "C43", "title": "Integrator interpolation is exact at the current point", "statement": "Interpolating at the integrator's current abscissa returns the current solution exactly, for every order.", "quantifier": "every state of the integrator", "why_tests_cant": "All orders and states.", "anchors": ["src/integrators/sgode_intrp.cpp: SGOde::intrp"]}
{"id": "C44", "title": "Kepler solver: success means an accurate root", "statement": "For eccentricity 0<=e<1, when the solver reports success the returned eccentric anomaly differs from the unique exact solution of Kepler's equation by at most 2*tolerance/(1-e), and it always stops after at most 20 iterations.", "quantifier": "every eccentricity, mean anomaly and positive tolerance", "why_tests_cant": "Continuum of inputs.", "anchors": ["src/astrodynamics/kepler.cpp: kepler, kepler_vallado"]}
{"id": "C45", "title": "Elements to state: Keplerian invariants", "statement": "The state computed from elements has the vis-viva energy -GM/(2a), angular momentum sqrt(GM a (1-e^2)) tilted by the inclination, and radius a(1-e cos E), for every time offset.", "quantifier": "all elliptic elements and all time offsets", "why_tests_cant": "Continuum.", "anchors": ["src/astrodynamics/state2kepler.cpp: elements2state", "src/astrodynamics/propagate_state.cpp: propagate_state"]}
{"id": "C46", "title": "State to elements recovers the elements", "statement": "Converting elliptic elements to a state at dt=0 and back recovers semimajor axis, eccentricity, inclination and node.", "quantifier": "all elliptic elements with 0<i<pi", "why_tests_cant": "Continuum.", "anchors": ["src/astrodynamics/state2kepler.cpp: state2elements, elements2state"]}
{"id": "C47", "title": "All element-to-state conversions agree", "statement": "The overloads converting orbital elements into an inertial state (vector, matrix and propagate variants) return the same state for the same elements and time.", "quantifier": "all elements", "why_tests_cant": "Continuum; two of the overloads differ only for special angles.", "anchors": ["src/astrodynamics/state2kepler.cpp: elements2state", "src/astrodynamics/propagate_state.cpp: propagate_state", "src/astrodynamics/perifocal.cpp: perifocal2equatorial"]}
{"id": "C48", "title": "Perifocal-to-equatorial conversion is a rotation and its inverse undoes it", "statement": "The perifocal-to-equatorial matrix is orthogonal for all angles, and equatorial2perifocal inverts perifocal2equatorial.", "quantifier": "all angles", "why_tests_cant": "Continuum.", "anchors": ["src/astrodynamics/perifocal.cpp: perifocal2equatorial_matrix, perifocal2equatorial, equatorial2perifocal"]}
{"id": "C49", "title": "Drag acceleration opposes relative velocity and its partials are its derivatives", "statement": "Drag acceleration is antiparallel to the velocity relative to the rotating atmosphere, the overloads agree, and returned partials with respect to velocity and drag coefficient are the true derivatives.", "quantifier": "all positions, velocities, coefficients", "why_tests_cant": "Continuum.", "anchors": ["src/astrodynamics/drag.cpp: drag_accel"]}
{"id": "C50", "title": "Solar radiation pressure: inverse-square law and exact partials", "statement": "Radiation pressure acceleration points away from the Sun, falls with the inverse square of distance, both overloads agree and the partials are the true derivatives.", "quantifier": "all positions", "why_tests_cant": "Continuum.", "anchors": ["src/astrodynamics/solar_radiation.cpp: solar_radiation_acceleration"]}
{"id": "C51", "title": "Third-body acceleration and its partials", "statement": "The point-mass (tidal) acceleration vanishes at the geocentre, both overloads agree, and the returned partial matrix is the derivative of the acceleration.", "quantifier": "all positions", "why_tests_cant": "Continuum.", "anchors": ["src/gravity/point_mass_acceleration.cpp: point_mass_accel", "src/egravity.hpp: point_mass_accel"]}
{"id": "C52", "title": "Spherical-harmonic recursion stays in its work arrays and obeys its symmetries", "statement": "The recursion for the harmonic work arrays never touches a cell outside them for any degree/order allowed by the size check, rejects order above degree, has W(n,0)=0, W=0 on the plane y=0 and parity (-1)^(n-m) in z.", "quantifier": "every degree, order and position", "why_tests_cant": "Unbounded degrees and continuum of positions.", "anchors": ["src/gravity/lagrange_poly.cpp: lagrange_polynomials"]}
{"id": "C53", "title": "Gravity acceleration: overloads agree, linear in coefficients, central term exact", "statement": "The two acceleration overloads return the same acceleration, the result is linear in the coefficients, and for degree 0 it is -GM*C00*r/|r|^3.", "quantifier": "every degree, order, coefficients and position", "why_tests_cant": "Unbounded.", "anchors": ["src/gravity/gravity_acceleration.cpp: grav_potential_accel"]}
{"id": "C54", "title": "Gravity partials are symmetric and trace free", "statement": "The matrix of gravity partials returned is symmetric with zero trace and does not depend on the previous contents of the output matrix.", "quantifier": "every degree, order, coefficient table, position", "why_tests_cant": "Unbounded.", "anchors": ["src/gravity/gravity_acceleration.cpp: grav_potential_accel"]}
{"id": "C55", "title": "Relativistic clock correction variants agree", "statement": "The relativistic clock corrections with and without the J2 term agree when J2 is zero.", "quantifier": "all states", "why_tests_cant": "Continuum.", "anchors": ["src/relativity/relativistic_clock_correction.cpp"]}
{"id": "C56", "title": "Earth shadow is behind the Earth", "statement": "The cylindrical shadow test reports full light for every satellite on the sunlit side or farther than one Earth radius from the shadow axis, darkness otherwise; the result depends only on the Sun's direction; both overloads agree.", "quantifier": "all satellite and Sun positions", "why_tests_cant": "Continuum.", "anchors": ["src/astrodynamics/occultation.cpp: montebruck_shadow, bernese_shadow1, vallado_shadow, conical_shadow"]}
{"id": "C57", "title": "Celestial/terrestrial state transformation round trip", "statement": "Transforming a state (position and velocity) from terrestrial to celestial frame and back returns the original state, and lengths of positions are preserved.", "quantifier": "all states, angles, orthogonal precession and polar-motion matrices", "why_tests_cant": "Continuum.", "anchors": ["src/itrs2gcrs.cpp: rcel2ter, rter2cel, ycel2ter, yter2cel"]}
{"id": "C58", "title": "Gravity partials are rotated consistently with the acceleration", "statement": "In the equations of motion the inertial partial matrix of the gravity acceleration is the derivative of the inertial acceleration with respect to inertial position.", "quantifier": "all rotations and partial matrices", "why_tests_cant": "Continuum; a transposed rotation is invisible when angles are zero.", "anchors": ["src/variational_equations.cpp: VariationalEquations"]}
{"id": "C59", "title": "Density gradient used by the variational equations is a central difference", "statement": "Each component of the density gradient is the central difference of the density along that axis.", "quantifier": "all density functions and positions", "why_tests_cant": "All functions.", "anchors": ["src/variational_equations.cpp: VariationalEquations"]}
{"id": "C60", "title": "Phase-centre variations interpolate the table", "statement": "For every zenith angle between 0 and 90 degrees the phase centre variation is the linear interpolation of the neighbouring table nodes, equal to the node values at nodes, read without leaving the table; angles outside are flagged.", "quantifier": "every zenith angle, antenna type", "why_tests_cant": "Continuum with boundary cases.", "anchors": ["src/antenna_pcv.hpp"]}
{"id": "C61", "title": "Beacon coordinates table returns records valid at the epoch", "statement": "Records loaded from the beacon table are exactly those whose validity interval contains the requested epoch.", "quantifier": "every table and every epoch", "why_tests_cant": "All tables.", "anchors": ["src/beacon_tbl.hpp", "src/beacon_tbl/beacon_tbl.cpp"]}
{"id": "C62", "title": "Windowed frequency-offset averages are averages", "statement": "When averaging relative frequency offsets in windows of n epochs, each emitted value is the arithmetic mean of the values of its window, including a last, incomplete window.", "quantifier": "every window length and number of epochs", "why_tests_cant": "The leftover window depends on length modulo n.", "anchors": ["src/rinex/fit_rfo.cpp: parse_rinex_rfos"]}
{"id": "C63", "title": "Doppler counts pair consecutive observations of a beacon", "statement": "Each Doppler count is formed from two consecutive observations of the same beacon, and at most one previous observation is kept per beacon.", "quantifier": "every observation sequence", "why_tests_cant": "Unbounded sequences.", "anchors": ["src/doris/extract_doppler_count.cpp"]}
{"id": "C64", "title": "Atmospheric model results do not depend on other model instances", "statement": "Evaluating the atmosphere model gives the same result whatever evaluations were done before on this or other model objects.", "quantifier": "every sequence of calls over every number of instances", "why_tests_cant": "Hidden static caches; only particular call interleavings reveal the problem.", "anchors": ["src/atmosphere/nrlmsise00_globe7.cpp: Nrlmsise00::globe7", "src/atmosphere/nrlmsise00_glob7s.cpp: Nrlmsise00::glob7s"]}
{"id": "C65", "title": "Spline second derivatives solve the spline system and interpolation hits the nodes", "statement": "The cubic-spline routine returns the solution of the tridiagonal spline equations for any number of increasing nodes, and evaluation at a node returns the node value; bisection ends with the bracketing interval.", "quantifier": "every number of nodes and node values", "why_tests_cant": "Unbounded.", "anchors": ["src/atmosphere/nrlmsise_spline.cpp: spline", "src/atmosphere/nrlmsise00_splint.cpp: splint", "src/atmosphere/nrlmsise00_splini.cpp: splini"]}
{"id": "C66", "title": "Exponential atmosphere: layer selection and decay", "statement": "For every positive altitude, the density is computed with the unique layer containing the altitude, is positive, and decreases with altitude inside a layer.", "quantifier": "every altitude", "why_tests_cant": "Continuum.", "anchors": ["src/atmosphere/exponential_atmospheric_model.cpp: density"]}
{"id": "C67", "title": "Effective mass density includes anomalous oxygen once and in the right units", "statement": "The drag variant of the atmosphere model reports the sum of species masses including anomalous oxygen, in g/cm3 or kg/m3 according to the unit switch; the two unit settings differ exactly by the unit conversion.", "quantifier": "all densities and both unit settings", "why_tests_cant": "All values.", "anchors": ["src/atmosphere/nrlmsise00_gtd7d.cpp: gtd7d", "src/atmosphere/nrlmsise00_gtd7.cpp: gtd7"]}
{"id": "C68", "title": "Model switches encode the documented values", "statement": "After set_switch(i, v) the main-effect switch is v mod 2 and the cross-term switch is 1 exactly for v in {1,2}; other switches are unchanged.", "quantifier": "every index and integer value", "why_tests_cant": "All values.", "anchors": ["src/atmosphere/nrlmsise00.hpp: Switches::set_switch, set_null, set_on"]}
{"id": "C69", "title": "File download never leaves a partial file and never overwrites without force", "statement": "http_get returns a negative value and performs no transfer if the file exists and force is off; on any transfer failure the local file does not exist afterwards and a positive status is returned; 0 is returned exactly on success.", "quantifier": "every outcome of the transfer and file system", "why_tests_cant": "Failure outcomes of external calls.", "anchors": ["src/web/http_get.cpp: http_get"]}
{"id": "C70", "title": "Ephemeris kernels are loaded at most once per name", "statement": "After any sequence of load-if-unloaded calls, each requested kernel is loaded, and none is loaded twice.", "quantifier": "every sequence of calls", "why_tests_cant": "Histories.", "anchors": ["src/planets/cspice_utils.cpp: load_if_unloaded_lsk, load_if_unloaded_spk, load_if_unloaded_pck"]}
{"id": "C71", "title": "Polynomial clock model evaluates its polynomial and owns its storage", "statement": "value_at(t) is the polynomial sum of coefficients times powers of (t - t0), and copying/moving never leaves two owners of the same storage.", "quantifier": "every order, coefficients, and history of moves", "why_tests_cant": "Unbounded orders; ownership after moves.", "anchors": ["src/filters/models.hpp: PolynomialModel, LinearModel"]}
{"id": "C72", "title": "Approximate Sun and Moon positions have the advertised distance", "statement": "The approximate Sun/Moon position vectors are rotations of the ecliptic vector: their length equals the series distance for every time.", "quantifier": "every time argument", "why_tests_cant": "Continuum.", "anchors": ["src/planets/sunpos.cpp: sun_vector_montenbruck, sun_vector_curtis, sun_vector_vallado", "src/planets/moonpos.cpp: moon_vector_vallado, moon_vector_approx"]}
{"id": "C73", "title": "Configuration lookup fails cleanly", "statement": "Looking up nested configuration keys returns the stored value when the whole path exists and the error status otherwise, leaving the output unchanged.", "quantifier": "every document tree and key path", "why_tests_cant": "All trees.", "anchors": ["src/var/yaml_utils.cpp", "src/var_utils.hpp"]}
{"id": "C74", "title": "Station lines decode to their columns", "statement": "A STATION REFERENCE line of at least 60 characters decodes to its columns: internal id from columns 0-2, station id from 5-8, name from 10-39 and DOMES number from 40-49 without trailing blanks, beacon type from column 50 and signed shift factor from column 52; a shorter line, or one whose type or shift field is not a number, is rejected with its own status, and after a successful header read the station list is exactly the list of such lines in file order.", "quantifier": "every line and every file", "why_tests_cant": "All contents of the columns.", "anchors": ["src/doris/doris_system_info.cpp: BeaconStation::set_from_rinex_line", "src/rinex/read_rnx_header.cpp: read_header"]}
{"id": "C75", "title": "Gravity acceleration is the gradient of the potential", "statement": "The acceleration returned by the spherical-harmonic evaluation is the gradient of the potential GM/Re * sum (C_nm V_nm + S_nm W_nm): its product with any direction is the derivative of the potential in that direction.", "quantifier": "every degree, order not above it, coefficients, position off the centre", "why_tests_cant": "Needs calculus over all degrees.", "anchors": ["src/gravity/lagrange_poly.cpp: lagrange_polynomials", "src/gravity/gravity_acceleration.cpp: grav_potential_accel"]}
{"id": "C76", "title": "State partials are the derivatives of the two-body state", "statement": "The 6x6 matrix returned by state_partials is the derivative of the two-body state (position and velocity) at time dt after epoch with respect to the six orbital elements at the epoch: along every differentiable curve of elements the state moves with the matrix times the derivative of the elements.", "quantifier": "every elliptic orbit with inclination strictly between 0 and pi, every time difference", "why_tests_cant": "Needs calculus, including differentiating Kepler's equation implicitly; difference quotients only sample.", "anchors": ["src/astrodynamics/state_partials.cpp: state_partials"]}
{"id": "C77", "title": "State transition matrix is the derivative of the propagated state", "statement": "The matrix returned by propagate_state is the derivative of the propagated state with respect to the initial state, and the identity for dt = 0.", "quantifier": "every elliptic non-circular orbit with inclination strictly between 0 and pi other than pi/2, every time difference", "why_tests_cant": "A matrix identity over a continuum of orbits.", "anchors": ["src/astrodynamics/propagate_state.cpp: propagate_state"]}
{"id": "C78", "title": "Header observation codes and scale factors are those of the header lines", "statement": "After a successful header read, the list of observables is exactly the list on the SYS / # / OBS TYPES line, in order, and the scale factor of each observable is the factor of the SYS / SCALE FACTOR line that names it and 1 for observables no such line names.", "quantifier": "every header", "why_tests_cant": "All layouts of codes and factors over unbounded headers.", "anchors": ["src/rinex/read_rnx_header.cpp: read_header", "src/doris/doris_system_info.cpp: ObservationCode"]}
{"id": "C79", "title": "Each step is the Adams formula of its points", "statement": "In every step of order k the predicted solution is the old one plus the integral, over the step, of the polynomial through the last k derivatives; the corrected solution is the old one plus the integral of the polynomial that also takes the derivative at the predicted point; and interpolated solution and derivative are those of the polynomial through the last k+1 derivatives.", "quantifier": "every right-hand side and every history of accepted and rejected steps of any sizes and orders", "why_tests_cant": "The coefficients are kept and updated from step to step, so an error only shows after particular sequences of orders and step sizes.", "anchors": ["src/integrators/sgode_step.cpp: SGOde::step", "src/integrators/sgode_intrp.cpp: SGOde::intrp"]}
{"id": "C80", "title": "Variational equations propagate the partials of the acceleration", "statement": "In the state vector of the variational equations, the derivative of the position is the velocity, that of the velocity is the total acceleration, and that of column j (partials with respect to initial state and drag coefficient) is, in its upper half, the lower half of the column and, in its lower half, the derivative of the total acceleration along the column.", "quantifier": "every state, environment and column", "why_tests_cant": "A wrong entry of the block matrix or a missing force partial only degrades the convergence of an orbit fit; the propagated orbit itself stays right.", "anchors": ["src/variational_equations.cpp: dso::VariationalEquations"]}
{"id": "C81", "title": "The UTC date handed to the atmosphere model is a day and seconds of that day", "statement": "From TAI the right-hand side of the variational equations forms a UTC day and seconds: together they are the instant, and the seconds lie in [0, 86400).", "quantifier": "every TAI date and number of leap seconds", "why_tests_cant": "The instant stays right when day and seconds are shifted against each other, so only the daily lookup of solar flux is affected.", "anchors": ["src/variational_equations.cpp: dso::VariationalEquations"]}
{"id": "C82", "title": "Projected area of the satellite is bounded by its surfaces", "statement": "The area that drag uses is non-negative, at most the sum of the plate surfaces, depends on the attitude quaternion only as a rotation (not on its sign or length), and for Jason-3 is that of three pairs of opposite faces.", "quantifier": "every attitude quaternion, plate list, position and velocity", "why_tests_cant": "A few sampled attitudes do not show a plate counted from behind or a quaternion used without normalization.", "anchors": ["src/variational_equations.cpp: dso::VariationalEquations", "src/satellites/jason3.hpp: MacroModel"]}
{"id": "C83", "title": "Third-body accelerations are the point-mass law in SI units", "statement": "The accelerations by Sun and Moon handed to the integrator are those of the point-mass law in metres, the Sun position is in metres, and the positions are those of the TT date.", "quantifier": "every position of satellite, Sun and Moon and every gravitational parameter", "why_tests_cant": "A wrong power of ten in a small force is invisible in short propagations.", "anchors": ["src/sunmoon.cpp: dso::SunMoon"]}
{"id": "C84", "title": "Interpolated Earth orientation restores the tidal effects removed by regularization", "statement": "Regularization subtracts the zonal tides once from each row and touches nothing else; interpolation afterwards gives, at tabulated dates, the tabulated values plus ocean tides and libration, in between the interpolated table plus the tidal variation, and reports failure when an interpolation fails.", "quantifier": "every table, date and library function", "why_tests_cant": "A tide removed twice, or a failed interpolation, changes values by less than the size of the parameters themselves.", "anchors": ["src/iers/eop_interpolate.cpp: EopLookUpTable::interpolate, EopLookUpTable::regularize"]}
{"id": "C85", "title": "Celestial-to-terrestrial rotation uses TT and UT1 of the epoch", "statement": "For a TAI date, pole, celestial pole and length of day are interpolated for TT = TAI + 32.184 s and the Earth rotation angle is taken for UT1 = TAI - leap seconds + (UT1-UTC), both to less than a nanosecond; dates that cannot be interpolated are refused.", "quantifier": "every TAI date, table and library function", "why_tests_cant": "A wrong time scale moves the frame by metres only, which looks like an orbit error.", "anchors": ["src/itrs2gcrs.cpp: dso::gcrs2itrs"]}
{"id": "C86", "title": "A refused integrator step lets the integration go on", "statement": "When a step is refused (step size or tolerance too small), abscissa and solution are left as they were, the step size handed back is not refused again, nor is the tolerance unless it was not looked at yet, and the driver hands back tolerances in the old ratio whose larger one is the one asked for; so the second retry at the latest makes an attempt.", "quantifier": "every state, right-hand side and tolerance", "why_tests_cant": "Refusals only happen at tolerances near the rounding error, which no test uses; a tolerance handed back too small makes the caller retry for ever.", "anchors": ["src/integrators/sgode_step.cpp: SGOde::step", "src/integrators/sgode_de.cpp: SGOde::de"]}
{"id": "C87", "title": "Classical elements give the state back", "statement": "For a state that is neither rectilinear nor circular nor equatorial, the three functions that return classical elements return the magnitude of the angular momentum and the eccentricity, the inclination in [0, pi], node, perigee and true anomaly in [0, 2 pi), and the conic section with these elements has the position and velocity it was made from.", "quantifier": "every position, velocity and gravitational parameter, elliptic or hyperbolic", "why_tests_cant": "Quadrant errors of inverse cosines show in only one of eight combinations of signs, and an alternative function that nobody calls is not tested at all.", "anchors": ["src/astrodynamics/state2kepler.cpp: dso::state2kepler, state2kepler_vallado, state2kepler_montenbruck"]}
{"id": "C88", "title": "Right ascension and declination give the direction back", "statement": "Away from the poles, the right ascension (in [0, 2 pi)) and declination (in [-pi/2, pi/2]) of a position give its direction back.", "quantifier": "every position off the polar axis", "why_tests_cant": "The boundary of the range is met on one half plane only.", "anchors": ["src/astrodynamics/pos2ra.cpp: dso::pos2ad"]}
{"id": "C89", "title": "Conical shadow function is the visible part of the Sun", "statement": "The conical shadow function returns the area of the solar disc not covered by the disc of the Earth, divided by the area of the solar disc, with the angular radii and the separation seen from the satellite; so it lies in [0, 1], is 1 with the Sun clear of the Earth and 0 with the Sun behind it.", "quantifier": "every satellite and Sun position", "why_tests_cant": "The partial eclipse lasts seconds per revolution; a wrong segment area gives a plausible number between 0 and 1.", "anchors": ["src/astrodynamics/occultation.cpp: utest::conical_shadow"]}
{"id": "C90", "title": "Umbra and penumbra of the shadow cones", "statement": "The shadow function after Vallado returns 0 in the umbra, 1/2 in the rest of the penumbra and 1 elsewhere, where the cones touch Earth and Sun from outside and inside.", "quantifier": "every satellite and Sun position and radii", "why_tests_cant": "Umbra and penumbra of a low satellite differ by tens of kilometres only; a sign error leaves most of the orbit right.", "anchors": ["src/astrodynamics/occultation.cpp: utest::vallado_shadow"]}
{"id": "C91", "title": "Fit of the frequency offset takes every block once", "statement": "The fit over a list of observation files returns the least-squares estimate of offset and drift from the start values and one observation per block: the block's epoch and the frequency offset that all its beacons report. It fails with a nonzero status, and does not terminate the program, when a file cannot be read, has no frequency offset, or a block disagrees with itself.", "quantifier": "every list of files with any number of blocks and beacons, every start uncertainty", "why_tests_cant": "A block counted twice or a skipped last block changes the estimate by less than its uncertainty; a file without blocks or with a missing value is not in the test set.", "anchors": ["src/doris/fit_rfo.cpp: fit_relative_frequency_offset, rinex_rfo"]}
{"id": "C92", "title": "Search for the altitude of a pressure", "statement": "The function that returns the altitude of a given pressure leaves the atmosphere at an altitude where the pressure is the given one to about a thousandth when it reports success, and its result depends on the given pressure.", "quantifier": "every pressure, place, time and earlier use of the instance", "why_tests_cant": "Nothing calls the function in the tests, and a search that never moves still returns densities that look right.", "anchors": ["src/atmosphere/nrlmsise00_ghp7.cpp: dso::Nrlmsise00::ghp7"]}
{"id": "C93", "title": "Effects that are switched off do not act", "statement": "With a switch of the atmosphere model off, the inputs of that effect do not change densities or temperatures: flux with 0, day of the year with 2 to 5, local time with 6, 7 and 13, magnetic indexes with 8 and 12, longitude with 10, universal time with 11, longitude and universal time with 9.", "quantifier": "every input, species and state of the instance, any values of the other switches", "why_tests_cant": "The terms are a hundred products of coefficients; one product that lacks its switch is seen only for that switch.", "anchors": ["src/atmosphere/nrlmsise00_globe7.cpp: dso::Nrlmsise00::globe7", "src/atmosphere/nrlmsise00_glob7s.cpp: glob7s", "src/atmosphere/nrlmsise00_gtd7.cpp: gtd7", "src/atmosphere/nrlmsise00_gts7.cpp: gts7"]}
{"id": "C94", "title": "Reference conditions of the atmosphere model", "statement": "At a daily and mean flux of 150 the densities and temperatures are those with the effect of the flux switched off; at a magnetic index of 4, daily or through the whole array of indexes, they are those with magnetic activity switched off.", "quantifier": "every place and time, any values of the other inputs and switches", "why_tests_cant": "The coefficients are fitted relative to the reference conditions; a sum in place of a difference only shows exactly there.", "anchors": ["src/atmosphere/nrlmsise00_globe7.cpp: dso::Nrlmsise00::globe7", "src/atmosphere/nrlmsise00_glob7s.cpp: glob7s", "src/atmosphere/nrlmsise00.hpp: g0, sg0"]}
{"id": "C95", "title": "Running statistics and outlier test of the residuals", "statement": "The running mean, count and variance are those of all residuals accepted so far, in whatever order they came; a residual is used exactly if it is below the threshold, 1000 for the first six and 30 standard deviations over the sine of the elevation afterwards, and a rejected one leaves the statistics alone.", "quantifier": "every sequence of residuals and elevations", "why_tests_cant": "The recurrence agrees with the definition only after an induction over the sequence; six identical residuals lock all others out, which no recorded data set contains.", "anchors": ["test/rinex_pod.cpp: RunningStatistics, main"]}
{"id": "C96", "title": "Pairing of observations into Doppler counts", "statement": "A Doppler count is formed exactly from a usable observation and the latest earlier usable observation of the same beacon, at most five minutes earlier and with no flagged observation of the beacon in between; it spans a positive time and uses only values present in the file.", "quantifier": "every sequence of observations of any number of beacons, every flag, time and elevation", "why_tests_cant": "The bookkeeping depends on the whole history of all beacons; files with a repeated beacon or a missing value are rare.", "anchors": ["test/rinex_pod.cpp: main, SatBeacon"]}
{"id": "C97", "title": "Numbering of beacons and arcs", "statement": "Every beacon gets a filter number below the number of stations, keeps it, and shares it with no other; numbers are given in order of first use, and the arc number counts the gaps of more than five minutes.", "quantifier": "every sequence of observations", "why_tests_cant": "A number given twice mixes the parameters of two beacons and only shows for the order of beacons that triggers it.", "anchors": ["test/rinex_pod.cpp: main, SatBeacon"]}
{"id": "C98", "title": "Ionospheric correction of the range rate", "statement": "The ionospheric correction removes the effect of the electron content from the measured range rate.", "quantifier": "every electron content at both ends, every frequency pair", "why_tests_cant": "A correction with the wrong sign doubles an effect of a few centimetres per second, within the scatter of the residuals.", "anchors": ["test/rinex_pod.cpp: main", "src/doris_system_info.hpp: carrier_iono_correction"]}
{"id": "C99", "title": "Residual of an error-free count", "statement": "For a count without errors, taken with the true geometry and frequencies, the residual is zero.", "quantifier": "every geometry, receiver frequency and emitter offset, either sign convention of the phases", "why_tests_cant": "The remainder is a constant for a constant receiver offset and is absorbed by the estimated beacon offsets.", "anchors": ["test/rinex_pod.cpp: main"]}
{"id": "C100", "title": "Design vector of the Doppler observation", "statement": "The design vector given to the filter holds the partial derivatives of the predicted observation with respect to every estimated parameter, for both models of the beacon clock.", "quantifier": "every geometry, every beacon number, every parameter", "why_tests_cant": "A wrong partial slows or biases convergence without any error being reported.", "anchors": ["test/rinex_pod.cpp: main", "src/filters/filters.hpp: EkfFilter"]}
{"id": "C101", "title": "Weight of an observation by elevation", "statement": "Observations at lower elevation are given a larger standard deviation, and that of an observation at the zenith is the configured one.", "quantifier": "every elevation between horizon and zenith", "why_tests_cant": "Weights do not show in the residuals of a converged filter.", "anchors": ["test/rinex_pod.cpp: main"]}
{"id": "C102", "title": "Transition matrix of the time update", "statement": "The time update uses the transition matrix of the propagated interval.", "quantifier": "every integrator, force model and interval", "why_tests_cant": "The filter still runs with a wrong transition matrix; the covariance is not compared with anything.", "anchors": ["test/rinex_pod.cpp: SatelliteState::integrate, main"]}
{"id": "C103", "title": "Propagation between antenna and centre of gravity", "statement": "The orbit is integrated for the centre of gravity and handed out for the antenna: the vector between them is rotated with the attitude and keeps its length, the first state is taken as that of the centre of gravity, and a propagation continues exactly where the previous one ended; one that does not reach its end changes nothing.", "quantifier": "every state, attitude, integrator and sequence of dates", "why_tests_cant": "Antenna and centre of gravity are two metres apart, and a state handed over at the wrong point is still a plausible orbit.", "anchors": ["test/rinex_pod.cpp: SatelliteState::integrate, SatelliteState::eccentricity"]}
{"id": "C104", "title": "Reference points of the beacons", "statement": "Every beacon is moved from its mark up the local vertical by the height of the station table, keeping identifiers and order; a beacon missing from the table is reported; coordinates are found under the identifier; the point of the observation equation lies above the antenna by the ionosphere-free phase centre.", "quantifier": "every list of sites, every table, every local frame", "why_tests_cant": "A failure half way leaves some sites moved, which needs a table that lacks one beacon.", "anchors": ["test/rinex_pod.cpp: prepare_beacon_coordinates, beacon_coordinates, beacon_arp2ion"]}
{"id": "C105", "title": "Mass, centre of gravity and phase centre of the satellite", "statement": "Mass and centre of gravity are the initial values plus the corrections in force, untouched if these cannot be read; the phase centre of the receiver is the ionosphere-free combination of those of the two channels.", "quantifier": "both satellites, every correction file and epoch", "why_tests_cant": "A sign in the combination moves the antenna by 13 mm, less than the orbit error of the tests.", "anchors": ["src/satellites/jason3.hpp: mass_cog, pco", "src/satellites/cryosat2.hpp: mass_cog, pco", "test/rinex_pod.cpp: main"]}
{"id": "C106", "title": "Zenith angle of the tropospheric mapping", "statement": "The mapping functions are evaluated at the zenith angle of the satellite.", "quantifier": "every zenith angle from zenith to horizon, any mapping function and zenith delays", "why_tests_cant": "The mapping factors stay near one instead of growing to ten; no test compares them.", "anchors": ["test/rinex_pod.cpp: get_tropo, get_tropo_vmf"]}
{"id": "C107", "title": "Observations one by one give the least-squares solution", "statement": "A new filter fed with linear observations one after the other holds the estimates that minimise the sum of squares of the parameters and of the weighted residuals, and the inverse of the normal matrix as covariance; the order of the observations does not matter.", "quantifier": "every number of parameters, every list of linear observations with positive standard deviations", "why_tests_cant": "Relates the whole history of updates to a batch solution; needs induction over the list of observations.", "anchors": ["src/filters/ekf.hpp: ExtendedKalmanFilter"]}
{"id": "C108", "title": "Polynomial fit of the receiver frequency offset over files", "statement": "The coefficients are those of the polynomial in the time since the reference date that minimises the sum of squared residuals over the mean values of all windows of all files; data on a polynomial give that polynomial; every row has room in the design matrix; a file that cannot be read makes the fit fail; files without data add nothing.", "quantifier": "every order of the polynomial, every number of files and epochs, every window length, every date range", "why_tests_cant": "Needs the solution over an unbounded number of observations and the allocation guess for every number of epochs.", "anchors": ["src/rinex/fit_rfo.cpp: fit_relative_frequency_offset"]}
{"id": "C109", "title": "Loading a gravity model", "statement": "A gravity model file with a well-formed header and every coefficient up to the degree and order asked for is accepted; the constants, degree and normalisation mark are those of the header; every coefficient asked for has the value of the file, multiplied by the normalisation factor exactly if the file is normalised and de-normalised coefficients are asked for; every coefficient handed to the caller was set; a degree above that of the header or an order above the degree is refused.", "quantifier": "every degree and order, every header, every data section, every prior content of the table", "why_tests_cant": "Composes header, data section, storage layout and de-normalisation over unbounded degree; the unset coefficient depends on memory contents.", "anchors": ["src/gravity/parse_coefficients.cpp: parse_gravity_model", "src/gravity/icgemio_rddata.cpp: Icgem::parse_data"]}
{"id": "C110", "title": "Debug version of the solid harmonics recursion", "statement": "The row-wise version of the solid harmonics recursion (compiled in debug builds, given as the reference for the trapezoidal one) stores V(n,m) and W(n,m) of Cunningham's recursion for every degree up to l and order up to k, stays inside its arrays, and refuses an order above the degree.", "quantifier": "every degree and order, every position, every array shape large enough", "why_tests_cant": "Two nested loops over unbounded degree and order.", "anchors": ["src/gravity/lagrange_poly.cpp: lagrange_polynomials (RowWise)"]}
{"id": "C111", "title": "The atmosphere model is a function on the sphere", "statement": "The latitude functions of the atmosphere model are the associated Legendre functions of degree up to 7 and order up to 3; longitudes that differ by a full turn give the same densities and temperatures; at the poles neither longitude nor local time act.", "quantifier": "every latitude, longitude, local time, date, altitude, requested species, switch setting, parameter table and state of the instance", "why_tests_cant": "Equality of the outputs for all inputs and all instance states; hand-coded polynomials and dozens of terms with one index each.", "anchors": ["src/atmosphere/nrlmsise00_globe7.cpp: globe7", "src/atmosphere/nrlmsise00_glob7s.cpp: glob7s"]}
{"id": "C112", "title": "The atmosphere is evaluated for the place and time of the satellite", "statement": "Each density needed by the variational equations is that of the Earth-fixed place of the (displaced) satellite, for the date and space weather of the epoch, with local time consistent with universal time and longitude, in the units and with the switches set up.", "quantifier": "every epoch, position, prior content of the input record, any number of evaluations", "why_tests_cant": "The missing assignment shows only as a dependence on memory contents; frames differ by the rotation of the Earth.", "anchors": ["src/atmosphere/nrlmsise00.hpp: InParams<ST_CSV_SW>::update_params, set_spatial_from_cartesian", "src/variational_equations.cpp: VariationalEquations"]}
{"id": "C113", "title": "The integrator stays inside its work arrays and reads nothing it has not written", "statement": "Every access of the step and of the interpolation to the coefficient arrays, the columns of differences, the local arrays and the table of constants lies within the array; every element read was written before, in this step or an earlier one; different elements never share a place in memory.", "quantifier": "every history of starts, restarts, rejected and accepted steps, of any length, from the construction of the object on; every order the integrator may choose", "why_tests_cant": "Indices depend on the order, which the integrator chooses from the error; an element read before it is written holds whatever the memory held, which in a test is often zero.", "anchors": ["src/integrators/sgode.hpp: SGOde", "src/integrators/sgode_step.cpp: SGOde::step", "src/integrators/sgode_intrp.cpp: SGOde::intrp"]}
{"id": "C114", "title": "Gravity during the integration is that of the model file", "statement": "With a gravity model loaded from a file, the integration parameters built for its degree provide arrays that fit every call; each evaluation of the variational equations gives, as acceleration by the Earth, the gradient in the celestial frame of the potential with the constants and coefficients of the file; only coefficients in the table are used, and nothing depends on earlier evaluations or on what memory held.", "quantifier": "every file accepted, degree, order, celestial position, rotation, number of evaluations, prior contents of the work arrays and of the table", "why_tests_cant": "Five functions and three classes must agree on sizes, frames and normalisation; wrong coefficients of low degree still give plausible orbits.", "anchors": ["src/orbit_integration.hpp: IntegrationParameters", "src/egravity.hpp: grav_potential_accel", "src/variational_equations.cpp: VariationalEquations", "src/gravity/parse_coefficients.cpp: parse_gravity_model"]}
{"id": "C115", "title": "Temperature and density of the atmosphere model as functions of height", "statement": "For given node temperatures and gradients, the temperature profile is continuously differentiable in height from the ground up, across the joining heights of its parts, takes the node values at the nodes and the prescribed gradients at the ends, and follows the Bates law above the joining height; the density of each gas satisfies the equation of diffusive equilibrium d ln n/dz = -(1+alpha) T'/T - m g(z)/(R T) at every height, starting from the given value.", "quantifier": "all heights, node temperatures and gradients with positive temperature between them, molecular weights, diffusion coefficients, boundary values, radii and surface gravities; real arithmetic", "why_tests_cant": "A wrong sign, power or gravity factor changes densities by per cents only; kinks at the joining heights appear as force discontinuities along an orbit.", "anchors": ["src/atmosphere/nrlmsise00_densu.cpp: densu", "src/atmosphere/nrlmsise00_densm.cpp: densm", "src/atmosphere/nrlmsise00_gtd7.cpp: gtd7", "src/atmosphere/nrlmsise00.hpp: zeta"]}
{"id": "C116", "title": "Running mean and variance in double precision", "statement": "Computed in double arithmetic with rounding, the running mean of a set of values always lies between the smallest and the largest of them, the accumulated sum of squares never decreases and is never negative, so the standard deviation is a number and not NaN, and for equal values the mean is that value and the variance zero without any error.", "quantifier": "all lists of finite doubles, subnormal ones included; any choice among equally near doubles, with or without fused multiply-add; results below the overflow limit", "why_tests_cant": "Cancellation in the update depends on the bits of the values and on the compiler; a negative variance would appear for rare values only.", "anchors": ["test/rinex_pod.cpp: RunningStatistics::update", "test/rinex_pod.cpp: RunningStatistics::variance"]}
{"id": "C117", "title": "Accuracy of de-normalised gravity coefficients in double precision", "statement": "Computed in double arithmetic with rounding and overflow, every de-normalised coefficient of degree n and order m differs from the exact one by a relative error of at most (m+2) 2^-51.", "quantifier": "all degrees and orders, all coefficients of size 2^-500 to 2^500 or zero; any choice among equally near doubles", "why_tests_cant": "The intermediate product of integers grows like a factorial and overflows from degree 86 on; the coefficient silently becomes zero, a value without visible fault.", "anchors": ["src/gravity/harmonic_coeffs.cpp: _sum", "src/gravity/harmonic_coeffs.cpp: compute_fac", "src/gravity/harmonic_coeffs.cpp: HarmonicCoeffs::denormalize", "config/config-ja3.yaml: gravity"]}
{"id": "C118", "title": "Clock offsets and L2 epochs in double precision", "statement": "Computed in double arithmetic with rounding, the receiver clock offset and the L2 to L1 offset of a RINEX file, written with a fixed number of decimals, shift the epoch by exactly the written number of nanoseconds.", "quantifier": "all epochs, all offsets of up to 2^50 units; any choice among equally near doubles", "why_tests_cant": "Decimal fractions are not doubles and the conversion to an integer cuts off; whether a nanosecond is lost depends on the single value.", "anchors": ["src/doris_rinex.hpp: corrected_l1_epoch", "src/doris_rinex.hpp: apply_clock_offset", "src/doris_rinex.hpp: l21_date_offset", "src/rinex/rnx_datablock_iterator.cpp: corrected_l1_epoch"]}
{"id": "C119", "title": "Date of the Earth orientation during integration in double precision", "statement": "Computed in double arithmetic with rounding, the date handed to the Earth orientation during integration is the date of the integration time to the nanosecond; it is a valid date and later times never give earlier dates.", "quantifier": "all start dates with MJD 32769 to 65535, all integration times within 16 days; any choice among equally near doubles", "why_tests_cant": "A modified Julian date in one double has steps of 0.6 microseconds; the loss is invisible in a comparison of positions in metres.", "anchors": ["src/itrs2gcrs.cpp: gcrs2itrs", "src/variational_equations.cpp: VariationalEquations"]}
{"id": "C120", "title": "Orbital elements and spherical coordinates are numbers in double precision", "statement": "Computed in double arithmetic with rounding, the angles among the orbital elements and the spherical coordinates of a satellite are numbers and not NaN.", "quantifier": "all positions and velocities with components zero or of size 2^-500 to 2^500; any choice among equally near doubles, with or without fused multiply-add", "why_tests_cant": "An arc cosine of a quotient one rounding above 1 is NaN; this needs special states, such as one exactly at perigee, and depends on the last bit.", "anchors": ["src/astrodynamics/state2kepler.cpp: state2kepler", "src/astrodynamics/state2kepler.cpp: state2kepler_vallado", "src/astrodynamics/state2kepler.cpp: state2kepler_montenbruck", "src/astrodynamics/pos2ra.cpp: pos2ad"]}
{"id": "C121", "title": "Shadow functions in double precision", "statement": "Computed in double arithmetic with rounding, every shadow function gives a number and decides as the exact function does, except within a fraction of a micrometre of the boundary of the shadow; in particular a satellite exactly behind the Earth is in shadow.", "quantifier": "all positions of satellite and Sun that are not subnormally small; any choice among equally near doubles, with or without fused multiply-add in the norms", "why_tests_cant": "The failure needs a satellite on the axis of the shadow, where a rounded cosine exceeds 1 or a rounded square is negative; NaN then turns a comparison into full sunlight.", "anchors": ["src/astrodynamics/occultation.cpp: vallado_shadow", "src/astrodynamics/occultation.cpp: montebruck_shadow", "src/astrodynamics/occultation.cpp: bernese_shadow1", "src/astrodynamics/occultation.cpp: conical_shadow"]}
{"id": "C122", "title": "Every integrator step ends and moves the time on, in double precision", "statement": "In double arithmetic every call of the step routine returns after a bounded number of attempts, an accepted step changes the time in the direction of integration, and in the mode that must not pass the output time no step does.", "quantifier": "all times, step sizes, tolerances and error estimates, NaN and infinite estimates included; any choice among equally near doubles", "why_tests_cant": "A stall needs a step size near the resolution of the time, and an endless loop a derivative that is NaN at the start of an integration; neither appears with a healthy orbit.", "anchors": ["src/integrators/sgode_step.cpp: step", "src/integrators/sgode_de.cpp: de", "test/rinex_pod.cpp: integrate"]}
{"id": "C123", "title": "The corrections of the atmosphere model stay within their limits", "statement": "The chemistry corrections pass steadily from exp(r) to one around their altitude, the net density of diffusive and mixed profile is the power sum of both and lies on the right side of them, vanishing densities give a vanishing net density, and the magnetic index formed from a history is a weighted mean of the responses to its values.", "quantifier": "all altitudes, correction heights, scale lengths, densities and magnetic histories, over the real numbers; all parameter sets in the tables", "why_tests_cant": "The corrections are empirical functions without tabulated reference values; a density that vanishes and a history far from quiet conditions are not among the published test cases.", "anchors": ["src/atmosphere/nrlmsise00_ccor.cpp: ccor", "src/atmosphere/nrlmsise00_ccor2.cpp: ccor2", "src/atmosphere/nrlmsise00_dnet.cpp: dnet", "src/atmosphere/nrlmsise00.hpp: g0, sumex, sg0"]}
{"id": "C124", "title": "Asking the atmosphere model for one species gives what asking for all gives", "statement": "When the atmosphere model is asked for a single species, the density of this species and the two temperatures are those it returns when asked for all species, and the answer depends neither on earlier calls nor on what the output held before.", "quantifier": "all altitudes, places, times, fluxes and magnetic indices; every selectable species; all earlier histories of the object with usable caches", "why_tests_cant": "Nothing in the repository calls the model with a single species; the published test cases all ask for everything.", "anchors": ["src/atmosphere/nrlmsise00_gts7.cpp: gts7", "src/atmosphere/nrlmsise00_gtd7.cpp: gtd7"]}
{"id": "C125", "title": "Successive calls continue the integration", "statement": "After a successful call of the integrator the next call is accepted from the point reached; onward it continues from the state of the last call, a target already passed costing no step, and in the other direction it starts anew from the values passed.", "quantifier": "all step routines, interpolations and right-hand sides, all states, targets and tolerances, over every linearly ordered field", "why_tests_cant": "The programs restart the integrator before nearly every call; how calls follow each other depends on flags left by the one before, in particular after a call that must not step past its target.", "anchors": ["src/integrators/sgode_de.cpp: SGOde::de"]}
{"id": "C126", "title": "Densities of the upper thermosphere fall with the height", "statement": "Between 450 and 2500 km the density of each species but anomalous oxygen, and the mass density, is positive and strictly smaller at the greater of two heights, other inputs being equal; anomalous oxygen is positive, rises up to 550 km and falls above.", "quantifier": "all pairs of heights, all other inputs and all usable states of the members, for temperatures of the base and far above with 0 < base <= above <= 10000 K, a positive gradient and a solar flux within 1000 units of its mean, over the real numbers", "why_tests_cant": "A test compares a few heights for a few inputs; the correction of molecular oxygen changes its sign with the solar flux and then raises the density with the height.", "anchors": ["src/atmosphere/nrlmsise00_gts7.cpp: Nrlmsise00::gts7", "src/atmosphere/nrlmsise00_densu.cpp: Nrlmsise00::densu", "src/atmosphere/nrlmsise00_ccor2.cpp: ccor2"]}
{"id": "C127", "title": "The merged bulletin file holds every day asked for", "statement": "For a date t and a limit of N days the download script ends with a file that holds all days from t - N to t + N, its bulletins in chronological order.", "quantifier": "all dates and limits, all servers with bulletins of 28 to 31 days each without gap or overlap", "why_tests_cant": "Whether the script ends depends on where the ends of the interval fall inside the bulletins; a run on one date says nothing about the four days of each month on which it loops, raises an exception or leaves out a day.", "anchors": ["script/fetch_iers_c04.py: __main__", "script/fetch_iers_c04.py: c04_dict_to_sorted_list"]}
{"id": "C128", "title": "The values of the bulletins arrive in the table of Earth orientation parameters", "statement": "The script extracts exactly the final values of sections 1 and 3 of a bulletin, joins them by day and writes one line per day with the values in the columns of its heading; parse_iers_C04 reads that file and stores each quantity under its name.", "quantifier": "all bulletins, all values, all files written, all intervals asked for", "why_tests_cant": "The two programs are written in two languages and are never run together by a test; that the file of one cannot be read by the other follows from the sign printed before every number, whatever the numbers are.", "anchors": ["script/fetch_iers_c04.py: c04_get_final_data", "script/fetch_iers_c04.py: c04_cat", "src/iers/parse_c04.cpp: dso::parse_iers_C04"]}
{"id": "C129", "title": "A block of a site log is read part by part", "statement": "Reading block n of a site log gives one dictionary for every part of the block, in order, with the values of its fields joined over their lines; the list of antennas shows every antenna of block 2 with its dates and its height in metres.", "quantifier": "all logs, all blocks 0 to 9, any number of parts, fields and lines, all heights", "why_tests_cant": "Which parts are lost depends on what follows the block; which heights are read wrongly depends on the number of their digits. The script has no tests, and the logs at hand show only heights with decimals.", "anchors": ["script/pydoris/pydoris/log/ids_log_parser.py: IdsLogFile.parse_block_nr", "script/pydoris/pydoris/log/ids_log_parser.py: dump_log_antenna_info"]}
{"id": "C130", "title": "Numbers in Fortran notation reach the reader of gravity field files", "statement": "After script/gfc_fortran2c.py a file of gravity field coefficients in Fortran notation is read with the numbers that are written there: every word of the data section is converted on its own, only the letters of exponents are changed, and the reader gets degree, order and both coefficients of every line; without the conversion such lines are refused.", "quantifier": "all files, all lines, all numbers with sign, decimals and exponent, any number of digits and blanks", "why_tests_cant": "Which numbers the regular expression misses, and what the reader then does with them, depends on their digits; the script has no tests.", "anchors": ["script/gfc_fortran2c.py", "src/gravity/icgemio_rddata.cpp: Icgem::parse_data", "src/gravity/icgemio_rdhead.cpp: Icgem::parse_header"]}
{"id": "C131", "title": "Shadow passes are listed with their beginnings and ends", "statement": "For every shadow model the list printed by test_satellite_shadow has one entry for every interval of epochs in shadow, in order, with the first epoch in shadow as its beginning and the first epoch in light after it as its end, separately for penumbra and umbra.", "quantifier": "all sequences of epochs and coefficients of any length, with any failures of the interpolation", "why_tests_cant": "The lists are state machines whose errors need particular sequences: a first epoch in light, two epochs in penumbra in a row, a second passage; the program has no expected output.", "anchors": ["test/test_satellite_shadow.cpp: shadow_coeff", "test/test_satellite_shadow.cpp: main"]}
{"id": "C132", "title": "Doppler counts printed are differences between consecutive observations of a beacon", "statement": "test_one_pass prints, in the order of the observations of a file, one Doppler count for every observation without discontinuity whose predecessor of the same beacon is without discontinuity: the difference of the two phases, free of the ionosphere, with the time and the change of distance between the two; test_rinex_extract does the same for all observations and uncorrected phases. The summary gives the number of observations and of those with discontinuities of every station.", "quantifier": "all files with any number of blocks, beacons and observations, all flags and phases, all orbits", "why_tests_cant": "Which pairs are formed depends on the history of flags of each beacon over the file; the programs have no expected output, and a wrong pair looks like a right one.", "anchors": ["test/test_one_pass.cpp: main", "test/test_one_pass.cpp: match_beacon", "test/test_rinex_extract.cpp: main"]}
{"id": "C133", "title": "The Runge-Kutta-Fehlberg integrator reaches the output point with the accuracy asked for", "statement": "One step of RKF45 is the explicit Runge-Kutta step of order 5 of Fehlberg's table, and its error estimate is the difference to the embedded step of order 4. A call of rkfs ends after a bounded number of evaluations; flag 2 means that the output point is reached, the time never leaves the interval, and the solution is a composition of steps that pass the tolerance, the step size being reduced at most by 10 and enlarged at most by 5.", "quantifier": "all functions, dimensions, initial values, tolerances, intervals and states of the members, any ordered field", "why_tests_cant": "Termination and the tolerance of every step depend on the function integrated and on data-dependent sequences of rejected and accepted steps; the example program integrates one problem.", "anchors": ["var/ode_solvers/rkf45_fehl.cpp: fehl", "var/ode_solvers/rkf45_rkfs.cpp: rkfs", "var/ode_solvers/rkf45.hpp: RKF45"]}
{"id": "C134", "title": "Orbits propagated from SP3 records are reported once per record and in the right frame and time", "statement": "The programs test_sp3_integrator and test_sp3_fit_state print, for every record of an SP3 file with a position, up to the first more than 12 hours after the start and at most 1000, one line with the epoch reached and the terrestrial state of the motion through the record; rinex_interpolator prints one line for every epoch of observations with the terrestrial state at that epoch, and keeps the transition matrix found by the integrator. Sun and Moon attract with their own masses.", "quantifier": "all sequences of records and of reader states, all intervals, all frames of rotation, all motions", "why_tests_cant": "The loops depend on the state of the reader and on two limits; the programs have no expected output, and the state after a propagation cannot be checked by eye.", "anchors": ["test/test_sp3_integrator.cpp: main", "test/test_sp3_fit_state.cpp: main", "test/test_sp3_fit_state.cpp: SunMoon", "test/rinex_interpolator.cpp: integrate", "test/rinex_interpolator.cpp: main", "src/egravity.hpp: point_mass_accel"]}
{"id": "C135", "title": "The interpolators give the values of the nodes and reproduce polynomials of their degree", "statement": "For nodes in increasing order and a point from the first to the last node, the nearest-neighbour interpolator gives the value of a node of least distance, the linear one the value on the line through the two neighbours, and the quadratic one, with three nodes or more, the value of the parabola through the two neighbours and the nearest other node, all with status 0; polynomials of degree one and two are reproduced. Before the first node the status is 1, after the last 2.", "quantifier": "all sizes, all increasing nodes, all values and points, any ordered field", "why_tests_cant": "The program prints values for one table; ends of the table, ties and short tables are not looked at.", "anchors": ["var/intrp.cc: NearestNeighborInterpolator, LinearInterpolator, QuadraticInterpolator"]}
{"id": "C136", "title": "plegendre gives the normalised associated Legendre functions", "statement": "For 0 <= m <= l and x in [-1, 1] the result is sqrt((2l+1)/(4 pi) (l-m)!/(l+m)!) times (-1)^m (1-x^2)^(m/2)/(2^l l!) times the derivative of order l+m of (x^2-1)^l; for all other arguments an assertion fails.", "quantifier": "all degrees, orders and real arguments, whatever the variable pll holds at the start", "why_tests_cant": "A recurrence in two directions with square roots of ratios of factorials; a test compares some values with a table.", "anchors": ["var/legendre.cc: plegendre"]}
{"id": "C137", "title": "Flags of events and of measurements are independent of one another", "statement": "Setting, clearing and combining events changes these events and no others. Each of the three numbers packed into one flag can be set and read without changing the others. The three versions of a measurement give the same result for the same measurement, and the three loops that are timed do the same work.", "quantifier": "all flags, events, combinations of any length, values, numbers of calls and passes", "why_tests_cant": "The program tries a million random settings, one order of calls, and never compares the versions.", "anchors": ["var/flags.cc: Sp3Flag, operator|", "var/compound_measurement.cc: Flag, foo1, rand_m1, rand_m2, rand_m3, main"]}
{"id": "C138", "title": "The conversions from position and velocity to elements give the elements of the orbit", "statement": "For every inclined ellipse (0 < e < 1, 0 < i < pi) and every point of it other than the apogee, each of the four conversions gives semi-major axis, eccentricity, inclination, node and argument of perigee (up to whole turns), and the mean anomaly or the time of the perigee that satisfies the equation of Kepler. The program converts every record of its file once and counts the records.", "quantifier": "all elliptical orbits, positions on them, gravitational constants and times", "why_tests_cant": "The program compares nothing; quadrants go wrong on half of the orbits only.", "anchors": ["var/cartesian2keplerian: cartesian2keplerian_tapley, _bernese, _beutler, _schwarz, test.cc main"]}
{"id": "C139", "title": "The solvers of Kepler's equation succeed", "statement": "For every eccentricity 0 <= e < 1 and every mean anomaly, kepler and kepler_vallado reach their tolerance within the twenty iterations allowed. The solver of the test program solves the same equation independently, the test reports every failure, and the differences printed are the largest ones over all pairs tried.", "quantifier": "all eccentricities, mean anomalies and tolerances from 1e-17 on, any list of pairs", "why_tests_cant": "A hundred thousand random pairs with e < 0.999999, compared with a copy of the same method.", "anchors": ["src/astrodynamics/kepler.cpp: kepler, kepler_vallado", "test/test_kepler.cpp: EccAnom, MaxDiff, main"]}
{"id": "C140", "title": "Kepler's equation in double precision", "statement": "In double arithmetic, with the default tolerance, kepler and kepler_vallado reach it within the twenty iterations although every operation is rounded, and the anomaly returned solves Kepler's equation for the given mean anomaly, up to whole turns, to about 1e-14.", "quantifier": "all finite double mean anomalies, eccentricities up to 0.85, tolerances from 1.1e-14 to 1e-12, any nearest rounding, any sine and cosine off by at most one unit in the last place, with and without fused operations", "why_tests_cant": "Rounding could keep the residual above a tolerance of a hundred units in the last place for single arguments among 2^64; random pairs do not find them.", "anchors": ["src/astrodynamics/kepler.cpp: arg02pi, kepler, kepler_vallado"]}
{"id": "C141", "title": "Integer arithmetic of matrix indices and gravity factors", "statement": "Sizes and element offsets of matrices and the integer factors of the gravity recursions and accelerations, computed in 32-bit int (64-bit size_t), are the exact values; no int operation overflows.", "quantifier": "all shapes with int row and column counts and all elements of each storage class; all degrees and orders and all values of the loop variables at 21 places of the gravity code", "why_tests_cant": "Overflow needs matrices or degrees larger than any test uses, and is undefined behaviour which may go unnoticed.", "anchors": ["src/cmat2d.hpp: num_elements, pts_in_row, slice, element_offset", "src/gravity/gravity_acceleration.cpp: grav_potential_accel", "src/gravity/lagrange_poly.cpp: lagrange_polynomials", "src/gravity/harmonic_coeffs.cpp: _sum, compute_fac", "src/gravity/icgemio_rddata.cpp: coeffs_nr"]}
{"id": "C142", "title": "Acceleration, coefficients and arguments of the icgem experiment", "statement": "The program of the icgem experiment, run as its usage text says, prints the gradient of the potential given by the (normalised) coefficients of the file; denormalising twice is the same as once.", "quantifier": "all degrees and orders, coefficients, positions off the centre and work arrays of the required size; all numbers and values of arguments; all tables", "why_tests_cant": "The program prints numbers that nothing compares; the wrong y component looks plausible, and a field of a few dominant terms hides it.", "anchors": ["var/icgem/src/gravity_acceleration.cpp: grav_potential_accel", "var/icgem/src/harmonic_coeffs.cpp: HarmonicCoeffs::denormalize", "var/icgem/test/test_gravacc.cpp: main"]}
{"id": "C143", "title": "Line fit by the Kalman filter of the Python test", "statement": "The filter of test_kalman.py ends with the line of least cost (weighted squared residuals plus distance from the a priori line), whatever the order of the observations; its matrix and scalar versions agree; it leaves the caller's arrays alone.", "quantifier": "all a priori lines and covariance matrices, noises, lists of observations of any length and order, process noises", "why_tests_cant": "The script plots one data set; the debugging comparison covers one run without process noise.", "anchors": ["test/test_kalman.py: LinearKalman.update, LinearKalman.__init__, LinearKalman.recreate, __main__"]}
{"id": "C144", "title": "Configuration, start and end of the orbit determination program", "statement": "The orbit determination program opens every file by the name the configuration gives it or stops; it starts with the variances its constants stand for, does every block of the observation file, reports a file it cannot read, and applies the relativistic clock correction of satellite and beacon.", "quantifier": "all configurations, any contents of the buffer, any number of beacons, any list of blocks and reader states, all positions and velocities", "why_tests_cant": "The program is run with one complete configuration and one file; wrong variances and corrections of centimetres per second do not stop it.", "anchors": ["test/rinex_pod.cpp: main, get_rinex_indexes, relativity_corrections", "src/var_utils.hpp: get_yaml_value_depth3"]}
{"id": "C145", "title": "Programs that repeat textbook exercises", "statement": "The exercise programs integrate, linearise and filter what their texts say: each line carries the state of its time or the failure is reported, initial values are read once, optional arguments have usable defaults, printed matrices and accelerations are those named, and residuals of angles are reduced to a turn.", "quantifier": "all step routines, all initial values and numbers of passes, all states, rotation angles, positions and azimuths", "why_tests_cant": "The programs print tables that are compared by eye with a book; a failing integration, another default or an azimuth near north does not occur in the one run compared.", "anchors": ["test/test_exc32.cpp", "test/test_exc52.cpp", "test/test_exc71.cpp", "test/test_exc83.cpp", "test/test_ode_example.cpp"]}
{"id": "C146", "title": "Scatter plots of the columns of text files", "statement": "The plotting script evaluates what the user wrote: every reference to a column of a file becomes that column, the columns kept are those used, column i holds the i-th fields of the data lines, a time column is read as the times in the file, and every string given is plotted.", "quantifier": "all computation strings, all files (lists of lines), all readers of times, all numbers of files and strings", "why_tests_cant": "The script is tried with one or two files with fractions of nine digits; other formats of times, an eleventh file, a colon in a string for one file or a blank line do not occur there.", "anchors": ["script/scatterplot.py"]}
{"id": "C147", "title": "Round trip of a DORIS RINEX file", "statement": "A file written after the columns of the format is read back as what was written: every header line as what it says, in any order of lines and with comments anywhere, the stations and reference stations in their order, then every block once and in order with its epoch, flags and clock offset and every value and flag of every beacon divided by the factor of its code, and end of file after the last block.", "quantifier": "all headers (lists of lines of any length), all lists of blocks, beacons and observations that fit their columns, all contents of the line buffers, all roundings of strtod and strtof", "why_tests_cant": "A test file is one file: it has one order of lines, one number of observables per line and no line of the kinds that are refused; column errors show only for values that fill their columns.", "anchors": ["src/rinex/read_rnx_header.cpp", "src/rinex/doris_rinex.cpp", "src/rinex/rnx_datablock_iterator.cpp", "src/doris/doris_system_info.cpp"]}
{"id": "C148", "title": "Round trip of a space weather file", "statement": "A CSV file of consecutive days written after the names of the columns is read back as what was written: the reader delivers any range of days of the file with the values of their lines, and the feed of the atmosphere model serves, at every second of every day but the first three, the observed and averaged fluxes and the seven Ap values of the file, whatever was asked for before.", "quantifier": "all lists of consecutive days with any values and any characters in the unused columns, all requests within the file, all sequences of requests, all contents of the line buffer", "why_tests_cant": "A test asks for some days in increasing order of one file; the position kept between calls makes the answer depend on the history, and the refusal after the last day but one needs exactly that day.", "anchors": ["src/var/celestrak_swdata.cpp", "src/var/celestrak.hpp", "src/atmosphere/nrlmsise00_get_flux_data.cpp"]}
{"id": "C149", "title": "Computed and exact results differ by rounding alone", "statement": "When rounding is replaced by the identity, the functions in double arithmetic are the functions in exact arithmetic, whether the compiler fuses multiplications and additions or not: norms and products of vectors, the orbital elements, right ascension and declination, the four shadow functions, the running statistics, the epochs of observations and both solvers of Kepler's equation. Off the degenerate orbits every angle is a number.", "quantifier": "all vectors, all constants, all lists of values, fused or not, all tolerances and numbers of passes", "why_tests_cant": "A test sees one compiler's rounding and one choice of fusing; it cannot separate a wrong formula from lost digits.", "anchors": ["src/astrodynamics/state2kepler.cpp: state2kepler", "src/astrodynamics/kepler.cpp", "src/astrodynamics/occultation.cpp", "src/astrodynamics/pos2ra.cpp: pos2ad", "test/rinex_pod.cpp: RunningStatistics"]}
{"id": "C150", "title": "Round trip of a written gravity field file", "statement": "For every gravity field model (name, constants, degree, normalisation, all coefficients up to its degree in any order) written as a file: the file is loaded, for every degree and order asked for, with the constants, the normalisation and the coefficients written, times the factors of the normalisation where asked for; evaluations give the gradient of the potential of that model; and a file with coefficients in Fortran notation is loaded in the same way after conversion by the script.", "quantifier": "all models, all degrees and orders asked for, all widths of columns and further columns, all contents of the memory", "why_tests_cant": "A test loads a few published models; it cannot cover all orders of lines, spacings and truncations, and compares with numbers read by the same reader.", "anchors": ["src/gravity/icgemio_rdhead.cpp: parse_header", "src/gravity/icgemio_rddata.cpp: parse_data", "src/gravity/parse_coefficients.cpp: parse_gravity_model", "script/gfc_fortran2c.py"]}
{"id": "C151", "title": "The remaining scripts store what they fetch and list what is there", "statement": "The file of space weather data is stored under the directory and name asked for, and a feed reading it serves the values that the server sent. The list of antennas holds the antennas of every log of the directory and of no other file, logs being the files with the extension log or LOG. A C header enclosed by the script is, for a C compiler, the header itself and, for a C++ compiler, the header within extern C.", "quantifier": "all directories, names, replies of the server, lists of files, log files and C headers with balanced conditions", "why_tests_cant": "The scripts have no tests; a test would need servers that fail, directories in every order and headers with nested conditions.", "anchors": ["script/fetch_celestrak_space_weather_data_csv.py", "script/ids_logs2station_info.py", "script/pydoris/fetch_quaternions.py", "script/jpl/c2cpp_header.py"]}
{"id": "C152", "title": "From the site logs to the antenna heights in the program", "statement": "The table of antenna heights that the script writes from the site logs is read by the program as exactly the antennas of all logs that stand at the epoch asked for, each with the name, the dates and the height that its log states, the height to the micrometre.", "quantifier": "all directories, all site logs with any number of antennas, all heights and dates, all epochs", "why_tests_cant": "Script and reader are in different languages and meet only in the columns of a text file; no test runs one after the other.", "anchors": ["script/ids_logs2station_info.py", "script/pydoris/pydoris/log/ids_log_parser.py", "src/beacon_tbl/beacon_tbl.cpp"]}
{"id": "C153", "title": "What the RINEX reader prints", "statement": "Printing the header of a RINEX file that has been read gives every entry and every beacon as the file states it, inside the buffers used, and beacons with different entries are printed differently; the loop over the data prints the epoch of every block once, in order, corrected by its clock offset, with the whole seconds since the block before, however often it is called.", "quantifier": "all headers and beacons that fit the columns, all lists of data blocks, all buffers and streams", "why_tests_cant": "The text goes to the terminal and nobody compares it; names that fill their columns, header lines left out and a second call are not in the test files.", "anchors": ["src/rinex/doris_rinex.cpp", "src/doris/doris_system_info.cpp"]}
{"id": "C154", "title": "Phase centre corrections in double arithmetic", "statement": "For every double zenith angle in the quadrant the phase centre correction computed in double arithmetic takes the cell of the table that the angle lies in, reads only inside the table and returns the linear interpolation of the published values to 2^-43 mm; for every other double it returns zero and reports it.", "quantifier": "all doubles, all antenna types, all roundings to nearest", "why_tests_cant": "The angle, the division by the step of the table and the floor are all rounded; the angles at which this could matter are single doubles next to the multiples of five degrees.", "anchors": ["src/antenna_pcv.hpp"]}
{"id": "C155", "title": "From the text of observation files to the fitted frequency offset", "statement": "For files written according to the format, whatever the buffers of the readers hold at the start, the frequency-offset fit returns the polynomial of least squares through the means of the offsets written in them; offsets written on a polynomial give that polynomial; epochs without an offset do not enter.", "quantifier": "all well-formed files, all orders, window lengths and date ranges", "why_tests_cant": "The claim joins the header reader, the block iterator, the scale factors, the choice of the column and the normal equations; a test sees single files.", "anchors": ["src/rinex/fit_rfo.cpp", "src/rinex/rnx_datablock_iterator.cpp"]}
{"id": "C156", "title": "The programs that fit frequency offsets", "statement": "fit_rfo_values prints the reference date and the line of least squares through the means of four offsets of the files named, so that the printed line gives the fitted one; test_rnx_fit_rfo copies the names of its files inside the memory it has allocated and reports how many there are.", "quantifier": "all well-formed files, all lists of names", "why_tests_cant": "The printed digits limit the line at all times; the memory of a name depends on the length of the name before it, so that single runs with one name pass.", "anchors": ["test/fit_rfo_values.cpp", "test/test_rnx_fit_rfo.cpp"]}
{"id": "C157", "title": "The program that prints coefficients of a gravity model", "statement": "For a model written to a file, test_icgem answers each question by the coefficients C and S written for that degree and order, refuses degrees and orders that were not read, and ends at a negative number or the end of its input.", "quantifier": "all written models, all degrees to read, all lists of questions", "why_tests_cant": "The answers for order zero read another coefficient, which is zero only for some models; the end of the input uses variables that were never set.", "anchors": ["test/test_icgem.cpp", "src/gravity/icgemio_rdhead.cpp", "src/gravity/icgemio_rddata.cpp"]}
{"id": "C158", "title": "The older reader of gravity models agrees with that of the library", "statement": "The reader of gravity models in var/icgem/src gives the same status, header members, position of the data and coefficients as that of the library, so that the program that prints coefficients does the same with either.", "quantifier": "all files, buffers, tables, command lines and inputs", "why_tests_cant": "One returns at the first error of a line and the other goes on through the remaining keywords: agreement depends on no keyword being a prefix of another.", "anchors": ["var/icgem/src/icgemio_rdhead.cpp", "var/icgem/src/icgemio_rddata.cpp", "src/gravity/icgemio_rdhead.cpp", "src/gravity/icgemio_rddata.cpp", "test/test_icgem.cpp"]}
{"id": "C159", "title": "The programs that compare Sun and Moon positions with reference files", "statement": "test_sun_ref and test_moon_ref read every row of their reference file in order and print the average of the distances between computed and reference position, which is zero only if no position differs.", "quantifier": "all reference files, all ephemerides, all numbers of rows", "why_tests_cant": "The average is updated by a quotient of integers which is zero after the first row; the printed average is the first distance, and the printed numbers look plausible for every input.", "anchors": ["test/test_sun_ref.cpp", "test/test_moon_ref.cpp", "src/planetpos.hpp", "src/planets/sunpos.cpp", "src/planets/moonpos.cpp"]}
{"id": "C160", "title": "The test program of the space weather feed", "statement": "test_msise00_csv_feed exits with status 0 on every file of daily lines that contains 22 to 26 July 2022 with the values it lists.", "quantifier": "all files of daily lines with those days and values, whatever days and values precede or follow; all contents of uninitialised memory", "why_tests_cant": "The outcome depends on how many days follow the last one asked for: with none or one the feed refuses a request, the status is ignored and the values of another day are compared.", "anchors": ["unit_test/test_msise00_csv_feed.cpp", "src/atmosphere/nrlmsise00.hpp", "src/atmosphere/nrlmsise00_get_flux_data.cpp"]}
{"id": "C161", "title": "The example program for Earth orientation parameters", "statement": "complete_eop_example ends with status 0 exactly on the files that have a line for every day of the two months it reads, prints one record for every 30 seconds of eight days with the interpolated values of the file and the tidal effects, and stops with status 9 when an interpolation fails.", "quantifier": "all files of comments and data lines in chronological order, all interpolation and tide routines, all contents of uninitialised memory", "why_tests_cant": "A failed interpolation is not passed on, so the printed numbers then grow out of uninitialised memory with status 0; 23040 records of one file are no evidence for other files.", "anchors": ["test/complete_eop_example.cpp", "src/iers/parse_c04.cpp", "src/iers/eop_interpolate.cpp"]}
{"id": "C162", "title": "The Kalman filter in double arithmetic", "statement": "In double arithmetic, whatever the order of the sums and the fused operations, the filter keeps variances from becoming negative, and an observation that agrees with its prediction leaves the state as it is; without rounding it is the update of C35.", "quantifier": "all numbers of parameters, states, covariances, designs and standard deviations, all sequences of updates (one parameter), all roundings to nearest, all evaluation orders", "why_tests_cant": "A variance falls below zero by rounding only for particular designs and for observations that are much more precise than the prior; a test with one filter does not meet them.", "anchors": ["src/filters/ekf.hpp: ExtendedKalmanFilter::observation_update, ExtendedKalmanFilter::time_update"]}
{"id": "C163", "title": "Nominal frequencies of the beacons are exact in double arithmetic", "statement": "For every shift factor between -2^20 and 2^20 beacon_nominal_frequency returns exactly the two frequencies of the DORIS law, with any rounding to nearest and whatever operations the compiler fuses; different shift factors give different frequencies.", "quantifier": "all shift factors k with |k| <= 2^20, all roundings to nearest, all choices of fused operations", "why_tests_cant": "A test compares a few shift factors with a tolerance; that no operation ever rounds is a statement about all of them and about every instruction the compiler may choose.", "anchors": ["src/doris_system_info.hpp: beacon_nominal_frequency"]}
{"id": "C164", "title": "Ionospheric correction in double arithmetic", "statement": "carrier_iono_correction is zero for all carriers in the ratio of the frequencies, and for all carriers it differs from the exact correction by less than half a rounding unit of the first and two of the second carrier.", "quantifier": "all pairs of doubles, all roundings to nearest, with and without fused operations", "why_tests_cant": "Whether the correction vanishes depends on how the quotient 543/107 is rounded and on a fused multiplication that exists only in some builds.", "anchors": ["src/doris_observation_equations.hpp: carrier_iono_correction", "src/doris_system_info.hpp: GAMMA_FACTOR_SQRT, GAMMA_FACTOR"]}
{"id": "C165", "title": "Measured range rate in double arithmetic", "statement": "The value Uobs that the orbit determination program computes from phases, ionospheric and relativistic corrections and the fitted receiver offset differs from the formula in exact arithmetic by less than 1e-7 m/s; an error of 5e-8 m/s does occur.", "quantifier": "all nominal frequencies between 2.0 and 2.1 GHz, all offsets up to 1e-6, all intervals between 1 and 128 s, all changes of phase and corrections up to 2^20 per second, all roundings to nearest, with and without fused operations", "why_tests_cant": "The cancellation feN - frT loses seven digits; how much of the error survives for the worst input cannot be seen from sampled passes.", "anchors": ["test/rinex_pod.cpp: frT, NdopDt, Dion, Drel, Uobs"]}
{"id": "C166", "title": "Interpolators in double arithmetic", "statement": "The linear interpolator gives the value of each node without error, keeps the order of the values inside an interval, and differs from the line by at most 2^-53 (6 |y1 - y0| + max(|y0|,|y1|)); it never leaves the range of the two values. The nearest-neighbour interpolator gives the same node as in exact arithmetic.", "quantifier": "all double nodes, values and arguments, all roundings to nearest, with and without fused operations", "why_tests_cant": "Overshoot by one unit and a wrong neighbour occur only for arguments next to a node or a midpoint; sampled arguments do not meet them.", "anchors": ["var/intrp.cc: NearestNeighborInterpolator::value_at, LinearInterpolator::value_at"]}
{"id": "C167", "title": "Time argument and tidal restoration in double arithmetic", "statement": "The argument jc2000 of the tidal models is computed to 2^-53 + 2^-69 centuries (0.36 microseconds), and different epochs give different arguments in the same order. A value from which the tidal effect is subtracted by regularize and to which interpolate adds it again is the value of the file.", "quantifier": "all double epochs from 1900 to 2099, all double values and effects, all roundings to nearest", "why_tests_cant": "The comment in the code says the split keeps accuracy; whether two neighbouring doubles ever coincide is a statement about 2^50 epochs.", "anchors": ["src/iers/eop_interpolate.cpp: interpolate, regularize"]}
{"id": "C168", "title": "Prototypes in var/ agree with the library", "statement": "The step size choice of the prototype integrator, the de-normalisation of the prototype gravity coefficients and the prototype phase laws give what the library gives; the prototype integrator reads its table of powers inside its bounds; de-normalising twice has the effect of once; the phase laws report zenith angles out of range.", "quantifier": "all states with an order between 1 and 12, all tables and orders, all zenith angles and antenna types", "why_tests_cant": "The prototypes and the library are never linked together, so no test compares them.", "anchors": ["var/ode_solvers/sgode_step.cpp: step", "var/icgem/src/harmonic_coeffs.cpp: denormalize", "var/antenna/phselaw.cc: pcv"]}
{"id": "C169", "title": "Names of files kept in arrays of 256 characters", "statement": "The constructors of the beacon table and of the space weather feed copy the name of their file inside their array, and the file opened later is the file named. Every name the orbit determination program gives to a consumer fits.", "quantifier": "all names, all previous contents of the arrays, all configurations and conversions", "why_tests_cant": "Test paths are short; that the names are always shorter than the arrays follows from an invariant of the shared buffer over all look-ups.", "anchors": ["src/beacon_tbl.hpp: BeaconInformationTable", "src/atmosphere/nrlmsise00_get_flux_data.cpp: Nrlmsise00DataFeed", "test/rinex_pod.cpp: main"]}
{"id": "C170", "title": "Residual of a Doppler count in double arithmetic", "statement": "The distance, the theoretical range rate and the residual computed with doubles differ from the formulas of the observation equation by less than 1e-8 m, 3e-8 m/s and 1.4e-7 m/s.", "quantifier": "all counts between 1 and 128 seconds with frequencies, phases, distances and delays in stated ranges, all roundings to nearest, all choices of fused products", "why_tests_cant": "The error depends on all bits of some twenty inputs and on the compiler; a test sees one combination.", "anchors": ["test/rinex_pod.cpp: main", "test/rinex_pod.cpp: TropoDetails::sum", "test/rinex_pod.cpp: SatBeacon::rho"]}
{"id": "C171", "title": "Clock polynomials in double arithmetic", "statement": "The value of a clock polynomial computed with doubles differs from the polynomial by a rounding error proportional to the sum of the sizes of its terms, is exact at the reference epoch, and does not decrease if no rate is negative. The error relative to the value is bounded.", "quantifier": "all orders up to 2^50, all double coefficients and times, all roundings to nearest, fused or not", "why_tests_cant": "The error bound for every order is an induction over the terms; a test evaluates one polynomial at a few epochs.", "anchors": ["src/filters/models.hpp: PolynomialModel::value_at", "src/filters/models.hpp: LinearModel::value_at"]}
{"id": "C172", "title": "Attitude interpolation in double arithmetic", "statement": "With dates stored as doubles, the interpolation parameter between two attitude records is in [0,1], 0 at the earlier record, below 1 before the later one, does not decrease with time and differs from the parameter of the exact dates by at most 2^-37/s + 2^-54 for records s days apart; records a microsecond apart keep their order.", "quantifier": "all double dates (accuracy: Modified Julian Dates 32768 to 65536), all roundings to nearest", "why_tests_cant": "Whether a quotient of rounded differences can leave [0,1] or reach 1 depends on the last bits of the dates; a test tries a few dates, the proof covers all.", "anchors": ["src/satellites/jason3_quaternions.cpp: JasonQuaternionHunter::get_at", "src/satellites/jason3_quaternions.cpp: resolve_jason3_body_quaternion_line"]}
{"id": "C173", "title": "Third-body acceleration, radiation pressure and clock correction in double arithmetic", "statement": "Computed with doubles, the third-body acceleration differs from the formula by at most 34 roundings of its two terms (1e-16 m/s2 for Sun and Moon), each component of the radiation pressure by a relative error of 1e-14, and the relativistic clock corrections of emitter and receiver by 7 and 12 roundings, their difference by 3e-15 m/s.", "quantifier": "all vectors whose components are zero or at least 2^-100, all constants in range, all roundings to nearest, all choices of fused operations", "why_tests_cant": "The bounds hold for every vector and every way the compiler may fuse products; a test compares a few values with a tolerance.", "anchors": ["src/gravity/point_mass_acceleration.cpp: point_mass_accel", "src/astrodynamics/solar_radiation.cpp: solar_radiation_acceleration", "src/relativity/relativistic_clock_correction.cpp: relativistic_clock_correction"]}
{"id": "C174", "title": "Atmospheric drag and its partials in double arithmetic", "statement": "Computed with doubles, every component of the velocity relative to the air is off by one rounding of itself and three of the velocity of the air; every component of the drag acceleration is within 5e-15 of the size of the acceleration wherever the air moves no faster than the satellite moves through it; it never points along the computed relative velocity and is exactly zero at rest. For the relative velocity they are given, the partials with respect to the coefficient and to velocity are right up to 10 and 12 roundings, the latter exactly symmetric, and those with respect to position up to 14 roundings of their two terms; at rest the velocity partials are NaN.", "quantifier": "all states with components zero or at least 2^-100, all coefficients in range, all roundings to nearest, all choices of fused operations; sign, symmetry and rest for inputs of any size", "why_tests_cant": "The relative velocity cancels and the compiler may fuse products in several ways; the bound holds for every state, a test compares a few with a tolerance.", "anchors": ["src/astrodynamics/drag.cpp: drag_accel"]}
{"id": "C175", "title": "Extrapolation of station coordinates in double arithmetic", "statement": "Computed with doubles, a station coordinate equals its estimate bit by bit at the epoch of the estimate and for zero velocity, never moves against the velocity as the date advances, and is within half a nanometre of the exact value for dates from 1948 to 2038, coordinates up to 8000 km and velocities up to 1 m a year.", "quantifier": "all estimates, velocities, days and microseconds of the day; the bound within the stated ranges; fused or separate product", "why_tests_cant": "The dates lose precision as doubles before they are subtracted; the bound and the monotony hold for every pair of dates.", "anchors": ["src/ids/get_pdop_crd.cpp: extrapolate_coordinates"]}
{"id": "C176", "title": "Acceleration by the gravity field in double arithmetic", "statement": "Computed with doubles from given work arrays, every component of the acceleration differs from the exact sum by at most as many roundings of the sizes of its terms as the loops have turns, and ten more: 2e-12 of the sizes up to degree and order 120. The exact sum is the one of the model over the real numbers. Without coefficients the result is exactly zero; a point mass gives the rounded -GM/Re^2.", "quantifier": "all degrees and orders, all coefficients and work arrays, all roundings to nearest, all choices of fused products", "why_tests_cant": "The number of roundings grows with the square of the degree and the compiler may fuse any of fifteen products per turn; a test sees one degree and one build.", "anchors": ["src/gravity/gravity_acceleration.cpp: grav_potential_accel"]}
{"id": "C177", "title": "Recurrences of the spherical harmonics in double arithmetic", "statement": "Computed with doubles, every entry V(n,m), W(n,m) of the work arrays differs from the exact harmonic by at most 15 n + 10 roundings of the sizes of the terms that the recurrence adds up, and a part from underflow that is given as a recurrence too. Outside the sphere the sizes of the zonal entries grow no faster than 3^n. Every W(n,0), and every W for points with y = 0, is exactly zero.", "quantifier": "all degrees and orders, all positions, all roundings to nearest, all choices of fused products", "why_tests_cant": "The error is amplified by the recurrence from degree to degree; a test sees a few degrees and positions of one build.", "anchors": ["src/gravity/lagrange_poly.cpp: lagrange_polynomials"]}
{"id": "C178", "title": "From the position to the acceleration of the gravity field in double arithmetic", "statement": "The acceleration that is computed with doubles from the position, by the recurrences and then by the sums, differs in every component from the exact one by at most as many roundings of the sizes of all terms as the summing loops have turns, and 16 n + 35 more for degree n; that is 2.1e-12 of the sizes up to degree and order 120.", "quantifier": "all degrees and orders, all coefficients and positions, all roundings to nearest, all choices of fused products", "why_tests_cant": "Two loops amplify the errors of each other; a test compares with another program that has errors of its own.", "anchors": ["src/gravity/lagrange_poly.cpp: lagrange_polynomials", "src/gravity/gravity_acceleration.cpp: grav_potential_accel"]}
{"id": "C179", "title": "From the orbital elements to the state in double arithmetic", "statement": "For eccentricities up to 0.85 the position that elements2state computes with doubles is right to 2.01 times the error of the eccentric anomaly and 6.4e-15, in units of the semi-major axis; the velocity to 91 times and 8.8e-14, in units of the mean velocity. At the epoch of the elements, in the first revolution, this is 1.7e-14 semi-major axes and 5.6e-13 mean velocities; the status is success. At other times the state is that of the exact orbit at the computed mean anomaly, with an error that grows with the number of revolutions, and the computed mean anomaly has an error of one rounding of the one given and eleven of the motion.", "quantifier": "all elements with eccentricity up to 0.85, all angles, all roundings to nearest, sine and cosine right to one unit, all choices of fused products", "why_tests_cant": "The exact state is not available to a test; comparisons with other programs have errors of the same size.", "anchors": ["src/astrodynamics/state2kepler.cpp: elements2state", "src/astrodynamics/kepler.cpp: kepler"]}
{"id": "C180", "title": "Partials of the gravity acceleration in double arithmetic", "statement": "Up to degree 400 the factorial ratios that the loops carry along are right to two roundings per turn, those computed at the start of a row are exact, and after the last turn of a full row they are exactly zero. Every entry of the lower triangle and of the diagonal differs from the sum of the exact formula by as many roundings of its terms as there are turns, and five times the degree; up to degree 120 this is 2e-12 of the sum of the sizes of the terms, whatever products are fused. For a point mass on the x axis the diagonal is 2, -1, -1 times the computed GM/Re^3.", "quantifier": "every degree up to 400, every order, all coefficients and work arrays, all roundings to nearest, all choices of fused products", "why_tests_cant": "The exact sums are not available to a test; the factors are wrong by a rounding only for some degrees.", "anchors": ["src/gravity/gravity_acceleration.cpp: grav_potential_accel", "src/factorial.hpp: factorialRatio"]}
{"id": "C181", "title": "Partials of the third-body acceleration and of the radiation pressure in double arithmetic", "statement": "Computed with doubles, both matrices of partials are exactly symmetric. Every entry for the third body is right to 5e-15 of itself with respect to the formula of the code. Every entry off the diagonal for the radiation pressure has a relative error of 47 roundings, and every entry is right to 1e-13 of the factor over the cube of the distance to the Sun, although the two terms on the diagonal cancel. The partials with respect to the coefficient have a relative error of 30 roundings.", "quantifier": "all positions with components that are zero or not below 2^-100, distances up to 2^100, all coefficients, areas and masses in a range of 2^-50 to 2^50, all roundings to nearest, all ways to fuse the norms", "why_tests_cant": "The exact partials are not available to a test; differences of accelerations have far larger errors.", "anchors": ["src/gravity/point_mass_acceleration.cpp: point_mass_accel", "src/astrodynamics/solar_radiation.cpp: solar_radiation_acceleration"]}
{"id": "C182", "title": "From the celestial to the terrestrial frame and back in double arithmetic", "statement": "Computed with doubles, every entry of the rotation from the celestial to the terrestrial frame is right to 12.1 delta + 1e-14, where delta is the error of the entries of the precession-nutation and polar-motion matrices that are given. Every component of the result of rcel2ter and of rter2cel is right to 37 delta + 4e-14 of the largest component of the vector. Going there and back returns every component to within 150 delta + 1.7e-13 of the length of the vector. The rate of rotation for a day longer or shorter by up to a second is right to 2.5e-16 of itself, and a longer day is never a faster rotation.", "quantifier": "all vectors of length not below 2^-200, all angles, all orthogonal matrices and all approximations of them up to delta = 1e-6, all roundings to nearest, all ways to fuse and both orders to add, which may differ from entry to entry", "why_tests_cant": "A test compares a few vectors with values that have rounding errors of their own, on one compiler.", "anchors": ["src/itrs2gcrs.cpp: OmegaEarth, rcel2ter, rter2cel"]}
{"id": "C183", "title": "Propagation of the state through quaternions in double arithmetic", "statement": "The rotation by three angles that Eigen makes from quaternions is right to 1.5e-14 in every entry. With it propagate_state returns, for an eccentric anomaly right to eps, the position of the exact orbit up to 2.01 eps + 4.4e-14 semi-major axes and the velocity up to 91 eps + 2.7e-13 mean velocities; at the epoch, with the solver of Kepler's equation, up to 5.5e-14 and 7.5e-13. It agrees with the vector overload of elements2state to 5.1e-14 semi-major axes. The Eigen overload of elements2state has the same errors with respect to the orbit with node and argument of perigee exchanged. core::elements2perifocal computes, to the last bit, the perifocal coordinates of these functions.", "quantifier": "all orbits with eccentricity up to 0.85, semi-major axes from 2^-100 to 2^100, all angles, all roundings to nearest, all ways to fuse products", "why_tests_cant": "A test compares the overloads for a few orbits with a tolerance; it has no exact state to compare with.", "anchors": ["src/astrodynamics/propagate_state.cpp: propagate_state", "src/astrodynamics/state2kepler.cpp: elements2state", "src/astrodynamics/perifocal.cpp: elements2perifocal"]}
{"id": "C184", "title": "The perifocal matrix in double arithmetic", "statement": "With doubles, the matrix from perifocal to equatorial coordinates is a rotation up to rounding, and the two conversions with it return the components of the exact product up to 6e-15 of the largest component.", "quantifier": "all angles, all vectors whose largest component is at least 2^-200, all roundings to nearest, all ways to fuse products and both orders to add", "why_tests_cant": "A test with equal or zero angles does not see the last row; a test of the round trip needs a tolerance for which no bound is known.", "anchors": ["src/astrodynamics/perifocal.cpp: perifocal2equatorial_matrix, perifocal2equatorial, equatorial2perifocal"]}
{"id": "C185", "title": "Gravity in the equations of motion in double arithmetic", "statement": "With doubles, the gravity acceleration in the inertial frame is that of the exact rotations up to 37 delta + 4e-14 of its largest component, plus four times the error of the Earth-fixed acceleration, plus four times the error of the Earth-fixed position (37 delta + 4e-14 of the position) times the gradient of the field; delta is the error of the entries of the two matrices that are given. Every entry of the product that forms the partials is right to 9 eta + 221 delta + 2e-13 of the largest entry, eta being the error of the Earth-fixed partials.", "quantifier": "all fields and all computations of them with a given error near the position, all positions and angles, all orthogonal matrices and all approximations of them up to delta = 1e-6, all roundings to nearest, all ways to fuse products and both orders to add", "why_tests_cant": "The exact acceleration is not available to a test, and the errors of matrices, position and field come together in the result.", "anchors": ["src/variational_equations.cpp: VariationalEquations"]}
