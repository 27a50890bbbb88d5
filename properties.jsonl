{"id": "C01", "title": "Planet constructor accepts exactly the documented bodies, with consistent scales", "statement": "Planet(ID) succeeds exactly for the eight documented names and raises ValueError for every other string. Each constructed body has positive radius, GM, rho0 and gamma, satisfies 0 < h_trap < h_skip <= h_thres, and its reference scales satisfy Vref^2 * RP = GM, tau * Vref = RP and OMEGAbar = OMEGA * tau.", "quantifier": "every string ID", "why_tests_cant": "The set of rejected names is infinite, and the scale identities are equations between reals rather than sampled values.", "anchors": ["AMAT/planet.py:Planet.__init__"]}
{"id": "C02", "title": "Non-dimensionalisation and dimensionalisation are mutually inverse", "statement": "Feeding a physical state through nonDimState and then dimensionalize returns the same physical state, and vice versa; time is scaled by tau in the same way. Angles are never altered.", "quantifier": "every state vector, every planet with positive RP and GM, every time array", "why_tests_cant": "A test can only compare a few states.", "anchors": ["AMAT/planet.py:Planet.nonDimState", "AMAT/planet.py:Planet.dimensionalize", "AMAT/planet.py:Planet.computeR", "AMAT/planet.py:Planet.computeH"]}
{"id": "C03", "title": "Scalar density lookup is total and physically sensible", "statement": "For every altitude, density(h) returns the table value for 0 <= h <= h_thres, exactly 0 above h_thres and the surface value rho0 below ground; it is never negative when the loaded table is non-negative.", "quantifier": "every real altitude and every loaded table", "why_tests_cant": "Altitude is a continuum and the table is user supplied.", "anchors": ["AMAT/planet.py:Planet.density", "AMAT/planet.py:Planet.rho", "AMAT/planet.py:Planet.rhobar"]}
{"id": "C04", "title": "Scalar and vectorised density agree", "statement": "The density used by the equations of motion (scalar lookup) and the density used for loads and heating along the trajectory (vectorised lookup) agree at every altitude.", "quantifier": "every altitude and every loaded table", "why_tests_cant": "The two code paths differ only outside the region sampled by the tests.", "anchors": ["AMAT/planet.py:Planet.density", "AMAT/planet.py:Planet.densityvectorized", "AMAT/planet.py:Planet.rhovectorized"]}
{"id": "C05", "title": "Table interpolation never leaves the range of the table", "statement": "A linear table lookup returns the tabulated value at every node, lies between the smallest and largest tabulated value inside the table range, and is monotone whenever the tabulated values are monotone.", "quantifier": "every table with strictly increasing abscissae and every query point", "why_tests_cant": "Holds for all tables and all query points, including those between nodes.", "anchors": ["AMAT/planet.py:Planet.loadAtmosphereModel", "AMAT/launcher.py:Launcher.__init__"]}
{"id": "C06", "title": "Launch mass is zero outside the published C3 range and bounded inside it", "statement": "launchMass(C3) is exactly 0 for C3 outside the range of the loaded performance table; inside it reproduces the published points and never exceeds the largest or falls below the smallest published mass; for a decreasing table more C3 never yields more mass.", "quantifier": "every performance table and every C3", "why_tests_cant": "Query is a continuum and the table is user supplied.", "anchors": ["AMAT/launcher.py:Launcher.__init__", "AMAT/launcher.py:Launcher.launchMass", "AMAT/interplanetary.py:Interplanetary.compute_launch_capability"]}
{"id": "C07", "title": "Monte Carlo atmosphere profiles are disjoint and cover the file", "statement": "For a density file of NMONTE*NPOS rows, profile numbers 1..NMONTE select pairwise disjoint consecutive blocks of exactly NPOS rows that together cover the file, so every profile number drawn by the Monte Carlo driver is valid and no row is shared between profiles.", "quantifier": "every NPOS, NMONTE, profile number and file of that size", "why_tests_cant": "Needs all sizes and all profile numbers.", "anchors": ["AMAT/planet.py:Planet.loadAtmosphereModel5", "AMAT/planet.py:Planet.loadAtmosphereModel6", "AMAT/vehicle.py:Vehicle.runMonteCarlo"]}
{"id": "C08", "title": "Sigma-scaled atmosphere interpolates the low / mean / high profiles", "statement": "The density profile generated for a sigma value of 0 is the mean plus the random perturbation, for +1 the high profile plus perturbation, for -1 the low profile plus perturbation, and for fixed tables it is monotone and continuous in the sigma value when low <= mean <= high.", "quantifier": "every table row and every real sigma", "why_tests_cant": "Sigma is drawn from a normal distribution: any real may occur.", "anchors": ["AMAT/planet.py:Planet.loadAtmosphereModel5", "AMAT/planet.py:Planet.loadAtmosphereModel6", "AMAT/planet.py:Planet.loadMonteCarloDensityFile2", "AMAT/planet.py:Planet.loadMonteCarloDensityFile3", "AMAT/planet.py:Planet.pSigmaFunc", "AMAT/planet.py:Planet.nSigmaFunc"]}
{"id": "C09", "title": "Link budget in decibels equals the physical link equation", "statement": "The reported EB/N0 is 10*log10 of (transmit power * transmit antenna gain * receive antenna gain) / (free-space loss * other losses * Boltzmann * noise temperature * bit rate), where each antenna gain is eta*(pi*D/lambda)^2 for that antenna's own diameter and efficiency (or the gain given in dBi), and the margin is EB/N0 minus the requirement.", "quantifier": "every positive combination of link parameters", "why_tests_cant": "An equation between real-valued functions of a dozen parameters.", "anchors": ["AMAT/telecom.py:Link.__init__", "AMAT/telecom.py:Link.compute_dB", "AMAT/telecom.py:Link.compute_antenna_gain", "AMAT/telecom.py:Link.compute_free_space_loss_dB"]}
{"id": "C10", "title": "Link margin reacts to range, power and data rate as physics demands", "statement": "With everything else fixed, the link margin strictly decreases with range and with data rate, strictly increases with transmit power and antenna efficiency, and doubling the range costs exactly 20*log10(2) dB.", "quantifier": "every positive combination of link parameters", "why_tests_cant": "Monotonicity quantifies over pairs of arbitrary inputs.", "anchors": ["AMAT/telecom.py:Link.__init__", "AMAT/telecom.py:Link.compute_free_space_loss_dB"]}
{"id": "C11", "title": "Transmit schedule marks exactly the samples inside the requested windows", "statement": "transmit_array has one entry per time sample and entry i is True iff the i-th sample time lies in at least one requested window (ends included), regardless of order or overlap of the windows.", "quantifier": "every window list, duration and sample count", "why_tests_cant": "All window lists including empty, overlapping and inverted ones.", "anchors": ["AMAT/telecom.py:Schedule.__init__"]}
{"id": "C12", "title": "Delivered data volume starts at zero, never decreases, and never exceeds rate times elapsed time", "statement": "compute_data_volume returns an array that starts at 0, is non-decreasing, grows by at most data_rate*dt per step, grows by exactly that while visible and transmitting at both ends of the step, and does not grow while either is false at both ends.", "quantifier": "every visibility and schedule array on every increasing time grid", "why_tests_cant": "All boolean arrays and all grids.", "anchors": ["AMAT/telecom.py:Link.compute_data_volume"]}
{"id": "C13", "title": "Vehicle keeps its declared ballistic coefficient and lift-to-drag ratio", "statement": "After construction mass/(CD*A) equals the declared beta, and lift divided by drag equals the declared L/D at every altitude and speed with non-zero density.", "quantifier": "every vehicle with positive mass, area and beta, and every flight condition", "why_tests_cant": "Quantifies over all vehicles and flight conditions.", "anchors": ["AMAT/vehicle.py:Vehicle.__init__", "AMAT/vehicle.py:Vehicle.L", "AMAT/vehicle.py:Vehicle.D"]}
{"id": "C14", "title": "Bank angle rotates the lift vector without changing its size", "statement": "For every bank angle the normal and lateral aerodynamic accelerations satisfy a_n^2 + a_w^2 = (L/m)^2; bank 0 gives all lift up, 180 all lift down, and drag is independent of bank and always opposes motion.", "quantifier": "every bank angle and flight condition", "why_tests_cant": "Bank angle is a continuum.", "anchors": ["AMAT/vehicle.py:Vehicle.a_s", "AMAT/vehicle.py:Vehicle.a_n", "AMAT/vehicle.py:Vehicle.a_w"]}
{"id": "C15", "title": "Dimensionless aerodynamics equal the physical ones after scaling", "statement": "The dimensionless accelerations used by the integrator equal the dimensional ones multiplied by RP/Vref^2 at the corresponding physical state, for every state, provided the same drag coefficient is used.", "quantifier": "every state, planet and vehicle", "why_tests_cant": "Equation between two independent implementations.", "anchors": ["AMAT/vehicle.py:Vehicle.a_sbar", "AMAT/vehicle.py:Vehicle.a_nbar", "AMAT/vehicle.py:Vehicle.a_wbar", "AMAT/vehicle.py:Vehicle.Lbar", "AMAT/vehicle.py:Vehicle.Dbar"]}
{"id": "C16", "title": "Reported g-load is the magnitude of the aerodynamic acceleration", "statement": "acc_net_g reported along a trajectory is the Euclidean norm of the (drag, normal, lateral) acceleration divided by 9.80665; it is defined for every bank angle, does not depend on the bank angle, and is at least the drag deceleration.", "quantifier": "every flight condition and every bank angle", "why_tests_cant": "The shipped tests use only bank angle 0, where the lateral component vanishes.", "anchors": ["AMAT/vehicle.py:Vehicle.computeAccelerationLoad", "AMAT/vehicle.py:Vehicle.computeAccelerationDrag"]}
{"id": "C17", "title": "Gravity used by the integrator is the gradient of the zonal potential and is only rotated, never rescaled", "statement": "The radial and latitudinal gravity components are the exact partial derivatives of the J2/J3 potential at every position, and the components along, normal and lateral to the velocity are an orthogonal rotation of them for every heading and flight-path angle.", "quantifier": "every position outside the centre and every orientation", "why_tests_cant": "A differential identity over a continuum.", "anchors": ["AMAT/vehicle.py:Vehicle.grbar", "AMAT/vehicle.py:Vehicle.gphibar", "AMAT/vehicle.py:Vehicle.gsbar", "AMAT/vehicle.py:Vehicle.gnbar", "AMAT/vehicle.py:Vehicle.gwbar"]}
{"id": "C18", "title": "Entry dynamics conserve the Jacobi energy in vacuum and only dissipate it in the atmosphere", "statement": "Along every solution of the entry equations of motion the rotating-frame (Jacobi) energy is constant where density is zero and never increases where density is non-negative; the rate of change is exactly minus speed times drag.", "quantifier": "every differentiable solution of the equations of motion, on every time interval, for every planet, vehicle and bank angle", "why_tests_cant": "Statement about all continuous trajectories.", "anchors": ["AMAT/vehicle.py:Vehicle.EOM", "AMAT/vehicle.py:Vehicle.cfvbar", "AMAT/vehicle.py:Vehicle.gsbar", "AMAT/vehicle.py:Vehicle.a_sbar"]}
{"id": "C19", "title": "Kinematics: the integrated position really moves with the integrated velocity", "statement": "Along every solution of the equations of motion, the Cartesian position built from (r, longitude, latitude) has time derivative equal to the velocity vector built from (speed, heading, flight-path angle), and downrange distance grows at the horizontal speed.", "quantifier": "every differentiable solution away from the poles", "why_tests_cant": "Statement about all continuous trajectories.", "anchors": ["AMAT/vehicle.py:Vehicle.EOM"]}
{"id": "C20", "title": "Dynamics obey Newton's law in the rotating frame", "statement": "Along every solution of the equations of motion the rotating-frame acceleration equals gravity plus aerodynamic force per unit mass minus the centrifugal and Coriolis terms, in all three directions.", "quantifier": "every differentiable solution away from poles and vertical flight", "why_tests_cant": "Statement about all continuous trajectories.", "anchors": ["AMAT/vehicle.py:Vehicle.EOM", "AMAT/vehicle.py:Vehicle.cfpsibar", "AMAT/vehicle.py:Vehicle.copsibar", "AMAT/vehicle.py:Vehicle.cfgammabar", "AMAT/vehicle.py:Vehicle.cogammabar"]}
{"id": "C21", "title": "Both integrator back ends use the same dynamics", "statement": "The right-hand side handed to the odeint-based solver and the one handed to the solve_ivp-based solver are the same function of state and bank angle.", "quantifier": "every state, time and bank angle", "why_tests_cant": "Equality of functions.", "anchors": ["AMAT/vehicle.py:Vehicle.EOM", "AMAT/vehicle.py:Vehicle.EOM2"]}
{"id": "C22", "title": "Trajectory classification is exhaustive and means what it says", "statement": "For every non-empty altitude history: exit flag 1 iff it rises above h_skip without going underground, and then every retained point is at or below h_skip; exit flag -1 implies the history reached h_trap or lower, and every retained point is at or above h_trap; exit flag 0 keeps every point and all of them stay within [h_trap, h_skip].", "quantifier": "every non-empty altitude array and every threshold pair", "why_tests_cant": "All arrays of all lengths.", "anchors": ["AMAT/vehicle.py:Vehicle.classifyTrajectory"]}
{"id": "C23", "title": "A skip-out verdict is never given to a vehicle that was trapped first", "statement": "If the altitude history drops below h_trap before it ever exceeds h_skip, the trajectory is not classified as skipped out.", "quantifier": "every altitude history", "why_tests_cant": "Only particular shapes of history expose it.", "anchors": ["AMAT/vehicle.py:Vehicle.classifyTrajectory"]}
{"id": "C24", "title": "Truncated trajectory arrays stay aligned and non-empty", "statement": "After propogateEntry all sixteen trajectory arrays are prefixes of the solver output with the same length, at least one point is retained, and the first retained point is the entry state.", "quantifier": "every solver output and thresholds with entry altitude inside [h_trap, h_skip]", "why_tests_cant": "All arrays of all lengths.", "anchors": ["AMAT/vehicle.py:Vehicle.propogateEntry", "AMAT/vehicle.py:Vehicle.truncateTrajectory", "AMAT/vehicle.py:Vehicle.convertToPlotUnits"]}
{"id": "C25", "title": "Stagnation heating is non-negative, vanishes in vacuum and is monotone", "statement": "For all eight bodies convective and radiative stagnation heat rates are non-negative, zero where density is zero, and non-decreasing in density and in speed; convective heating decreases with nose radius.", "quantifier": "every density >= 0, speed >= 0, nose radius > 0, every body", "why_tests_cant": "Continuum of arguments with piecewise correlations.", "anchors": ["AMAT/vehicle.py:Vehicle.qStagConvective", "AMAT/vehicle.py:Vehicle.qStagRadiative", "AMAT/vehicle.py:Vehicle.qStagTotal"]}
{"id": "C26", "title": "Nose-radius sweep leaves the vehicle unchanged and matches single runs", "statement": "computeHeatingForMultipleRN returns, for each requested nose radius, the same peak rate and load as evaluating the vehicle with that radius, independently of order, and the vehicle's own nose radius is unchanged afterwards.", "quantifier": "every list of nose radii and every trajectory", "why_tests_cant": "All lists.", "anchors": ["AMAT/vehicle.py:Vehicle.computeHeatingForMultipleRN"]}
{"id": "C27", "title": "Heat load is the accumulated heat rate", "statement": "The heat-load history starts at the initial heat load, never decreases for non-negative heat rates, and its increment over any sub-interval is the trapezoidal integral of the heat rate, so that a trajectory propagated in consecutive segments reports the same final heat load as one propagated in one go.", "quantifier": "every heat-rate history, time grid and segmentation", "why_tests_cant": "All arrays and all segmentations.", "anchors": ["AMAT/vehicle.py:Vehicle.propogateEntry", "AMAT/vehicle.py:Vehicle.propogateEntry2", "AMAT/vehicle.py:Vehicle.propogateEquilibriumGlide"]}
{"id": "C28", "title": "Terminal orbit elements are real and describe the orbit through the terminal state", "statement": "For every terminal state the eccentricity formula never takes the root of a negative number; for a captured state the reported periapsis and apoapsis radii bracket the current radius and are exactly the radii at which an orbit with that energy and angular momentum has zero radial speed; the orbit is captured (energy < 0) iff eccentricity < 1 (for non-zero angular momentum).", "quantifier": "every terminal radius, speed and flight-path angle", "why_tests_cant": "Algebraic identity and inequality over a continuum.", "anchors": ["AMAT/vehicle.py:Vehicle.computeEnergyScalar", "AMAT/vehicle.py:Vehicle.computeSemiMajorAxisScalar", "AMAT/vehicle.py:Vehicle.computeAngMomScalar", "AMAT/vehicle.py:Vehicle.computeEccScalar", "AMAT/vehicle.py:Vehicle.compute_ApoapsisAltitudeKm", "AMAT/vehicle.py:Vehicle.compute_PeriapsisAltitudeKm"]}
{"id": "C29", "title": "Inertial velocity at exit adds exactly the rotation of the planet", "statement": "The inertial exit velocity equals the planet-relative velocity plus OMEGA cross r, the inertial flight-path angle is the angle between it and the local horizontal, and the resulting angular momentum equals the magnitude of r cross v.", "quantifier": "every exit state and every rotation rate", "why_tests_cant": "Vector identity over a continuum.", "anchors": ["AMAT/vehicle.py:Vehicle.hitsTargetApoapsis2", "AMAT/vehicle.py:Vehicle.compute_ApoapsisAltitudeKm", "AMAT/orbiter.py:Orbiter.compute_exit_state_atm_relative", "AMAT/orbiter.py:Orbiter.compute_exit_state_inertial"]}
{"id": "C30", "title": "Capture verdict follows the sign of the orbital energy", "statement": "isCaptured returns -1 exactly when the specific energy at the last retained point is negative and 1 otherwise.", "quantifier": "every trajectory", "why_tests_cant": "All trajectories.", "anchors": ["AMAT/vehicle.py:Vehicle.isCaptured"]}
{"id": "C31", "title": "Target-apoapsis verdict is available for every supported body and matches the orbit", "statement": "For every supported planet the target-apoapsis test returns -1 when the vehicle leaves the atmosphere on an unbound orbit or on one whose apoapsis altitude is at least the target, and 1 otherwise (including when it ends below the low-altitude threshold).", "quantifier": "every planet and every terminal state", "why_tests_cant": "All terminal states; only some planets define the threshold attribute.", "anchors": ["AMAT/vehicle.py:Vehicle.hitsTargetApoapsis", "AMAT/planet.py:Planet.__init__"]}
{"id": "C32", "title": "Corridor bound search terminates and brackets the true bound", "statement": "For every trajectory verdict function, every bracket with a verdict change and every positive tolerance wider than nothing, the overshoot / undershoot search halts after finitely many propagations and returns an entry angle inside the original bracket such that the verdict changes within the tolerance of the returned angle.", "quantifier": "every verdict function, bracket and tolerance", "why_tests_cant": "Unbounded loop over arbitrary verdict functions.", "anchors": ["AMAT/vehicle.py:Vehicle.findOverShootLimit", "AMAT/vehicle.py:Vehicle.findUnderShootLimit", "AMAT/vehicle.py:Vehicle.findEFPALimitD"]}
{"id": "C33", "title": "Corridor bound search is accurate", "statement": "If the verdict switches at a single critical entry angle inside the bracket, the returned limit differs from it by at most the tolerance.", "quantifier": "every threshold verdict, bracket and tolerance", "why_tests_cant": "Convergence over all brackets and thresholds.", "anchors": ["AMAT/vehicle.py:Vehicle.findOverShootLimit", "AMAT/vehicle.py:Vehicle.findUnderShootLimit"]}
{"id": "C34", "title": "Corridor bound search always returns a value", "statement": "With a verdict change over the bracket the search returns (limit, 1.0); without it (0.0, 0.0). It never raises.", "quantifier": "every bracket and tolerance", "why_tests_cant": "The failing inputs are a thin set: brackets already narrower than the tolerance.", "anchors": ["AMAT/vehicle.py:Vehicle.findOverShootLimit", "AMAT/vehicle.py:Vehicle.findUnderShootLimit", "AMAT/vehicle.py:Vehicle.findEFPALimitD"]}
{"id": "C35", "title": "Corridor searches leave the vehicle configuration unchanged", "statement": "After a corridor search the vehicle's entry flight-path angle, L/D, ballistic coefficient and drag coefficient equal their values before the call.", "quantifier": "every vehicle, search and outcome", "why_tests_cant": "All outcomes and call histories.", "anchors": ["AMAT/vehicle.py:Vehicle.findOverShootLimit", "AMAT/vehicle.py:Vehicle.findUnderShootLimitD", "AMAT/vehicle.py:Vehicle.findOverShootLimitD", "AMAT/vehicle.py:Vehicle.findEFPALimitD", "AMAT/vehicle.py:Vehicle.computeTCWD"]}
{"id": "C36", "title": "Theoretical corridor width is the distance between the bounds", "statement": "computeTCW equals overshoot limit minus undershoot limit, is within twice the tolerance of the true width for threshold verdicts, and a failed search is distinguishable from a corridor bound.", "quantifier": "every pair of verdict functions, brackets and tolerance", "why_tests_cant": "All brackets and verdicts.", "anchors": ["AMAT/vehicle.py:Vehicle.computeTCW", "AMAT/vehicle.py:Vehicle.computeTCWD"]}
{"id": "C37", "title": "Drag-modulation corridor search really flies a ballistic vehicle", "statement": "During findEFPALimitD the vehicle generates no lift, whatever L/D it was constructed with.", "quantifier": "every vehicle", "why_tests_cant": "All vehicles; only vehicles with L/D != 0 expose it.", "anchors": ["AMAT/vehicle.py:Vehicle.findEFPALimitD", "AMAT/vehicle.py:Vehicle.L"]}
{"id": "C38", "title": "Bank-angle controller respects the roll-rate limit", "statement": "In every guidance cycle the bank angle changes by at most maxRollRate*timestep, for every command, and the two returned values agree.", "quantifier": "every command, current angle, rate limit and step", "why_tests_cant": "Continuum of arguments.", "anchors": ["AMAT/vehicle.py:Vehicle.psuedoController"]}
{"id": "C39", "title": "Bank-angle controller reaches the commanded angle", "statement": "If the commanded bank angle is reachable within one cycle the controller returns exactly the command, and a constant command is reached after finitely many cycles and then held.", "quantifier": "every command, initial angle and history length", "why_tests_cant": "Convergence of an unbounded iteration.", "anchors": ["AMAT/vehicle.py:Vehicle.psuedoController", "AMAT/vehicle.py:Vehicle.propogateExitPhase"]}
{"id": "C40", "title": "Equilibrium-glide bank command is always a valid bank angle", "statement": "For every flight condition with positive dynamic pressure the commanded bank angle lies in [0, 180] deg, equals the arccosine law when it is defined, and saturates on the correct side otherwise.", "quantifier": "every flight condition and gain", "why_tests_cant": "Continuum of arguments.", "anchors": ["AMAT/vehicle.py:Vehicle.propogateEquilibriumGlide"]}
{"id": "C41", "title": "Guidance switches phase when the switch velocity is reached", "statement": "The equilibrium-glide / entry phase ends no later than the first cycle in which the speed is at or below the switch speed set by the user.", "quantifier": "every trajectory and every switch speed", "why_tests_cant": "Property of an unbounded loop.", "anchors": ["AMAT/vehicle.py:Vehicle.propogateEquilibriumGlide", "AMAT/vehicle.py:Vehicle.propogateEntryPhaseD", "AMAT/vehicle.py:Vehicle.setEquilibriumGlideParams"]}
{"id": "C42", "title": "Guided entry always terminates", "statement": "For every vehicle and entry state the guided-entry simulation finishes (or raises) after finitely many cycles.", "quantifier": "every segment propagator", "why_tests_cant": "Termination of an unbounded loop.", "anchors": ["AMAT/vehicle.py:Vehicle.propogateEquilibriumGlide", "AMAT/vehicle.py:Vehicle.propogateExitPhase", "AMAT/vehicle.py:Vehicle.propogateExitPhaseD"]}
{"id": "C43", "title": "Guided trajectory histories are aligned, continuous and ordered in time", "statement": "After any number of guidance cycles all stored histories have equal length, every segment starts at the state where the previous one ended, and stored times never decrease.", "quantifier": "every number of cycles and every segment propagator", "why_tests_cant": "Induction over arbitrarily many cycles.", "anchors": ["AMAT/vehicle.py:Vehicle.propogateEquilibriumGlide", "AMAT/vehicle.py:Vehicle.propogateExitPhase"]}
{"id": "C44", "title": "Monte Carlo runs are independent and use every sampled quantity", "statement": "The recorded result of a Monte Carlo run depends only on the values sampled for that run (atmosphere file, profile, entry angle, sigma, L/D or ballistic coefficient), not on earlier runs; and each logged sample actually influences the simulated vehicle.", "quantifier": "every sequence of samples", "why_tests_cant": "All histories of runs.", "anchors": ["AMAT/vehicle.py:Vehicle.runMonteCarlo", "AMAT/vehicle.py:Vehicle.runMonteCarlo2", "AMAT/vehicle.py:Vehicle.runMonteCarloD", "AMAT/vehicle.py:Vehicle.setupMonteCarloSimulation"]}
{"id": "C45", "title": "Orbit-trim manoeuvre costs follow vis-viva", "statement": "The periapsis-raise and apoapsis-raise delta-V equal the difference of vis-viva speeds on the two ellipses at the burn point, are real for every pair of non-degenerate orbits, and have the sign of the requested altitude change (zero iff nothing changes).", "quantifier": "every current and target orbit above the planet centre", "why_tests_cant": "Continuum of orbits.", "anchors": ["AMAT/vehicle.py:Vehicle.compute_periapsis_raise_DV", "AMAT/vehicle.py:Vehicle.compute_apoapsis_raise_DV"]}
{"id": "C46", "title": "Frame changes are proper rotations", "statement": "Every frame transformation offered (ICRF to body-inertial, body-inertial to rotated frames) preserves lengths, angles and handedness for every pole orientation, and round trips through its inverse are the identity.", "quantifier": "every vector and every pole orientation / rotation angle", "why_tests_cant": "Continuum of angles.", "anchors": ["AMAT/approach.py:Approach.ICRF_to_BI", "AMAT/approach.py:Approach.BI_to_BI_dprime", "AMAT/approach.py:Approach.R1", "AMAT/visibility.py:Visibility.R1"]}
{"id": "C47", "title": "Approach hyperbola parameters are mutually consistent", "statement": "For every non-zero arrival v-infinity and positive periapsis radius: eccentricity exceeds 1, a < 0, periapsis radius equals a(1-e), angular momentum equals periapsis radius times periapsis speed, and the B-plane offset satisfies b^2 = rp^2 + 2 rp GM / v_inf^2.", "quantifier": "every arrival v-infinity vector and periapsis radius", "why_tests_cant": "Algebraic identities over a continuum.", "anchors": ["AMAT/approach.py:Approach.__init__"]}
{"id": "C48", "title": "Periapsis vector has the requested size and the geometry of the arrival asymptote", "statement": "The computed periapsis vector has length rp, makes the asymptote angle with the arrival direction for every choice of the aim angle psi, and the arrival v-infinity vector is mapped onto the +z axis of the target frame.", "quantifier": "every arrival direction and aim angle", "why_tests_cant": "Continuum of directions including all quadrants.", "anchors": ["AMAT/approach.py:Approach.__init__", "AMAT/approach.py:Approach.BI_to_BI_dprime"]}
{"id": "C49", "title": "Positions and velocities on the approach hyperbola obey the two-body laws", "statement": "At every true anomaly on the incoming branch the computed position has the conic radius, the velocity has the vis-viva speed, their cross product is the constant angular-momentum vector, and at zero anomaly position equals the periapsis vector.", "quantifier": "every orbit and true anomaly", "why_tests_cant": "Continuum of orbits and anomalies.", "anchors": ["AMAT/approach.py:Approach.pos_vec_bi", "AMAT/approach.py:Approach.vel_vec_bi", "AMAT/approach.py:Approach.r_mag_bi"]}
{"id": "C50", "title": "Entry state is physically consistent", "statement": "For an entry system with periapsis below the entry interface: the entry true anomaly is real and non-positive, entry radius equals RP + h_EI, entry speed satisfies energy conservation, the inertial flight-path angle is in [-90, 0] deg, and both independent computations of it agree.", "quantifier": "every arrival with rp <= RP + h_EI", "why_tests_cant": "Continuum of arrivals; domain of arccos.", "anchors": ["AMAT/approach.py:Approach.__init__"]}
{"id": "C51", "title": "Entry longitude and atmosphere-relative velocity use the true longitude", "statement": "The reported entry longitude is the azimuth of the entry position in all four quadrants, and the atmosphere-relative entry velocity is the inertial velocity minus OMEGA cross r.", "quantifier": "every entry position", "why_tests_cant": "Only half of the longitudes expose it.", "anchors": ["AMAT/approach.py:Approach.__init__", "AMAT/approach.py:Approach.vel_vec_entry_atm"]}
{"id": "C52", "title": "Entry heading angle is the angle between the horizontal velocity and the local parallel", "statement": "The reported heading angle is the angle between the horizontal projection of the atmosphere-relative velocity and the local eastward direction, for every flight-path angle.", "quantifier": "every entry state", "why_tests_cant": "Only non-horizontal velocities expose it.", "anchors": ["AMAT/approach.py:Approach.__init__"]}
{"id": "C53", "title": "Orbit insertion burn is the exact speed change at periapsis", "statement": "PropulsiveOrbiter: target semi-major axis, eccentricity and angular momentum are those of the ellipse with the approach periapsis and requested apoapsis; the insertion delta-V is non-negative and equals the difference of hyperbolic and elliptic periapsis speeds.", "quantifier": "every approach and target apoapsis", "why_tests_cant": "Continuum of approaches.", "anchors": ["AMAT/orbiter.py:PropulsiveOrbiter.__init__", "AMAT/orbiter.py:PropulsiveOrbiter.compute_orbit_trajectory"]}
{"id": "C54", "title": "Orbiter coast state is consistent with the exit state", "statement": "Orbiter: the coast-orbit elements computed at atmospheric exit reproduce the exit radius and angular momentum, and the periapsis-raise burn changes the orbit to one with the requested periapsis and unchanged apoapsis.", "quantifier": "every exit state on a bound orbit", "why_tests_cant": "Continuum of exit states.", "anchors": ["AMAT/orbiter.py:Orbiter.compute_coast_orbital_elements", "AMAT/orbiter.py:Orbiter.compute_post_PRM_orbital_elements", "AMAT/orbiter.py:Orbiter.compute_PRM_dv"]}
{"id": "C55", "title": "Probe position uses the probe's own orbit", "statement": "The position returned for the released probe lies at the conic radius of the probe orbit and in the probe's own orbital plane for every true anomaly.", "quantifier": "every orbiter / probe orbit pair and anomaly", "why_tests_cant": "Exposed only when the two planes differ.", "anchors": ["AMAT/orbiter.py:Orbiter.pos_vec_bi_probe", "AMAT/orbiter.py:Orbiter.vel_vec_bi_probe"]}
{"id": "C56", "title": "Time along the propulsive orbit satisfies Kepler's equation", "statement": "The timed orbit trajectory places the spacecraft at the anomaly whose mean anomaly equals 2*pi*t/P; successive samples are periodic with period P and the radius at each sample equals a(1 - e cos E).", "quantifier": "every elliptic orbit and time grid", "why_tests_cant": "Continuum of orbits and times, transcendental equation.", "anchors": ["AMAT/orbiter.py:PropulsiveOrbiter.compute_timed_orbit_trajectory"]}
{"id": "C57", "title": "Deflection manoeuvre transfer arc really connects the two points", "statement": "The velocity computed at the deflection point, propagated by two-body f and g functions over the transfer angle, arrives at the target position; f*gdot - fdot*g = 1; the delta-V is the difference of the two velocities.", "quantifier": "every geometry with non-zero sin of the transfer angle", "why_tests_cant": "Vector identity over a continuum.", "anchors": ["AMAT/maneuver.py:ProbeOrbiterDeflection.__init__", "AMAT/maneuver.py:ProbeProbeDeflection.__init__", "AMAT/maneuver.py:OrbiterOrbiterDeflection.__init__"]}
{"id": "C58", "title": "Line-of-sight verdicts match the geometry", "statement": "A lander sees the other body iff it is above the local horizon plane; an orbiter sees the planet iff the segment toward it does not pass through the central body; elevation lies in [0, 90] deg.", "quantifier": "every geometry", "why_tests_cant": "Continuum of geometries.", "anchors": ["AMAT/visibility.py:LanderToPlanet.__init__", "AMAT/visibility.py:LanderToOrbiter.__init__", "AMAT/visibility.py:OrbiterToPlanet.__init__"]}
{"id": "C59", "title": "Every public analysis method can be called", "statement": "Methods documented on a fully initialised vehicle return a value for every trajectory rather than failing on a missing attribute.", "quantifier": "every vehicle and trajectory", "why_tests_cant": "Failure does not depend on the data, but no test calls them; with a model the claim covers all inputs.", "anchors": ["AMAT/vehicle.py:Vehicle.computeStagTemp", "AMAT/vehicle.py:Vehicle.computeMachScalar", "AMAT/planet.py:Planet.scaleHeight"]}
{"id": "C60", "title": "On-board density estimate inverts the drag measurement", "statement": "The density value inferred each guidance cycle from measured drag and mean speed is the true density whenever drag obeyed the drag law at that speed, is non-negative, and the measured-density function reproduces the stored samples.", "quantifier": "every drag measurement", "why_tests_cant": "Continuum of measurements.", "anchors": ["AMAT/vehicle.py:Vehicle.propogateEquilibriumGlide", "AMAT/vehicle.py:Vehicle.createDensityMeasuredFunction"]}
{"id": "C61", "title": "Equatorial prograde flight stays in the equatorial plane", "statement": "On a body with zero J3, starting on the equator heading due east with bank 0 or 180 deg, latitude and heading rates are identically zero.", "quantifier": "every equatorial state", "why_tests_cant": "Continuum of states; invariance of a plane under the flow.", "anchors": ["AMAT/vehicle.py:Vehicle.EOM", "AMAT/vehicle.py:Vehicle.gphibar"]}
{"id": "C62", "title": "Unit conversion of stored trajectories is exact", "statement": "The plotted arrays (minutes, km, km/s, degrees) stored for a trajectory are exactly the SI arrays divided by the unit, altitude being radius minus RP; re-using the last stored point as an initial state reproduces the same physical state.", "quantifier": "every trajectory", "why_tests_cant": "All arrays.", "anchors": ["AMAT/vehicle.py:Vehicle.convertToPlotUnits", "AMAT/vehicle.py:Vehicle.propogateEntry", "AMAT/vehicle.py:Vehicle.setInitialState"]}
{"id": "C63", "title": "Prediction runs do not disturb the vehicle being flown", "statement": "Predicting the apoapsis with the measured atmosphere never changes any attribute of the vehicle or of its planet model.", "quantifier": "every vehicle state and prediction", "why_tests_cant": "All states.", "anchors": ["AMAT/vehicle.py:Vehicle.propogateEntry_util", "AMAT/vehicle.py:Vehicle.propogateEntry_utilD", "AMAT/vehicle.py:Vehicle.predictApoapsisAltitudeKm_withLiftUp"]}
{"id": "C64", "title": "Sampled Monte Carlo densities are physically meaningful", "statement": "Every density value generated for a Monte Carlo profile from a row with 0 < low <= mean <= high and a non-negative total density is non-negative, whatever sigma value is drawn.", "quantifier": "every table row and every real sigma", "why_tests_cant": "Sigma is drawn from a normal distribution, so extreme values occur with small probability only.", "anchors": ["AMAT/planet.py:Planet.loadAtmosphereModel5", "AMAT/planet.py:Planet.nSigmaFunc", "AMAT/planet.py:Planet.pSigmaFunc"]}
{"id": "C65", "title": "Circular orbits are exact solutions of the equations of motion", "statement": "On a body with zero J3 and outside the atmosphere, level equatorial flight at the speed whose inertial value balances gravity keeps radius, speed, latitude, heading and flight-path angle constant for all time while the longitude advances uniformly.", "quantifier": "every radius, bank angle and time", "why_tests_cant": "An exact statement about a continuum of states and unbounded time.", "anchors": ["AMAT/vehicle.py:Vehicle.EOM", "AMAT/vehicle.py:Vehicle.cogammabar", "AMAT/vehicle.py:Vehicle.cfgammabar"]}
{"id": "C66", "title": "Symmetries of flight: longitude, time, and north/south mirror", "statement": "The rates returned by the equations of motion do not depend on longitude, time or range flown; on a body with zero J3, mirroring the state in the equator and reversing the bank angle mirrors the rates, so mirrored trajectories are trajectories.", "quantifier": "every vehicle, state and bank angle", "why_tests_cant": "Symmetry relates two arbitrary runs; a test compares finitely many.", "anchors": ["AMAT/vehicle.py:Vehicle.EOM", "AMAT/planet.py:Planet.rho"]}
{"id": "C67", "title": "B-plane angle locates the aim point", "statement": "The B-plane angle reported for an approach is the angle, measured from T towards R, of the aim point direction B; T, R and the arrival direction form an orthonormal right-angled frame, for every aim angle.", "quantifier": "every arrival not along the planet's pole, every aim angle", "why_tests_cant": "Continuum of directions and angles.", "anchors": ["AMAT/approach.py:Approach.__init__"]}
{"id": "C68", "title": "Orbit velocity is the velocity of the motion along the orbit", "statement": "vel_vec_bi at a true anomaly is the velocity of Keplerian motion through pos_vec_bi at that anomaly: vis-viva speed, perpendicular to the radius at the apsides, outbound on (0, 180) deg and inbound on (180, 360) deg.", "quantifier": "every orbit and true anomaly", "why_tests_cant": "Continuum of orbits and anomalies; the error only shows on the inbound half and through a rounding guard constant.", "anchors": ["AMAT/orbiter.py:PropulsiveOrbiter.vel_vec_bi", "AMAT/orbiter.py:Orbiter.vel_vec_bi"]}
{"id": "C69", "title": "A released probe starts where it was released", "statement": "The first sample of the probe trajectory coincides with the orbiter position at the release anomaly.", "quantifier": "every release anomaly and delta-V", "why_tests_cant": "Holds at isolated anomalies only, so a test at one of them passes.", "anchors": ["AMAT/orbiter.py:Orbiter.compute_probe_targeting_trajectory", "AMAT/orbiter.py:Orbiter.pos_vec_bi_probe"]}
{"id": "C70", "title": "Probe entry state is on the entry interface", "statement": "When the probe orbit crosses the interface radius, the entry anomaly lies on the inbound half, the entry position is at the interface radius, and speed and flight-path angle are the two-body ones; when it does not cross, no entry state of another probe is reported.", "quantifier": "every orbiter, release anomaly and delta-V, and every call history", "why_tests_cant": "Continuum of releases and all call histories.", "anchors": ["AMAT/orbiter.py:Orbiter.compute_probe_targeting_trajectory"]}
{"id": "C71", "title": "Atmosphere-relative entry angle of the probe", "statement": "gamma_atm_probe_entry is the angle of the atmosphere-relative velocity below the local horizontal.", "quantifier": "every probe orbit crossing the interface", "why_tests_cant": "The inertial and relative angles differ by a fraction of a degree, below the tolerance of any existing test.", "anchors": ["AMAT/orbiter.py:Orbiter.compute_probe_targeting_trajectory"]}
{"id": "C72", "title": "Lander visibility time axis runs forward over one rotation", "statement": "The time samples used for lander visibility increase from 0 to one full rotation of the body, one per longitude sample, so data volumes integrated over them are non-negative.", "quantifier": "every target body, latitude and ephemeris", "why_tests_cant": "A test uses one body; the claim fails exactly for the bodies stored with negative rotation rate.", "anchors": ["AMAT/visibility.py:LanderToPlanet.__init__", "AMAT/telecom.py:Link.compute_data_volume"]}
{"id": "C73", "title": "Guided simulation reports the orbit it ended on", "statement": "After a guided aerocapture, terminal_apoapsis and terminal_periapsis are the apsis altitudes of the two-body orbit through the last recorded point, apoapsis_perc_error is the relative error of that apoapsis, and the two delta-Vs are the impulsive costs of moving that orbit's periapsis, then its apoapsis, to the targets.", "quantifier": "every vehicle, guidance setting and run whose last point is on a bound orbit, all four guided simulations", "why_tests_cant": "A test compares a finished run with stored numbers; it cannot relate every possible final state to the reported orbit.", "anchors": ["AMAT/vehicle.py:Vehicle.propogateGuidedEntry", "AMAT/vehicle.py:Vehicle.propogateExitPhase"]}
{"id": "C74", "title": "Entry phase is left exactly for the stated reasons", "statement": "The entry phase of a guided simulation ends after a cycle exactly when the vehicle has come within the margin of the skip altitude, or is climbing above the threshold rate and the apoapsis predicted from the end of the cycle is positive and below the target or within tolerance; otherwise it flies on.", "quantifier": "every guidance setting, every number of cycles and all measured densities", "why_tests_cant": "The number of cycles is unbounded and the decision depends on a continuum of states.", "anchors": ["AMAT/vehicle.py:Vehicle.propogateEquilibriumGlide"]}
{"id": "C75", "title": "On-board prediction is what would be flown", "statement": "The apoapsis predicted in flight is the apoapsis the vehicle would reach if propagated from the current state in the measured density at zero bank (with the ballistic coefficient after jettison for drag modulation); it does not depend on the heat load collected so far.", "quantifier": "every state, density function, vehicle", "why_tests_cant": "Equality of two programs for all inputs; failure only appears with a heat load and a particular SciPy version.", "anchors": ["AMAT/vehicle.py:Vehicle.propogateEntry_util", "AMAT/vehicle.py:Vehicle.propogateEntry_utilD"]}
{"id": "C76", "title": "No trim cost for a vehicle that escapes", "statement": "A guided simulation whose final point is above escape speed does not report finite delta-V costs to trim the orbit.", "quantifier": "every run ending on an escape trajectory", "why_tests_cant": "Depends on a continuum of final states.", "anchors": ["AMAT/vehicle.py:Vehicle.propogateGuidedEntry", "AMAT/vehicle.py:Vehicle.compute_ApoapsisAltitudeKm"]}
{"id": "C77", "title": "A guided simulation leaves the reference state alone", "statement": "A guided simulation leaves mass, geometry, planet and the reference entry state of the vehicle unchanged, so that it can be repeated.", "quantifier": "every vehicle and guidance setting", "why_tests_cant": "All execution lengths and all vehicles.", "anchors": ["AMAT/vehicle.py:Vehicle.propogateGuidedEntry", "AMAT/vehicle.py:Vehicle.setInitialState"]}
{"id": "C78", "title": "The heat load recorded for a Monte Carlo run is that of its whole flight", "statement": "For every Monte Carlo run function the value stored for a run in heatload_max_arr is the total stagnation-point heat load of the simulated flight, i.e. the time integral of the recorded heating rate from entry to exit (in the unit of that function).", "quantifier": "every sample, vehicle, planet, guidance setting and integrator", "why_tests_cant": "The stored number is always plausible; telling the total of a flight from that of its worst guidance segment needs every division of every flight into segments.", "anchors": ["AMAT/vehicle.py:Vehicle.runMonteCarlo", "AMAT/vehicle.py:Vehicle.runMonteCarlo2", "AMAT/vehicle.py:Vehicle.runMonteCarloD", "AMAT/vehicle.py:Vehicle.runMonteCarloD2", "AMAT/vehicle.py:Vehicle.runMonteCarloD_Earth"]}
{"id": "C79", "title": "The nominal atmosphere survives a Monte Carlo simulation", "statement": "After a Monte Carlo simulation the planet model of the vehicle is the one loaded before it, so that later nominal analyses, of this and of other vehicles using the same planet object, fly in the nominal atmosphere.", "quantifier": "every number of runs, list of samples and density file, all run functions", "why_tests_cant": "Sharing of one planet object between vehicles and all lists of samples; a test of one simulation looks at its records only.", "anchors": ["AMAT/vehicle.py:Vehicle.runMonteCarlo", "AMAT/vehicle.py:Vehicle.runMonteCarloD", "AMAT/planet.py:Planet.loadAtmosphereModel5"]}
{"id": "C80", "title": "Scale height is that of the given profile", "statement": "Planet.scaleHeight(h, density_int) returns the density scale height at altitude h of the density function passed to it: for an exponential profile with scale height H it returns H up to the error of its integration grid.", "quantifier": "every body, altitude, density function and H", "why_tests_cant": "A continuum of profiles and altitudes; the error depends on where the altitude lies relative to a grid.", "anchors": ["AMAT/planet.py:Planet.scaleHeight", "AMAT/vehicle.py:Vehicle.createDensityMeasuredFunction"]}
{"id": "C81", "title": "Pressure and drag histories obey one law", "statement": "At every stored trajectory point the dynamic pressure is half density times speed squared, the stagnation pressure exceeds it by the ambient pressure, and for a vehicle with constant drag coefficient the drag load is the dynamic pressure divided by the ballistic coefficient.", "quantifier": "every vehicle, planet, atmosphere, trajectory and point", "why_tests_cant": "Relation between three computed histories at every point of every trajectory.", "anchors": ["AMAT/vehicle.py:Vehicle.computeDynPres", "AMAT/vehicle.py:Vehicle.computeStagPres", "AMAT/vehicle.py:Vehicle.computeAccelerationDrag"]}
{"id": "C82", "title": "Every flyable launch opportunity is visible in the launch-mass plots", "statement": "In the figures that plot launch mass for a list of interplanetary trajectories, every trajectory the launch vehicle can fly appears inside the drawn axes.", "quantifier": "every launch vehicle table and every list of trajectories", "why_tests_cant": "The axis limits are computed from the data; whether a point is cut off depends on the whole list.", "anchors": ["AMAT/interplanetary.py:Interplanetary.plot_launch_mass_vs_launch_date", "AMAT/interplanetary.py:Interplanetary.plot_launch_mass_vs_TOF", "AMAT/interplanetary.py:Interplanetary.plot_launch_mass_vs_TOF_with_vinf_colorbar"]}
{"id": "C83", "title": "Less launch energy never costs launch mass (shipped launch vehicles)", "statement": "For each launch vehicle curve shipped with the library, Launcher.launchMass returns at least as much mass for a smaller C3 as for a larger one, and a positive mass inside the published range.", "quantifier": "all thirteen shipped curves, every pair of C3 values", "why_tests_cant": "A continuum of C3 values, including those outside the published range.", "anchors": ["AMAT/launcher.py:Launcher.launchMass", "AMAT/launcher.py:Launcher.__init__"]}
{"id": "C84", "title": "Default atmosphere lookup is determined by the rows and reproduces them", "statement": "After loadAtmosphereModel with the default interpolation the lookup functions return the value of a row at the height of that row, do not depend on the order of the rows, are continuous between the first and the last row, return the fill value outside, and a column of positive values gives positive values in between.", "quantifier": "every table of at least four rows with distinct heights, every altitude", "why_tests_cant": "All tables and a continuum of altitudes between the rows.", "anchors": ["AMAT/planet.py:Planet.loadAtmosphereModel", "AMAT/planet.py:Planet.density"]}
{"id": "C85", "title": "Shipped atmospheres are physical with the default interpolation", "statement": "For each shipped atmosphere file loaded with the default interpolation the density is positive up to the edge of the atmosphere and zero above, decreases with altitude, and pressure and temperature are positive.", "quantifier": "all nine shipped files and every altitude", "why_tests_cant": "Cubic interpolation can overshoot between any two of several thousand rows; a test samples altitudes.", "anchors": ["AMAT/planet.py:Planet.loadAtmosphereModel", "AMAT/planet.py:Planet.density"]}
{"id": "C86", "title": "Corridor searches end in double precision", "statement": "With double-precision guesses and tolerance, a corridor-bound search over whose bracket the verdict changes returns a limit with the verdict of the high guess next to an angle with the other verdict, as long as the tolerance is not smaller than the spacing of double-precision numbers in the bracket; with a smaller tolerance it never returns.", "quantifier": "every verdict function, bracket, tolerance and rounding to nearest", "why_tests_cant": "Non-termination and all roundings; a test sees one bracket and cannot observe an endless loop.", "anchors": ["AMAT/vehicle.py:Vehicle.findOverShootLimit", "AMAT/vehicle.py:Vehicle.findOverShootLimit2", "AMAT/vehicle.py:Vehicle.findUnderShootLimit", "AMAT/vehicle.py:Vehicle.findUnderShootLimit2", "AMAT/vehicle.py:Vehicle.findEFPALimitD", "AMAT/vehicle.py:Vehicle.findEFPALimitD2"]}
{"id": "C87", "title": "A vehicle loses energy exactly while it is in the shipped atmosphere", "statement": "In each shipped atmosphere with the default interpolation, a moving vehicle loses energy in the frame of the rotating planet, and its convective heating rate is positive, exactly while it is not above the edge of the atmosphere; above it the energy is constant.", "quantifier": "all nine shipped files, every vehicle, bank angle history and trajectory", "why_tests_cant": "All trajectories and all altitudes; drag must not vanish or change sign between table rows.", "anchors": ["AMAT/vehicle.py:Vehicle.EOM", "AMAT/planet.py:Planet.density", "AMAT/planet.py:Planet.loadAtmosphereModel"]}
{"id": "C88", "title": "Every regular flight state lies on exactly one trajectory", "statement": "Through every flight state off the centre and the poles with non-zero speed the equations of motion have a solution, and locally only one, in every shipped atmosphere; also a vehicle that starts exactly at the edge of the atmosphere, or flies through it, has one flight.", "quantifier": "every vehicle with constant drag coefficient or smooth drag curve, bank angle history and state; all nine shipped files", "why_tests_cant": "Existence and uniqueness for a continuum of states; a numerical integrator returns numbers either way.", "anchors": ["AMAT/vehicle.py:Vehicle.EOM", "AMAT/planet.py:Planet.density"]}
{"id": "C89", "title": "Only ballistic coefficient and lift-to-drag ratio matter for a flight", "statement": "Two vehicles with the same ballistic coefficient, lift-to-drag ratio, nose radius, planet and entry state but different mass, reference area and angle of attack get the same trajectory, loads and heating, the same corridor bounds and widths, and the same report of every guided simulation. With a drag curve over the Mach number this holds if the mass per area is the same.", "quantifier": "every pair of such vehicles, every atmosphere, integrator, bracket and guidance setting", "why_tests_cant": "Equality of two whole simulations for all masses and areas; it fails as soon as one of about forty formulas uses a mass or an area on its own.", "anchors": ["AMAT/vehicle.py:Vehicle.__init__", "AMAT/vehicle.py:Vehicle.propogateEntry", "AMAT/vehicle.py:Vehicle.computeTCW", "AMAT/vehicle.py:Vehicle.propogateGuidedEntry", "AMAT/vehicle.py:Vehicle.propogateGuidedEntryD"]}
{"id": "C90", "title": "Bank angle acts only through the lift vector", "statement": "The bank angle of a vehicle without lift has no effect on trajectory, loads and heating, so its two corridor bounds agree and its corridor width is zero; a bank angle increased by 360 degrees gives the same flight; a vehicle with reversed lift flown upside down gives the same flight, and its overshoot bound is the undershoot bound of the original vehicle.", "quantifier": "every vehicle, atmosphere, integrator, bank angle and bracket", "why_tests_cant": "A continuum of bank angles and vehicles, and equality of whole simulations.", "anchors": ["AMAT/vehicle.py:Vehicle.EOM", "AMAT/vehicle.py:Vehicle.propogateEntry", "AMAT/vehicle.py:Vehicle.findOverShootLimit", "AMAT/vehicle.py:Vehicle.findUnderShootLimit", "AMAT/vehicle.py:Vehicle.computeTCW"]}
{"id": "C91", "title": "Atmosphere check shows the atmosphere that is flown, at the requested interval", "statement": "Planet.checkAtmProfiles(h0, dh) plots temperature, pressure, density and speed of sound at altitudes from h0 to the top of the atmosphere with spacing dh, and the plotted values are those used along a trajectory at that altitude.", "quantifier": "every body, atmosphere, start altitude and interval", "why_tests_cant": "All intervals; the spacing is a quotient of two truncated numbers and looks right in a figure.", "anchors": ["AMAT/planet.py:Planet.checkAtmProfiles", "AMAT/planet.py:Planet.densityvectorized", "AMAT/planet.py:Planet.rhovectorized"]}
{"id": "C92", "title": "Data flow only inside transmit windows", "statement": "The data volume grows between two samples only if at one of them the link is visible and the time lies inside a transmit window of the schedule.", "quantifier": "every visibility, schedule, window list and data rate", "why_tests_cant": "All pairs of schedules and visibilities, including schedules made for another duration.", "anchors": ["AMAT/telecom.py:Schedule.__init__", "AMAT/telecom.py:Link.compute_data_volume"]}
{"id": "C93", "title": "Printed link budget adds up", "statement": "The gains and losses printed by print_link_budget add up to the printed available Eb/N0, and the printed margin is available minus required Eb/N0, up to the rounding of the printed numbers.", "quantifier": "every link", "why_tests_cant": "A missing line is invisible in any single printout; the sum must be compared for all links.", "anchors": ["AMAT/telecom.py:Link.print_link_budget", "AMAT/telecom.py:Link.__init__"]}
{"id": "C94", "title": "Files of a Monte Carlo simulation hold the results of its runs", "statement": "After runMonteCarlo and its variants, folder #k of the main folder holds the values sampled for run k and the results of that run, and row k of every summary file (terminal_apoapsis_arr.txt, \u2026) is the result of run k; an existing main folder is never written into and no other file is changed. This holds also when a run raises and ends the simulation early.", "quantifier": "every number of runs, samples, guidance setting, integrator and state of the disk", "why_tests_cant": "Needs all interleavings of runs, failures and file writes; a test runs a completed batch in an empty folder.", "anchors": ["AMAT/vehicle.py:Vehicle.runMonteCarlo", "AMAT/vehicle.py:Vehicle.runMonteCarlo2", "AMAT/vehicle.py:Vehicle.runMonteCarloD", "AMAT/vehicle.py:Vehicle.runMonteCarloD2", "AMAT/vehicle.py:Vehicle.runMonteCarloD_Earth"]}
{"id": "C95", "title": "Only the ratio of density to ballistic coefficient matters for the motion", "statement": "A vehicle with k times the ballistic coefficient in an atmosphere of k times the density flies, as long as it is above the surface, the same trajectory with the same accelerations and the same end; its dynamic pressure is k times and its convective heating rate (Sutton-Graves bodies) the square root of k times as large.", "quantifier": "every factor, vehicle with constant drag coefficient, planet, atmosphere, entry state, bank angle and integrator", "why_tests_cant": "An identity between the flights of two families of vehicles for every factor and every integrator.", "anchors": ["AMAT/vehicle.py:Vehicle.EOM", "AMAT/vehicle.py:Vehicle.propogateEntry", "AMAT/vehicle.py:Vehicle.propogateEntry2", "AMAT/vehicle.py:Vehicle.qStagConvective", "AMAT/planet.py:Planet.density"]}
{"id": "C96", "title": "Monte Carlo files shipped with the code give physical densities", "statement": "For every Monte Carlo density file shipped in atmdata, every profile in it and every sigma value within three standard deviations, the sampled density profile can be loaded and is non-negative at every altitude.", "quantifier": "every profile of the file, every real sigma, every altitude", "why_tests_cant": "Tests would have to try every sigma and every altitude; the examples draw a few hundred sigma values and plot the apoapsis only.", "anchors": ["AMAT/planet.py:Planet.loadMonteCarloDensityFile2", "AMAT/planet.py:Planet.loadAtmosphereModel5"]}
{"id": "C97", "title": "Angular momentum about the planet's axis changes only by the torque of drag and lift", "statement": "Along every propagated flight the inertial angular momentum about the polar axis, r cos(phi) (v cos(gamma) cos(psi) + Omega r cos(phi)), changes at the rate of the axial torque of drag and lift; in particular it is constant above the atmosphere.", "quantifier": "every solution of the equations of motion, vehicle, planet, atmosphere and bank history", "why_tests_cant": "A conservation law over all trajectories; a test can only compare two ends of one numerical trajectory within a tolerance.", "anchors": ["AMAT/vehicle.py:Vehicle.EOM", "AMAT/vehicle.py:Vehicle.cfpsibar", "AMAT/vehicle.py:Vehicle.copsibar", "AMAT/vehicle.py:Vehicle.gwbar"]}
{"id": "C98", "title": "Flight histories are sampled every dt over the requested time", "statement": "Point k of the history stored by propogateEntry or propogateEntry2 is at k*dt seconds (k*dt/60 minutes in the plot arrays) and no point is a full step or more after the requested duration. With propogateEntry the exit flag is 0 only if the whole requested duration has been flown and every point lies between the trap and the skip altitude, and it is 0 whenever all points lie strictly between them.", "quantifier": "every planet, vehicle, entry state, bank angle, duration, step and integrator", "why_tests_cant": "Off-by-one errors of the time grid depend on the ratio of duration and step; tests use one duration that is a multiple of the step.", "anchors": ["AMAT/vehicle.py:Vehicle.propogateEntry", "AMAT/vehicle.py:Vehicle.propogateEntry2", "AMAT/vehicle.py:Vehicle.solveTrajectory", "AMAT/vehicle.py:Vehicle.classifyTrajectory"]}
{"id": "C99", "title": "Speed of sound and Mach numbers in the shipped atmospheres", "statement": "For every shipped atmosphere file the speed of sound used by the code is that of an ideal gas at the rows of the file, stays within the physical range of that atmosphere at all altitudes in between (for example 174 to 236 m/s at Mars, 271 to 563 m/s at Earth) and is positive everywhere. So computeMach gives one finite Mach number per sample, equal to computeMachScalar, positive exactly for a moving vehicle, and inside the atmosphere between speed over highest and speed over lowest speed of sound.", "quantifier": "every shipped file, altitude, trajectory and speed", "why_tests_cant": "The cubic interpolation between the rows can overshoot, even below zero, at altitudes no test samples.", "anchors": ["AMAT/planet.py:Planet.loadAtmosphereModel", "AMAT/planet.py:Planet.sonicvectorized", "AMAT/vehicle.py:Vehicle.computeMach", "AMAT/vehicle.py:Vehicle.computeMachScalar"]}
{"id": "C100", "title": "A flight lasts for the requested time unless it meets a named obstacle", "statement": "From every state in flight the equations of motion have a solution for the whole requested time, unless the vehicle comes down to a chosen altitude, slows down to a chosen speed, comes near a pole or near vertical flight, or becomes almost horizontal at the edge of the atmosphere. Speed and altitude of a flight are bounded by start state and elapsed time, so no flight ends because they run away. The same holds for guided flights, whose bank angle is commanded at the beginning of each guidance cycle from everything flown so far.", "quantifier": "all nine shipped files, every vehicle with non-negative drag (constant coefficient or smooth curve), start state, bank angle or guidance law, and duration", "why_tests_cant": "Existence for a whole interval and all states: an integrator returns numbers also where there is no solution.", "anchors": ["AMAT/vehicle.py:Vehicle.EOM", "AMAT/vehicle.py:Vehicle.solveTrajectory", "AMAT/planet.py:Planet.density"]}
{"id": "C101", "title": "Without lift only orbital speed brings a descending vehicle up again", "statement": "A vehicle without lift, or flown with lift down, that is not climbing climbs later only after flying horizontally with at least the local orbital speed in inertial space. If its energy is too low for that (below a circular orbit at the surface, less the share of rotation and oblateness) it never climbs, and propogateEntry never reports it as skipped out.", "quantifier": "every planet, atmosphere with non-negative density, vehicle with non-negative drag, bank angle history and start", "why_tests_cant": "A statement about all times of all flights; a lift, gravity or frame-rotation term of the wrong sign shows only near orbital speed.", "anchors": ["AMAT/vehicle.py:Vehicle.EOM", "AMAT/vehicle.py:Vehicle.cfgammabar", "AMAT/vehicle.py:Vehicle.cogammabar", "AMAT/vehicle.py:Vehicle.gnbar", "AMAT/vehicle.py:Vehicle.classifyTrajectory", "AMAT/vehicle.py:Vehicle.propogateEntry"]}
{"id": "C102", "title": "Small changes of a flight's data change it little, and leave the verdict as it is", "statement": "Take a flight at constant bank angle that stays away from the surface, zero speed, the poles, vertical flight and grazing the edge of the atmosphere. Changing entry state, ballistic coefficient, lift-to-drag ratio or bank angle a little gives a flight that lasts as long and differs by at most a constant times the change; the same holds for curves that follow the equations of motion only up to a small defect, as an integrator's do, and for flights in an atmosphere of slightly different density (constant drag coefficient) or with a bank angle varying slightly over time, for as long as they last. If the flight is at none of the output times exactly at a threshold altitude, propogateEntry returns the index and exit flag of the exact flight for all data and all integration errors that are small enough.", "quantifier": "all nine shipped files, every vehicle (constant drag coefficient or smooth curve), duration, flight as above and perturbation below a positive size", "why_tests_cant": "A continuity claim over all perturbations, and the right-hand side jumps at the edge of the atmosphere; a test compares two runs.", "anchors": ["AMAT/vehicle.py:Vehicle.EOM", "AMAT/vehicle.py:Vehicle.solveTrajectory", "AMAT/vehicle.py:Vehicle.classifyTrajectory", "AMAT/vehicle.py:Vehicle.propogateEntry"]}
{"id": "C103", "title": "A guided simulation ends where its vehicle has left the atmosphere", "statement": "The exit phase of propogateGuidedEntry and propogateGuidedEntry2 flies cycles until the vehicle is at or above the skip altitude or has begun a cycle less than 10 km below it; with propogateGuidedEntryD and propogateGuidedEntryD2 less than 1 km below it. No cycle begins at or above the skip altitude, and none is left out. A simulation that returns has not ended anywhere lower.", "quantifier": "every planet, vehicle, guidance parameters, steps and integrators", "why_tests_cant": "Where a loop ends depends on the whole trajectory; tests run one vehicle that leaves well above the threshold.", "anchors": ["AMAT/vehicle.py:Vehicle.propogateGuidedEntry", "AMAT/vehicle.py:Vehicle.propogateGuidedEntry2", "AMAT/vehicle.py:Vehicle.propogateGuidedEntryD", "AMAT/vehicle.py:Vehicle.propogateGuidedEntryD2", "AMAT/vehicle.py:Vehicle.propogateExitPhase", "AMAT/vehicle.py:Vehicle.propogateExitPhaseD"]}
{"id": "C104", "title": "A flight is reported for the requested time, in double precision", "statement": "With the arithmetic of the machine (doubles, rounding to nearest) the history of propogateEntry and propogateEntry2 has a point every dt, up to rounding, reaches the requested duration and has no point a full step or more after it.", "quantifier": "every planet, duration, step and rounding of ties", "why_tests_cant": "Whether the quotient of two rounded quotients is above an integer changes with every pair of duration and step; tests try one or two.", "anchors": ["AMAT/vehicle.py:Vehicle.solveTrajectory", "AMAT/vehicle.py:Vehicle.solveTrajectory2", "AMAT/vehicle.py:Vehicle.propogateEntry", "AMAT/vehicle.py:Vehicle.propogateEntry2", "AMAT/planet.py:Planet.dimensionalize"]}
{"id": "C105", "title": "The reported heat load is the time integral of the heat rate along the flight", "statement": "As the output step shrinks and the integration error vanishes, the stagnation-point heat load reported by propogateEntry for a moment of a flight tends to the integral over time, in seconds, of the convective plus radiative heat rate at the altitudes and speeds of the exact flight up to that moment.", "quantifier": "all nine shipped files, every vehicle, flight above the surface (below the edge of the atmosphere and off the speeds where a rate formula jumps, except for instants), sequence of steps and errors", "why_tests_cant": "A limit over all refinements; a test compares one run with one stored number, and a wrong time scale, a missing term or a one-off sum looks plausible.", "anchors": ["AMAT/vehicle.py:Vehicle.propogateEntry", "AMAT/vehicle.py:Vehicle.qStagConvective", "AMAT/vehicle.py:Vehicle.qStagRadiative"]}
{"id": "C106", "title": "The equilibrium-glide bank angle keeps a level vehicle level", "statement": "In the equilibrium-glide phase a vehicle in level flight whose command is neither clipped nor corrected for dynamic pressure is flown at the bank angle at which the vertical component of lift balances gravity and the curvature of the path, so its altitude does not accelerate. At the reference dynamic pressure the commanded bank angle points three quarters of the lift down, whatever the gains.", "quantifier": "every planet, atmosphere, lifting vehicle, gains, level state and flight through it", "why_tests_cant": "The balance has to hold for every latitude, heading and altitude in the planet's own gravity and rotation; tests check that a simulation ends near its target.", "anchors": ["AMAT/vehicle.py:Vehicle.propogateEquilibriumGlide", "AMAT/vehicle.py:Vehicle.propogateEquilibriumGlide2", "AMAT/vehicle.py:Vehicle.EOM", "AMAT/vehicle.py:Vehicle.setEquilibriumGlideParams"]}
{"id": "C107", "title": "The two propagation methods report the same flight", "statement": "propogateEntry2, called with the same vehicle, entry state, duration, step and bank angle as propogateEntry, reports the same flight, up to the errors of the two integrators: the flight is followed to the end of the requested time, to the trap altitude or to the skip altitude.", "quantifier": "every planet, vehicle, atmosphere, entry state, bank angle, duration, step and pair of exact integrators", "why_tests_cant": "The two methods differ only on flights that dive almost vertically before they reach the trap altitude; tests compare neither such flights nor the two methods.", "anchors": ["AMAT/vehicle.py:Vehicle.propogateEntry", "AMAT/vehicle.py:Vehicle.propogateEntry2", "AMAT/vehicle.py:Vehicle.solveTrajectory", "AMAT/vehicle.py:Vehicle.solveTrajectory2", "AMAT/vehicle.py:Vehicle.hit_EFPA_90"]}
{"id": "C108", "title": "Peak loads read off a simulation are the peak loads of the flight", "statement": "As the output step shrinks and the integration error vanishes, the largest entries of the histories of convective and total stagnation-point heat rate, dynamic pressure and drag load stored by propogateEntry tend to the largest values of these quantities along the exact flight, in the units documented.", "quantifier": "all nine shipped files, every vehicle (drag load: constant drag coefficient), flight inside the atmosphere (total heat rate: off the speeds where a rate formula jumps), sequence of steps and errors", "why_tests_cant": "A limit over all refinements of the largest of a growing number of samples; a test compares one run with one stored number.", "anchors": ["AMAT/vehicle.py:Vehicle.propogateEntry", "AMAT/vehicle.py:Vehicle.qStagConvective", "AMAT/vehicle.py:Vehicle.qStagRadiative", "AMAT/vehicle.py:Vehicle.computeDynPres", "AMAT/vehicle.py:Vehicle.computeAccelerationDrag"]}
{"id": "C109", "title": "Corridor limits are the limits of the exact flights", "statement": "If the exact flights at the entry angles on one side clearly reach the target apoapsis and those on the other side clearly do not, findOverShootLimit, findUnderShootLimit and (for a vehicle built without lift) findEFPALimitD return, with an accurate enough solver, a limit within the requested tolerance of an angle between the two sides, and leave the vehicle as it was.", "quantifier": "all shipped files of bodies with a low-altitude threshold, every vehicle, time span, step, target apoapsis, bracket, tolerance, and every solver of the required accuracy", "why_tests_cant": "Compares a search over a continuum of entry angles with the solutions of differential equations at all of them; a test sees finitely many approximate flights.", "anchors": ["AMAT/vehicle.py:Vehicle.hitsTargetApoapsis", "AMAT/vehicle.py:Vehicle.findOverShootLimit", "AMAT/vehicle.py:Vehicle.findUnderShootLimit", "AMAT/vehicle.py:Vehicle.findEFPALimitD", "AMAT/vehicle.py:Vehicle.classifyTrajectory"]}
{"id": "C110", "title": "Capture verdicts, limits in inertial space and corridor widths are those of the exact flights", "statement": "With an accurate enough solver: isCaptured returns the sign of the orbital energy (relative to the rotating planet) at the last point of the exact flight inside the atmosphere, when it is not zero; hitsTargetApoapsis2 returns whether the inertial orbit through that point rises beyond the target, when it clearly does or does not and the path never gets steeper than 88 degrees; findOverShootLimit2 and findUnderShootLimit2 return limits within the tolerance of angles where the verdict of the exact flights changes; computeTCW, computeTCW2 and, for vehicles built without lift, computeTCWD and computeTCWD2 return the distance of two such angles up to the two tolerances.", "quantifier": "all shipped files of bodies with a low-altitude threshold, every vehicle, time span, step, target apoapsis, bracket, tolerance, ballistic-coefficient ratio, and every solver of the required accuracy", "why_tests_cant": "Compares searches over a continuum of entry angles with the solutions of differential equations at all of them; a test sees finitely many approximate flights.", "anchors": ["AMAT/vehicle.py:Vehicle.isCaptured", "AMAT/vehicle.py:Vehicle.hitsTargetApoapsis2", "AMAT/vehicle.py:Vehicle.findOverShootLimit2", "AMAT/vehicle.py:Vehicle.findUnderShootLimit2", "AMAT/vehicle.py:Vehicle.computeTCW", "AMAT/vehicle.py:Vehicle.computeTCW2", "AMAT/vehicle.py:Vehicle.computeTCWD", "AMAT/vehicle.py:Vehicle.computeTCWD2"]}
{"id": "C111", "title": "The record of a guided entry is one flight with the recorded bank angles", "statement": "The time, altitude, position, speed and direction histories returned by a guided simulation are points of one continuous flight that starts in the entry state: between the stored times of successive guidance cycles it obeys the equations of motion at the bank angle stored for the cycle (with drag modulation: with the first ballistic coefficient up to the jettison and the second one after it). In particular the energy computed from the stored altitudes, latitudes and speeds never increases, whatever the guidance commands.", "quantifier": "every planet, atmosphere of non-negative density, vehicle, guidance parameters, reference profile, steps, and solver that follows the equations of motion with any defect (energy: exactly)", "why_tests_cant": "Each cycle is a separate simulation restarted from rounded plot units; that hundreds of them join to one flight of the one vehicle, for every command history, is not visible in final values.", "anchors": ["AMAT/vehicle.py:Vehicle.propogateGuidedEntry", "AMAT/vehicle.py:Vehicle.propogateGuidedEntry2", "AMAT/vehicle.py:Vehicle.propogateGuidedEntryD", "AMAT/vehicle.py:Vehicle.propogateGuidedEntryD2", "AMAT/vehicle.py:Vehicle.propogateEquilibriumGlide", "AMAT/vehicle.py:Vehicle.propogateExitPhase", "AMAT/vehicle.py:Vehicle.setInitialState"]}
{"id": "C112", "title": "The energy a vehicle loses is the work of drag, and bounds its convective heat load", "statement": "On every flight of a vehicle with constant drag coefficient the specific energy in the rotating frame (kinetic energy, gravity with J2 and J3, centrifugal potential, from the SI constants of the planet object) lost over a time equals the integral over that time of drag deceleration times speed, whatever lift and bank angle do. Where convective heating follows Sutton and Graves, the square of the convective heat load is at most the square of the rate at unit density and speed, times twice the ballistic coefficient, times the energy lost, times the integral of the cube of the speed; on Mars and Titan the heat loads reported by propogateEntry for finer and finer samples eventually stay below every number above that bound.", "quantifier": "every shipped atmosphere file, vehicle with constant drag coefficient, bank history, initial state, duration, and flight above the surface with any number of crossings of the edge of the atmosphere (load bound: all planets except Uranus and Neptune; reported loads: Mars and Titan, samples with errors tending to zero)", "why_tests_cant": "The balance ties the forces, the gravity field with its rotation terms, the scaling to code units and the heating correlation together for all trajectories; a test compares single numbers with earlier runs of the same code.", "anchors": ["AMAT/vehicle.py:Vehicle.EOM", "AMAT/vehicle.py:Vehicle.a_s", "AMAT/vehicle.py:Vehicle.qStagConvective", "AMAT/vehicle.py:Vehicle.qStagTotal", "AMAT/vehicle.py:Vehicle.propogateEntry", "AMAT/planet.py:Planet.density"]}
{"id": "C113", "title": "Downrange is the distance flown over the ground", "statement": "The downrange distance that a simulation reports is the length of the ground track. In particular the difference of two entries of drange_kmc is never less than the great-circle distance, on the sphere of the planet's radius, between the two points given by theta_degc and phi_degc.", "quantifier": "every planet, vehicle, atmosphere, bank history and flight above the surface that flies forward (speed and cosine of the flight-path angle not negative) and does not meet a pole", "why_tests_cant": "The relation is between an accumulated quantity and the geometry of the whole path on the sphere; checking it on examples needs the ground track, which no test computes.", "anchors": ["AMAT/vehicle.py:Vehicle.EOM", "AMAT/vehicle.py:Vehicle.propogateEntry", "AMAT/vehicle.py:Vehicle.convertToPlotUnits"]}
{"id": "C114", "title": "Integrated loads survive double precision", "statement": "With every operation rounded to double precision, the running integral that SciPy's cumulative trapezoidal rule returns for non-decreasing times and non-negative rates starts at zero, is never negative and never decreases, and its k-th value is the exact trapezoidal sum of the samples up to a relative error of 2(k+4)/2^53. This covers the heat load of a flight on its output times as computed in doubles.", "quantifier": "every list of double-precision samples, every rounding to nearest (any rule for ties), results below overflow", "why_tests_cant": "Rounding errors depend on every bit of every sample; a test sees one list and one rounding mode.", "anchors": ["AMAT/vehicle.py:Vehicle.propogateEntry", "AMAT/vehicle.py:Vehicle.propogateEntry2", "AMAT/telecom.py:Link.compute_data_volume", "AMAT/planet.py:Planet.scaleHeight"]}
{"id": "C115", "title": "Energy limits altitude, speed and heating", "statement": "A vehicle inside the atmosphere whose energy, in the frame of the rotating planet, is less than that of a vehicle at rest at the skip-out altitude never climbs to that altitude, and its simulation is not given the exit flag of a vehicle that left the atmosphere. Along every flight no speed exceeds the speed of free fall from an earlier point of the flight, and no stagnation-point heat rate exceeds that of a vehicle in such free fall.", "quantifier": "every planet and shipped atmosphere, every vehicle with non-negative drag (constant or from a curve), every bank history, every flight with non-negative speed; for reported values, samples on the flight", "why_tests_cant": "The claim is about every instant of every flight; a test sees one integration and its samples.", "anchors": ["AMAT/vehicle.py:Vehicle.EOM", "AMAT/vehicle.py:Vehicle.propogateEntry", "AMAT/vehicle.py:Vehicle.classifyTrajectory", "AMAT/vehicle.py:Vehicle.qStagTotal"]}
{"id": "C116", "title": "Continuing a flight from its reported last values starts where it ended", "statement": "In double precision, a simulation started with setInitialState from the altitude, longitude, latitude, speed, heading, flight-path angle and downrange reported at the end of another one begins at the state in which that one ended, up to a relative error of 2^-49 in every component. The first sample of a simulation repeats the initial values it was given with the same accuracy, the altitude relative to the distance from the centre of the planet. The trip is not exact: a longitude of 1.125 rad comes back as 1.1250000000000002 rad.", "quantifier": "every rounding to the nearest double, every planet radius and reference speed from 1 to 2^59, every state at or above the surface whose components are zero or not below 2^-700", "why_tests_cant": "The claim is about every state in double precision; tests try a few and compare with tolerances.", "anchors": ["AMAT/vehicle.py:Vehicle.convertToPlotUnits", "AMAT/vehicle.py:Vehicle.propogateEntry", "AMAT/vehicle.py:Vehicle.setInitialState", "AMAT/planet.py:Planet.nonDimState", "AMAT/planet.py:Planet.dimensionalize", "AMAT/planet.py:Planet.computeR"]}
{"id": "C117", "title": "Deflecting the orbiter starts from the orbit it shares with the probe", "statement": "After a probe release, compute_orbiter_deflection_trajectory starts from the state on the probe orbit at the given true anomaly: distance and speed are those of the probe orbit there, and the new semi-major axis and angular momentum follow from that state with the speed changed by dV along the velocity. With dV = 0 the probe orbit comes back, and the deflected orbit passes through the point of the manoeuvre.", "quantifier": "every planet, every exit on a bound orbit that is neither circular nor equatorial, every release onto a bound orbit, every anomaly and deflection burn", "why_tests_cant": "The claim relates three orbits for all exits, release points and burns; a test pins the elements of one.", "anchors": ["AMAT/orbiter.py:Orbiter.compute_orbiter_deflection_trajectory", "AMAT/orbiter.py:Orbiter.pos_vec_bi_orbiter_defl", "AMAT/orbiter.py:Orbiter.pos_vec_bi_probe", "AMAT/orbiter.py:Orbiter.vel_vec_bi_probe"]}
{"id": "C118", "title": "Table lookups survive double precision", "statement": "A linear table lookup in double precision (launch mass, Monte Carlo atmospheres) differs from exact linear interpolation by at most 2^-50 times the larger of the two neighbouring values, returns the fill value exactly outside the table, stays positive in tables of positive values whose neighbours differ by less than a factor 2^49, and falls with falling tables up to 2^-49 of the largest value. The code NumPy uses returns tabulated values exactly; the one SciPy falls back to need not: in the table (0, 0), (49, 1) it finds 0.9999999999999999 at 49. Every shipped launch vehicle has a positive launch mass within its published range, to within 2^-33 kg of linear interpolation, and 0 outside.", "quantifier": "every rounding to the nearest double, every table of doubles with distinct abscissae up to 2^99 and values that are zero or not below 2^-900, every double as argument", "why_tests_cant": "The claim covers every table and argument in double precision; tests compare a few values with a tolerance.", "anchors": ["AMAT/launcher.py:Launcher.__init__", "AMAT/launcher.py:Launcher.launchMass", "AMAT/interplanetary.py:Interplanetary.compute_launch_capability", "AMAT/planet.py:Planet.loadAtmosphereModel5"]}
{"id": "C119", "title": "Probe entry point lies on the probe's orbit", "statement": "The recorded entry position and velocity of a released probe are those of the two-body orbit on which the burn leaves it, at the inbound crossing of the entry interface; the flight-path angle between them is that of the orbit. (False of the code: the position uses the argument of periapsis of the orbiter, the velocity that of the probe, so the entry point is off by 2 r |sin(D/2)| and the angle by D, where D is the angle by which the burn turns the line of apsides.)", "quantifier": "every bound, tilted, eccentric exit state, release anomaly and burn that leave a bound probe orbit crossing the interface", "why_tests_cant": "The two arguments of periapsis nearly agree for burns close to an apsis; the only test releases the probe at 178 degrees.", "anchors": ["AMAT/orbiter.py:Orbiter.compute_probe_targeting_trajectory", "AMAT/orbiter.py:Orbiter.pos_vec_bi_probe", "AMAT/orbiter.py:Orbiter.vel_vec_bi_probe"]}
{"id": "C120", "title": "Both stored entry latitudes are the latitude of the entry point", "statement": "The two entry latitudes an arrival object stores, latitude_entry_bi and latitude_entry_bi_analytic, are both the latitude of the entry position. (False of the code: for entries with negative body-inertial x the second one has the opposite sign.)", "quantifier": "every arrival with an entry interface whose entry point is off the plane x = 0", "why_tests_cant": "Depends on the quadrant of the entry point; the tests look at one arrival.", "anchors": ["AMAT/approach.py:Approach.__init__"]}
{"id": "C121", "title": "B-plane axes in the frame of the arrival direction", "statement": "In the rotated frame whose third axis is the arrival direction, the stored T axis is (0,-1,0), the stored R axis is (1,0,0) and the aim direction is (cos psi, sin psi, 0): psi is the position angle of the aim point for every arrival.", "quantifier": "every planet, arrival velocity not along the pole, periapsis radius and aim angle", "why_tests_cant": "The frame depends on the arrival direction through two arctangents with quadrant branches.", "anchors": ["AMAT/approach.py:Approach.__init__", "AMAT/approach.py:Approach.BI_to_BI_dprime"]}
{"id": "C122", "title": "Integration errors change the energy of a flight only in proportion", "statement": "If the solver's output satisfies the equations of motion up to a defect eps in every component, the energy of the flight (in the rotating frame) never rises by more than K eps per unit of time, whatever the bank angles, and above the atmosphere it changes by at most that in either direction; K depends only on the planet, the largest distance and the largest speed. The same bound holds between any two entries of the record of a guided entry with lift or with drag modulation, across all guidance cycles and the jettison.", "quantifier": "every planet, every vehicle with non-negative drag, every atmosphere of non-negative density, every bank history and guidance parameter, every solver output with the stated defect at or above the surface", "why_tests_cant": "A test compares one integration with a tolerance; the claim bounds the drift for all flights and solvers by their defect.", "anchors": ["AMAT/vehicle.py:Vehicle.EOM", "AMAT/vehicle.py:Vehicle.propogateEntry", "AMAT/vehicle.py:Vehicle.propogateGuidedEntry", "AMAT/vehicle.py:Vehicle.propogateGuidedEntryD"]}
{"id": "C123", "title": "Roll-rate limit and bank-angle tracking in double precision", "statement": "Evaluated in double precision, one guidance cycle changes the bank angle by at most the maximal roll rate times the timestep up to a relative error of 2^-51 of the step and the angle; it never turns away from the commanded angle, not even by a rounding error, and holds an angle equal to the command exactly. As long as the step is above 2^-48 of the angles, a constant command is reached to within one step and rounding errors after at most 2|command - start|/step + 2 cycles and never left again. The limit itself can be exceeded by a rounding error: from 0.1 towards 75 degrees at 20 deg/s and one-second cycles.", "quantifier": "every rounding to nearest double, every roll rate, command, start angle and timestep that are doubles, without overflow", "why_tests_cant": "A test compares a few angles with a tolerance; the claim bounds the rounding errors for all angles and over unboundedly many cycles.", "anchors": ["AMAT/vehicle.py:Vehicle.psuedoController", "AMAT/vehicle.py:Vehicle.setMaxRollRate"]}
{"id": "C124", "title": "The energy limits speed and altitude throughout a guided entry", "statement": "In the record of a guided entry, with lift or with drag modulation, no speed exceeds that of free fall from any earlier entry (with an allowance for oblateness and rotation), and a vehicle that at some entry is below an altitude with less energy than at rest there is below that altitude at all later entries, whatever the guidance commands, across all cycles and the jettison.", "quantifier": "every planet, every vehicle with non-negative drag, every atmosphere of non-negative density, all guidance parameters, every run that returns, with a solver whose samples lie on the flights", "why_tests_cant": "A test compares a few runs; the claim holds for all commands and all runs.", "anchors": ["AMAT/vehicle.py:Vehicle.propogateGuidedEntry", "AMAT/vehicle.py:Vehicle.propogateGuidedEntry2", "AMAT/vehicle.py:Vehicle.propogateGuidedEntryD", "AMAT/vehicle.py:Vehicle.propogateGuidedEntryD2", "AMAT/vehicle.py:Vehicle.EOM"]}
{"id": "C125", "title": "Schedules and data volumes hold up in double precision", "statement": "Computed in doubles, the sample times of a Schedule ascend from exactly 0 to exactly the duration and lie within a relative 3*2^-53 of their nominal values; a sample transmits exactly if its computed time lies in a window, which agrees with exact arithmetic unless a window ends that close to it (a sample nominally on the edge of a window can be dropped, e.g. at 400 s of an hour sampled at 100 points). The data volume starts at 0, never decreases, does not change in a single bit while the link is down, agrees with the exact trapezoidal volume up to a relative 2(k+4)2^-53 after k steps, and so exceeds rate times elapsed time by rounding only.", "quantifier": "all durations from 2^-900 s, all numbers of samples from 2 to 2^52, all lists of windows, all non-negative rates, all non-decreasing time grids and all visibility and transmission arrays of doubles, every way of rounding ties", "why_tests_cant": "Rounding errors accumulate over all grids and windows; a test sees the last bits of a few.", "anchors": ["AMAT/telecom.py:Schedule.__init__", "AMAT/telecom.py:Link.compute_data_volume"]}
{"id": "C126", "title": "The body-inertial exit state describes the inertial motion", "statement": "The attributes terminal_r_bi, terminal_theta_bi, terminal_phi_bi, terminal_v_bi, terminal_g_bi, terminal_psi_bi of an Orbiter, documented as the body-inertial exit state, describe the position and the inertial velocity of the vehicle at atmospheric exit.", "quantifier": "every planet, every exit state above the centre with non-zero inertial velocity", "why_tests_cant": "A rotating frame is involved at every latitude, heading and flight-path angle; samples along the equator flying east agree by coincidence.", "anchors": ["AMAT/orbiter.py:Orbiter.compute_exit_state_inertial"]}
{"id": "C127", "title": "The insertion burn vector leads from the approach to the orbit", "statement": "PropulsiveOrbiter: the approach velocity at periapsis plus the reported burn DV_OI_vec is the velocity on the capture orbit at periapsis (as v_coast plus PRM_dv_vec is for the periapsis raise of an Orbiter).", "quantifier": "every approach and target apoapsis", "why_tests_cant": "The existing test looks at the magnitude only, which does not show the sign.", "anchors": ["AMAT/orbiter.py:PropulsiveOrbiter.__init__"]}
{"id": "C128", "title": "The probe's time of flight ends at the entry interface", "statement": "ProbeOrbiterDeflection.TOF_probe and ProbeProbeDeflection.TOF_probe1, documented as the time of flight from the deflection manoeuvre until the atmospheric entry interface, are the time after which the probe is at that altitude.", "quantifier": "every arrival, entry interface above the periapsis and manoeuvre radius", "why_tests_cant": "The existing tests pin the number the code yields; only the motion of the probe tells which point it belongs to.", "anchors": ["AMAT/maneuver.py:ProbeOrbiterDeflection.__init__", "AMAT/maneuver.py:ProbeProbeDeflection.__init__"]}
{"id": "C129", "title": "Stored arrival vectors and angles are what their documentation says", "statement": "For every arrival h_vec_bi is the angular momentum vector (its length is the stored h), B_vec_bi is the aim point vector (its length is the stored b_mag) and beta is the true anomaly of the outgoing asymptote.", "quantifier": "every arrival", "why_tests_cant": "Needs the geometry of the hyperbola; the existing tests check directions and orbit angles only.", "anchors": ["AMAT/approach.py:Approach.__init__"]}
{"id": "C130", "title": "Every documented pair of bodies can be analysed for visibility", "statement": "LanderToPlanet and OrbiterToPlanet yield the direction and distance of the target for every two different bodies of the documented list (Venus to Neptune and Titan).", "quantifier": "every pair of different documented bodies, latitude, orbit and number of samples", "why_tests_cant": "The existing tests use one or two pairs with an ephemeris file.", "anchors": ["AMAT/visibility.py:LanderToPlanet.__init__", "AMAT/visibility.py:OrbiterToPlanet.__init__"]}
{"id": "C131", "title": "Guidance cycle histories describe the trajectory", "statement": "After a guided entry each line of t_step_array, hdot_array, hddot_array, q_array and h_step_array describes one point of the recorded trajectory: its time (min), altitude rate (m/s), mean altitude acceleration since the line before (m/s2), dynamic pressure (Pa) and altitude (m).", "quantifier": "every guided entry that delivers a result, all four variants, number of cycles and parameters", "why_tests_cant": "The number of cycles and their states depend on the run; tests look at the final orbit only.", "anchors": ["AMAT/vehicle.py:Vehicle.propogateEquilibriumGlide", "AMAT/vehicle.py:Vehicle.propogateExitPhase", "AMAT/vehicle.py:Vehicle.propogateEntryPhaseD2", "AMAT/vehicle.py:Vehicle.propogateExitPhaseD"]}
{"id": "C132", "title": "Entry plots show the simulated flight", "statement": "makeBasicEntryPlots and createQPlot draw one point per point of the last trajectory, in the units of their axis labels, and all points are visible.", "quantifier": "every successful propagation, vehicle, planet, integrator and bank angle", "why_tests_cant": "Plots are not inspected by the tests; whether all of a flight is inside the axes depends on the flight.", "anchors": ["AMAT/vehicle.py:Vehicle.makeBasicEntryPlots", "AMAT/vehicle.py:Vehicle.createQPlot"]}
{"id": "C133", "title": "Verdicts do not suffer from rounding", "statement": "With every operation rounded to double precision: a solution is classified, truncated and given its density exactly as its radii say, for every body; isCaptured never reports capture of a vehicle whose energy is zero or more, and reports capture whenever the kinetic energy is below 1 - 2^-51 of that needed to escape.", "quantifier": "every solution of double-precision radii and speeds, every body or planet whose altitude limits are doubles below its radius, however ties are rounded", "why_tests_cant": "Tests compare verdicts of a few flights; whether rounding can flip a verdict next to a limit needs an argument over all doubles.", "anchors": ["AMAT/vehicle.py:Vehicle.classifyTrajectory", "AMAT/vehicle.py:Vehicle.truncateTrajectory", "AMAT/vehicle.py:Vehicle.isCaptured", "AMAT/vehicle.py:Vehicle.computeEnergy", "AMAT/planet.py:Planet.computeH", "AMAT/planet.py:Planet.rho", "AMAT/planet.py:Planet.density"]}
{"id": "C134", "title": "Quadratic atmosphere lookup is determined by the rows and reproduces them", "statement": "After loadAtmosphereModel with intType='quadratic' the lookup functions return the value of a row at the height of that row, do not depend on the order of the rows, are continuous between the first and the last row, return the fill value outside, reproduce a column that is a quadratic function of the height, and a column of positive values gives positive values in between.", "quantifier": "every table of at least three rows with distinct heights, every altitude", "why_tests_cant": "All tables and a continuum of altitudes between the rows; no test uses this option.", "anchors": ["AMAT/planet.py:Planet.loadAtmosphereModel", "AMAT/planet.py:Planet.density"]}
{"id": "C135", "title": "Launch curves of every interpolation kind", "statement": "For every value of the kind argument of Launcher that interp1d accepts ('linear', 'slinear', 'zero', 'previous', 'next', 'nearest', 'nearest-up', 'quadratic', 'cubic') launchMass is determined by the rows of the table whatever their order, is exactly 0 outside the published C3 range, reproduces the published points, stays between the smallest and the largest published mass, and never rises with C3 for a decreasing table.", "quantifier": "every performance table with distinct C3 and enough rows, every kind, every C3", "why_tests_cant": "Query is a continuum, the table is user supplied and no test uses another kind than the default.", "anchors": ["AMAT/launcher.py:Launcher.__init__", "AMAT/launcher.py:Launcher.launchMass"]}
{"id": "C136", "title": "Stored orbit arrays run along the whole orbit", "statement": "The arrays x/y/z_coast_arr of an Orbiter start at the point where the vehicle leaves the atmosphere, climb along the coast ellipse of the exit state in the direction of flight and end at the first apoapsis. x/y/z_orbit_arr (Orbiter and PropulsiveOrbiter) and x/y/z_orbiter_defl_arr run once around the ellipse with the reported periapsis and apoapsis, in equal steps of the direction seen from the planet and in the direction of motion, and end where they started: for Orbiter at the apoapsis where the coast ended, for PropulsiveOrbiter at the periapsis of the arrival hyperbola.", "quantifier": "every bound exit state, every approach, every deflection, every number of points", "why_tests_cant": "A continuum of orbits; the tests compare no array with the orbit it stands for.", "anchors": ["AMAT/orbiter.py:Orbiter.compute_coast_trajectory", "AMAT/orbiter.py:Orbiter.compute_orbit_trajectory", "AMAT/orbiter.py:PropulsiveOrbiter.compute_orbit_trajectory", "AMAT/orbiter.py:Orbiter.compute_orbiter_deflection_trajectory"]}
{"id": "C137", "title": "Site, relative velocity and heading of a probe entry", "statement": "When an Orbiter releases a probe that reaches the atmosphere, latitude_probe_entry_bi and longitude_probe_entry_bi are the latitude and longitude of the recorded entry position r_vec_bi_probe_entry, v_vec_probe_entry_atm is the recorded inertial velocity minus the rotation velocity of the atmosphere at that position, and heading_atm_probe_entry is the angle between the horizontal part of that relative velocity and east.", "quantifier": "every exit state, every release, every entry position", "why_tests_cant": "A continuum of entry positions; a test at a position with positive x cannot see that the quadrant is lost, and a test with nearly horizontal flight cannot see the heading error.", "anchors": ["AMAT/orbiter.py:Orbiter.compute_probe_targeting_trajectory", "AMAT/orbiter.py:Orbiter.vel_vec_probe_entry_atm"]}
{"id": "C138", "title": "The Orbiter continues the orbit the vehicle reports", "statement": "An Orbiter built from a vehicle after propogateEntry starts from the last retained sample of the flight. Whenever that state is bound, the apoapsis and periapsis altitudes that Vehicle.compute_ApoapsisAltitudeKm and compute_PeriapsisAltitudeKm give for it are those of the Orbiter's coast orbit, and the cost that Vehicle.compute_periapsis_raise_DV gives for raising periapsis to peri_alt_km has the size of the Orbiter's PRM_dv_mag.", "quantifier": "every vehicle, every completed propagation, every bound last state, every target periapsis", "why_tests_cant": "A continuum of exit states and two independent implementations; the tests compare neither with the other.", "anchors": ["AMAT/orbiter.py:Orbiter.__init__", "AMAT/orbiter.py:Orbiter.compute_exit_state_atm_relative", "AMAT/orbiter.py:Orbiter.compute_PRM_dv", "AMAT/vehicle.py:Vehicle.compute_ApoapsisAltitudeKm", "AMAT/vehicle.py:Vehicle.compute_PeriapsisAltitudeKm", "AMAT/vehicle.py:Vehicle.compute_periapsis_raise_DV"]}
{"id": "C139", "title": "Sampled density profiles at every altitude", "statement": "At every altitude, between the rows of the file as well, the profile that Planet.loadAtmosphereModel5 or loadAtmosphereModel6 returns for a deviation sigmaValue is the mixture of the mean profile with the high (positive sigma) or low (negative sigma) one; the two functions accept the same files and differ by the tabulated perturbation alone; with low <= mean <= high in the file a larger deviation never gives a thinner atmosphere, and for deviations between -1 and 1 the profile of loadAtmosphereModel6 stays between the low and the high one.", "quantifier": "every file, every profile number, every deviation, every altitude", "why_tests_cant": "A continuum of altitudes and deviations; the tests look at single values.", "anchors": ["AMAT/planet.py:Planet.loadAtmosphereModel5", "AMAT/planet.py:Planet.loadAtmosphereModel6", "AMAT/planet.py:Planet.pSigmaFunc", "AMAT/planet.py:Planet.nSigmaFunc"]}
{"id": "C140", "title": "An arrival's entry state starts a vehicle at that state", "statement": "For an Approach with is_entrySystem=True, passing h_EI, longitude_entry_bi, latitude_entry_bi, v_entry_atm_mag, heading_entry_atm and gamma_entry_atm (converted to km, km/s and degrees) to Vehicle.setInitialState starts the propagation at the arrival's entry position and with its atmosphere-relative velocity v_vec_entry_atm.", "quantifier": "every planet, every arrival velocity, periapsis radius, aim angle and interface altitude", "why_tests_cant": "A continuum of arrivals; the tests check the stored angles one at a time for one arrival and never hand them to a Vehicle.", "anchors": ["AMAT/approach.py:Approach.__init__", "AMAT/approach.py:Approach.vel_vec_entry_atm", "AMAT/vehicle.py:Vehicle.setInitialState", "AMAT/vehicle.py:Vehicle.propogateEntry"]}
{"id": "C141", "title": "Where a flight is cut above the atmosphere changes the reported orbit by J2 alone", "statement": "Vehicle.compute_ApoapsisAltitudeKm, compute_PeriapsisAltitudeKm, computeEnergyScalar and computeAngMomScalar read the last retained sample of a propagation. For an equatorial flight above the atmosphere (zero or half-turn bank, a planet stored with J3 = 0) two propagations cut at radii r1 <= r2 (planet radii) report the same angular momentum and energies differing by GM/RP*J2/2*(1/r1**3 - 1/r2**3); when bound, the flight never rises above the apoapsis reported for either cut, the higher cut reports an apoapsis no higher and a periapsis no lower, and the reciprocal semi-major axes differ by J2/RP*(1/r1**3 - 1/r2**3).", "quantifier": "every vehicle, every equatorial flight above the atmosphere at every planet with J3 = 0 and every pair of cut times", "why_tests_cant": "A continuum of flights and cut times; the tests compare one reported apoapsis with one stored number.", "anchors": ["AMAT/vehicle.py:Vehicle.propogateEntry", "AMAT/vehicle.py:Vehicle.EOM", "AMAT/vehicle.py:Vehicle.compute_ApoapsisAltitudeKm", "AMAT/vehicle.py:Vehicle.compute_PeriapsisAltitudeKm"]}
{"id": "C142", "title": "Bank 0 is full lift up: the flight with more upward lift is soon higher", "statement": "Of two flights from the same state inside a shipped atmosphere with the same vehicle (positive lift-to-drag ratio, positive speed), the one whose bank angle has the greater cosine soon has the greater flight-path angle and, unless the vehicle moves vertically or backwards, is higher; the one whose bank angle has the greater sine soon has the greater heading angle. The bank angle changes no other rate, and these by the lift acceleration LD*rho*v**2/(2*beta) divided by the speed.", "quantifier": "every planet, shipped atmosphere, vehicle, state inside the atmosphere and pair of bank angles", "why_tests_cant": "A continuum of states and bank angles; a swapped sine, a wrong sign or a bank angle measured from the side would pass tests that fly one bank angle.", "anchors": ["AMAT/vehicle.py:Vehicle.EOM", "AMAT/vehicle.py:Vehicle.a_nbar", "AMAT/vehicle.py:Vehicle.a_wbar", "AMAT/vehicle.py:Vehicle.Lbar"]}
{"id": "C143", "title": "A greater ballistic coefficient is soon faster", "statement": "Of two vehicles with constant drag coefficients flown from the same state inside a shipped atmosphere, the one constructed with the greater beta is soon the faster and has the greater energy, whatever masses, areas, lift-to-drag ratios, nose radii and bank angles are used; it is also soon further downrange if the flights start level or both vehicles fly without lift. At one state their decelerations differ by rho*v**2/2*(1/beta' - 1/beta). Dropping a drag skirt therefore always speeds the flight up relative to keeping it.", "quantifier": "every planet, shipped atmosphere, pair of vehicles and state inside the atmosphere", "why_tests_cant": "A continuum of states and vehicles; a ballistic coefficient used upside down or a drag that depends on the bank angle would pass tests that fly one vehicle.", "anchors": ["AMAT/vehicle.py:Vehicle.__init__", "AMAT/vehicle.py:Vehicle.EOM", "AMAT/vehicle.py:Vehicle.a_sbar", "AMAT/vehicle.py:Vehicle.Dbar"]}
{"id": "C144", "title": "A suborbital vehicle without upward lift comes down in bounded time", "statement": "A vehicle with constant drag coefficient that is not climbing, has too little energy for orbital speed anywhere between its radius and the surface, and whose lift does not point up cannot stay above the surface for longer than 1/K + (r-1)*r*K/(2*E) in units of planet.tau: K is RP times the greatest density times the orbital speed over twice beta, E the shortfall of the energy. In a shipped atmosphere a flight at constant bank angle therefore reaches any positive altitude within that time, unless it first slows down to a given speed, comes near a pole or vertical flight, or is almost horizontal at the edge of the atmosphere. A vehicle that climbs at the start, with an energy that keeps it below a radius r0, stays below r0 and comes down within at most v*sin(gamma)*r0/(2*E) more, with r0 in place of r. Its vertical acceleration is that of drag and lift plus the square of the horizontal inertial speed over r minus the gradient of the potential.", "quantifier": "every planet, atmosphere of bounded density, vehicle with constant drag coefficient, bank history with L/D*cos(bank) <= 0 and exact flight above the surface", "why_tests_cant": "All flights of all durations; a test integrates one trajectory to one final time, and a sign or factor wrong in a centrifugal or Coriolis term changes the vertical acceleration by little.", "anchors": ["AMAT/vehicle.py:Vehicle.EOM", "AMAT/vehicle.py:Vehicle.cfgammabar", "AMAT/vehicle.py:Vehicle.cogammabar", "AMAT/vehicle.py:Vehicle.cfvbar", "AMAT/vehicle.py:Vehicle.gnbar", "AMAT/vehicle.py:Vehicle.gsbar"]}
{"id": "C145", "title": "A vehicle in the atmosphere slows down in bounded time", "statement": "A vehicle with constant drag coefficient cannot stay in the atmosphere, at an altitude of h0 or more and at a speed of v0 or more, for longer than (J - J0)/(RP*rho*v0**3/(2*beta)) in units of planet.tau, whatever its bank angles: J is its energy at the beginning, J0 = -(1 + 3|J2| + 16|J3|) - (OMEGAbar*(1 + h_thres/RP))**2/2 and rho the least density between h0 and planet.h_thres, which is positive in every shipped atmosphere for h0 > 0. A flight under any guidance law that commands a bank angle at the beginning of each cycle therefore leaves the atmosphere, comes down to h0, slows down to v0, comes near a pole or vertical flight, or is almost horizontal near the edge of the atmosphere; until then it lasts no longer than that time.", "quantifier": "every planet, shipped atmosphere, vehicle with constant drag coefficient, guidance law, cycle length, initial state and exact flight", "why_tests_cant": "All guidance laws and all flights of all durations; a test flies one law for one number of cycles.", "anchors": ["AMAT/vehicle.py:Vehicle.EOM", "AMAT/vehicle.py:Vehicle.a_sbar", "AMAT/vehicle.py:Vehicle.Dbar", "AMAT/planet.py:Planet.rho", "AMAT/planet.py:Planet.density"]}
{"id": "C146", "title": "Free motion after exit follows the reported orbit and capture verdict", "statement": "A vehicle that follows a two-body orbit from the last point of its trajectory, with the inertial velocity there, stays between the periapsis and apoapsis altitudes reported by compute_PeriapsisAltitudeKm and compute_ApoapsisAltitudeKm if its orbital energy is negative, and if it is climbing it climbs to the reported apoapsis within pi*(RP+1000*A)/sqrt(-2*E) seconds (A the reported apoapsis altitude in km, E the energy). With non-negative energy it leaves beyond every distance, climbing for ever from some time on, at once if it is not descending. isCaptured returns -1 for the vehicles that stay bound and 1 for the others.", "quantifier": "every planet, exit state that is not moving radially, two-body motion from it, and for isCaptured every vehicle and solver result", "why_tests_cant": "The motion after exit is never computed by the code, and the claim is about all later times.", "anchors": ["AMAT/vehicle.py:Vehicle.isCaptured", "AMAT/vehicle.py:Vehicle.computeEnergy", "AMAT/vehicle.py:Vehicle.compute_ApoapsisAltitudeKm", "AMAT/vehicle.py:Vehicle.compute_PeriapsisAltitudeKm"]}
{"id": "C147", "title": "Reported manoeuvres lead from the exit state to the target orbit", "statement": "A vehicle that leaves the atmosphere climbing, bound and not moving radially coasts to the apoapsis A reported by compute_ApoapsisAltitudeKm. An impulse there along the velocity of compute_periapsis_raise_DV(B, A, p) m/s, B the reported periapsis, puts it on an orbit on which it stays between A and the target periapsis p and is at p after half a period. An impulse there of compute_apoapsis_raise_DV(p, A, a) m/s keeps it between p and the target apoapsis a, at a after half a period and back at the same point of p after a whole one and not before. No other impulse along the velocity that does not reverse the vehicle does the same.", "quantifier": "every planet, climbing bound exit state with angular momentum, target periapsis and apoapsis above the centre, and every two-body motion from the states named", "why_tests_cant": "The motions after exit and after the manoeuvres are never computed by the code, and the claim is about all later times.", "anchors": ["AMAT/vehicle.py:Vehicle.compute_periapsis_raise_DV", "AMAT/vehicle.py:Vehicle.compute_apoapsis_raise_DV", "AMAT/vehicle.py:Vehicle.compute_ApoapsisAltitudeKm", "AMAT/vehicle.py:Vehicle.compute_PeriapsisAltitudeKm"]}
{"id": "C148", "title": "Free flight passes through the stored coast and orbit positions in order", "statement": "For a vehicle that leaves the atmosphere bound and not descending, every free motion from the exit state passes through the positions stored by compute_coast_trajectory, one after the other in the stored order, and is at the apoapsis when it reaches the last. After an impulse there of PRM_dv_mag m/s, along the velocity if the periapsis is to be raised and against it if it is to be lowered, every free motion passes through the positions stored by compute_orbit_trajectory in the stored order and reaches the last one after exactly one period of the target orbit.", "quantifier": "every planet, bound exit state that is not descending and neither circular nor equatorial, target periapsis radius above zero, and numbers of points", "why_tests_cant": "The positions are stored without times; that a flight meets each of them, in this order, is a statement about a motion that is never computed.", "anchors": ["AMAT/orbiter.py:Orbiter.compute_coast_trajectory", "AMAT/orbiter.py:Orbiter.compute_orbit_trajectory", "AMAT/orbiter.py:Orbiter.compute_PRM_dv"]}
{"id": "C149", "title": "The computed arrival is a flight from the arrival velocity", "statement": "Every free motion that is at pos_vec_bi(0) with the velocity vel_vec_bi(0) of an Approach is farther from the planet at all other times; its velocity tends to v_inf_vec_bi the farther one looks back; before periapsis it passes through the states (pos_vec_bi(t), vel_vec_bi(t)), t between the incoming asymptote beta - pi and 0, one after the other and through no others. If the periapsis lies below the entry interface, it crosses the interface inward exactly once, in the state (r_vec_entry_bi, v_vec_entry_bi). Such a motion exists.", "quantifier": "every planet, arrival velocity, periapsis radius and aim angle whose orbit is not equatorial, every two-body motion through the periapsis state, every interface altitude", "why_tests_cant": "The code computes states at given anomalies, no motion in time; the claim is about all earlier times.", "anchors": ["AMAT/approach.py:Approach.pos_vec_bi", "AMAT/approach.py:Approach.vel_vec_bi", "AMAT/approach.py:Approach.__init__"]}
{"id": "C150", "title": "After the insertion burn the spacecraft flies through the stored orbit", "statement": "PropulsiveOrbiter: a spacecraft at the periapsis of the approach that is slowed down from the computed arrival velocity by DV_OI_mag_check stays, on every free motion, between the periapsis and the requested apoapsis, is at the apoapsis after half a period, passes through the stored positions of compute_orbit_trajectory in the stored order, the last after exactly one period, and is at the positions of compute_timed_orbit_trajectory at the times of t_array (if Kepler's equation is solved exactly).", "quantifier": "every planet, approach that is not equatorial, requested apoapsis, number of points, time span and exact solver, and every two-body motion after the burn", "why_tests_cant": "The stored orbit has no times, and no test compares either array with a motion from the arrival state.", "anchors": ["AMAT/orbiter.py:PropulsiveOrbiter.__init__", "AMAT/orbiter.py:PropulsiveOrbiter.compute_orbit_trajectory", "AMAT/orbiter.py:PropulsiveOrbiter.compute_timed_orbit_trajectory"]}
{"id": "C151", "title": "The deflected orbiter passes at the requested periapsis radius", "statement": "ProbeOrbiterDeflection and OrbiterOrbiterDeflection: a spacecraft at the manoeuvre point with the velocity before the burn comes from v_inf_vec_bi and has its periapsis, at rp_vec_bi of the first approach, after the first time of flight. With dv_maneuver_vec added to that velocity it has its periapsis, at the radius rp_space, after the second time of flight, as rp_space and TOF_space are documented.", "quantifier": "every planet, arrival velocity, pair of periapsis radii and aim angles and manoeuvre radius beyond the first periapsis, every two-body motion from the manoeuvre point", "why_tests_cant": "The code computes a velocity and a time and never follows the motion; tests pin the numbers.", "anchors": ["AMAT/maneuver.py:ProbeOrbiterDeflection.__init__", "AMAT/maneuver.py:OrbiterOrbiterDeflection.__init__"]}
{"id": "C152", "title": "The stored semi-latus rectum tells how close a deflected orbiter comes", "statement": "ProbeOrbiterDeflection.P_space and OrbiterOrbiterDeflection.P_space2 are the semi-latus rectum of the orbit after the burn: every two-body motion from the manoeuvre point with the velocity before the burn plus dv_maneuver_vec comes closest to the planet at the distance |a| (sqrt(1 + P_space/|a|) - 1), where a is the semi-major axis of the second approach, once, and after the burn if rp_space is below the manoeuvre radius. (That distance is not rp_space, C151.)", "quantifier": "every planet, arrival velocity, pair of periapsis radii and aim angles, manoeuvre radius beyond the first periapsis, and every two-body motion after the burn", "why_tests_cant": "P_space is an intermediate result of a Lambert solution; tests pin its value but not what it says about the pass.", "anchors": ["AMAT/maneuver.py:ProbeOrbiterDeflection.__init__", "AMAT/maneuver.py:OrbiterOrbiterDeflection.__init__"]}
{"id": "C153", "title": "A probe left on its course enters in the reported entry state", "statement": "ProbeOrbiterDeflection and the first probe of ProbeProbeDeflection: a probe at r_vec_dv with the velocity v_vec_dv_probe stays above the entry interface until it meets it in exactly the state (r_vec_entry_bi, v_vec_entry_bi) of its approach object, and is below the interface from then until TOF_probe.", "quantifier": "every planet, arrival velocity, aim angle, periapsis radius below the interface, manoeuvre radius above it, and every two-body motion from the manoeuvre point", "why_tests_cant": "The manoeuvre velocity comes from Lagrange coefficients, the entry state from the true anomaly of the approach; no test follows a probe from one to the other.", "anchors": ["AMAT/maneuver.py:ProbeOrbiterDeflection.__init__", "AMAT/maneuver.py:ProbeProbeDeflection.__init__", "AMAT/approach.py:Approach.__init__"]}
{"id": "C154", "title": "A released probe is given an entry exactly when it enters", "statement": "Orbiter.compute_probe_targeting_trajectory: a probe that leaves the release state (r_vec_2, v_vec_2) in free flight stays between r_periapsis_probe and r_apoapsis_probe and reaches both; on a new Orbiter the call completes exactly when the probe comes below h_skip and raises AttributeError otherwise; the first passage of the interface is inbound and is the recorded entry position and speed.", "quantifier": "every bound exit state, periapsis raise, release anomaly and burn that leaves the probe in a forward bound orbit, and every two-body motion from the release state", "why_tests_cant": "The entry branch is chosen from the elements of one orbit, the entry position from the angle of another; a test that calls the method sees only that both branches run.", "anchors": ["AMAT/orbiter.py:Orbiter.compute_probe_targeting_trajectory", "AMAT/orbiter.py:Orbiter.pos_vec_bi_probe", "AMAT/orbiter.py:Orbiter.vel_vec_bi_probe"]}
{"id": "C155", "title": "The reported apsides and warning of a deflected orbiter are those of its flight", "statement": "Orbiter.compute_orbiter_deflection_trajectory: from the state after the burn (r_vec_2, v_vec_2) there is a free motion; every one stays between r_periapsis_orbiter_defl and r_apoapsis_orbiter_defl and comes to both after any time; the warning 'Periapsis inside atmospheric skip altitude.' is printed exactly when the orbiter comes below h_skip.", "quantifier": "every release, every anomaly of the probe orbit, and every deflection burn after which the orbit is bound and neither radial nor circular; every two-body motion from the state after the burn", "why_tests_cant": "A test compares stored numbers; whether the vehicle they describe comes below the skip altitude is a statement about its whole future.", "anchors": ["AMAT/orbiter.py:Orbiter.compute_orbiter_deflection_trajectory"]}
{"id": "C156", "title": "Flying the manoeuvres a guided simulation reports ends on the target orbit", "statement": "propogateGuidedEntry, propogateGuidedEntry2, propogateGuidedEntryD and propogateGuidedEntryD2: from the last recorded point, if its orbit is bound and not radial, there is a free motion; every one stays between terminal_periapsis and terminal_apoapsis and comes to both after any time. Whenever it is at the apoapsis, an impulse along the velocity of periapsis_raise_DV m/s puts it on an orbit on which it stays between that apoapsis and target_peri_km and is at target_peri_km after half a period; an impulse there of apoapsis_raise_DV m/s keeps it between target_peri_km and target_apo_km, at target_apo_km after half a period and back at the same point after a whole one and not before.", "quantifier": "every guided simulation that returns, with every guidance setting, bank profile and density, whose last point is on a bound orbit that is not radial, whether climbing or descending there; every two-body motion from the last point and after the two impulses; every target altitude above the centre of the planet", "why_tests_cant": "A test compares four stored numbers; that executing the two reported manoeuvres leads from the last recorded point to the target orbit is a statement about all motions.", "anchors": ["AMAT/vehicle.py:Vehicle.propogateGuidedEntry", "AMAT/vehicle.py:Vehicle.propogateGuidedEntry2", "AMAT/vehicle.py:Vehicle.propogateGuidedEntryD", "AMAT/vehicle.py:Vehicle.propogateGuidedEntryD2"]}
{"id": "C157", "title": "The apoapsis distance an Orbiter reports is the greatest distance of the flight from the exit", "statement": "Orbiter(vehicle, peri_alt_km): r_apoapsis_mag is a distance every free motion from the end of the vehicle's trajectory comes to after any time and never exceeds. For a vehicle that escapes there is no such distance and no captured orbit may be reported.", "quantifier": "every planet, every exit state with respect to the atmosphere, climbing or descending, bound or escaping; every target periapsis above the centre of the planet; every two-body motion from the inertial exit state", "why_tests_cant": "A test sees a plausible number; whether the vehicle ever comes to that distance is a statement about its motion over all later times, and the object holds nothing that shows the orbit is open.", "anchors": ["AMAT/orbiter.py:Orbiter.__init__", "AMAT/orbiter.py:Orbiter.compute_coast_trajectory", "AMAT/orbiter.py:Orbiter.compute_post_PRM_orbital_elements", "AMAT/orbiter.py:Orbiter.compute_PRM_dv"]}
