# Design of the formal model of AMAT

Source under study: `/repo/AMAT` (python).  The model is written in Lean 4
(`/verif/lean`), one Lean definition per python function (or per numbered block
of a long constructor), each with a comment that cites the file and lines.

## Conventions

* **Numbers.**  Python floats / NumPy doubles are idealised as real numbers `ℝ`.
  Rounding, overflow, signed zero and infinities are not modelled, except where the `Model/Float*.lean` files
  round every operation to the nearest double (C86, C104, C114, C116, C118, C123, C125, C133).
* **NaN.**  Where NumPy would return `nan` (square root of a negative number,
  `arccos` outside `[-1,1]`, `0/0`) the model either returns `none` explicitly, or
  the theorem carries the exact guard and a companion theorem shows that the guard
  holds on the states of interest.  No theorem relies on Lean's junk values
  (`x/0 = 0`, `√(-1) = 0`, clamped `arccos`).
* **Exceptions** are values: `Except PyErr α`, with one constructor per Python
  exception class that the modelled code can raise.
* **Loops.**  `for` loops become structural recursion or `List` folds.  `while`
  loops become fuel-indexed iteration together with a theorem that says how much
  fuel is enough (termination) or that no fuel is enough (divergence).
* **Mutation.**  A method that mutates `self` becomes a function that returns the
  new record.
* **External calls** (`odeint`, `solve_ivp`, `interp1d` cubic, ephemerides, random
  numbers, file reads) are parameters: every theorem quantifies over *all*
  functions in that position unless a contract is stated in the hypotheses.

## Layout

* `Verif/Model/*`  – the model (definitions only, cited to the source).
* `Verif/Spec/*`   – independent specifications used in theorem statements.
* `Verif/Lemmas/*` – helper lemmas.
* `Verif/Props/*`  – the property theorems named in `MANIFEST.json`, each followed
  by an `example` showing its hypotheses are satisfiable.

## Plan per property

| id | modelled | proof |
|----|----------|-------|
| C01 | `Planet.__init__` as a function `String → Except PyErr Planet` | case split over the eight literals; `Real.sqrt` algebra |
| C02 | `nonDimState`, `dimensionalize`, `computeR/H` | field algebra |
| C03 | `density`, `rho`, `rho2`, `rhobar` with an arbitrary interpolant | case split on altitude |
| C04 | scalar and vectorised lookups | agreement on `[0,h_thres]` proved (`_partial`); disagreement outside proved with witness |
| C05 | `interp1d(kind='linear', fill_value, bounds_error=False)` on lists of nodes | induction over the node list |
| C06 | `Launcher` | corollaries of C05 |
| C07 | slice arithmetic of `loadAtmosphereModel5/6` | list `take/drop` arithmetic by induction |
| C08 | sigma scaling of a profile | case split on the sign of sigma |
| C09 | `Link.__init__` with optional arguments and python truthiness | logarithm algebra; bug with the receiver diameter proved as negation |
| C10 | same | monotonicity of `log` |
| C11 | `Schedule.__init__` nested loop with `break` | induction over windows |
| C12 | `compute_data_volume`, `cumulative_trapezoid` | induction over the grid |
| C13 | `Vehicle.__init__`, `L`, `D` | field algebra; the lift-to-drag half fails for vehicles with a user-defined `CD(Mach)`: `_partial` plus negation |
| C14 | `a_s`, `a_n`, `a_w` | `sin²+cos²=1` |
| C15 | `Lbar`, `Dbar`, `a_*bar` | field algebra with `Vref² = GM/RP` |
| C16 | `computeAccelerationLoad` with nan as `none` | negation with witness; `_partial` for zero lateral acceleration |
| C17 | `grbar`, `gphibar`, `g{s,n,w}bar` | `HasDerivAt` of the potential; orthogonality |
| C18 | `EOM` | derivative of the Jacobi integral along any curve with `HasDerivAt`; mean value theorem; vehicles with a user-defined `CD(Mach)` by replacing the drag coefficient with its current value; flights with bank angle switches: mean value theorem off a finite set (`Lemmas/Piecewise.lean`) |
| C19 | `EOM` | derivative of Cartesian position |
| C20 | `EOM` | exact for speed and flight-path angle; heading equation fails because of the `+1e-2` regularisation: negation plus `_partial` |
| C21 | `EOM`, `EOM2` written separately | unfolding both |
| C22–C24 | `classifyTrajectory`, `truncateTrajectory`, `propogateEntry` | list induction (`argmax` of a boolean array); C23 negated by witness |
| C25 | heating correlations of all bodies | monotonicity of real powers |
| C26 | RN sweep as a stateful loop | induction over the list of radii |
| C27 | heat load of `propogateEntry`/`propogateEntry2` and of the segmented loops | induction; negation for segment continuity |
| C28–C29 | orbit element functions | algebra, discriminant argument |
| C30–C31 | verdict functions, missing `h_low` as `AttributeError` | case split |
| C32–C37 | bisection searches as fuel-indexed loops over an arbitrary verdict function with explicit vehicle record | loop invariant, halving argument; negations for the unbound variable, un-restored fields, unchanged `CL` |
| C38–C39 | `psuedoController` | case split; two-cycle proved as negation |
| C40 | glide command | `arccos` range |
| C41–C43 | phase loops over an arbitrary segment propagator | induction over cycles; divergence witness |
| C44 | Monte Carlo driver as a fold over samples | state-independence lemma; negation for the ignored L/D sample |
| C45 | delta-V functions | `sqrt` monotonicity |
| C46 | rotation matrices | ring identities |
| C47–C52 | `Approach` | real/complex trigonometry; negations for the longitude quadrant and heading |
| C53–C55 | `PropulsiveOrbiter.__init__`, `Orbiter` coast, periapsis raise and probe release | elements of a two-body state, vector algebra |
| C56 | `compute_timed_orbit_trajectory` with an arbitrary root finder that meets its contract, and with the secant method of `scipy.optimize.newton` (`Model/Secant.lean`) | uniqueness of the Kepler root, derivative of the inverse; residual of a stopped secant iteration; error recursion of the secant method (product of the last two errors) gives termination within 50 iterations for moderate eccentricity; up to 0.9 (`Props/SecantWide.lean`) by convexity on `[0, π]`: far from the root the points follow the pattern left, left, right and the left ones contract by 0.93, then the error recursion takes over; from 1 − 10⁻⁶ on (`Props/SecantFails.lean`) it circles between two small steps and a jump and raises; equatorial approaches have no orbit, hence `_partial` |
| C57 | the three classes of `maneuver` | hyperbolic two-body motion in universal form, Lambert's problem below a half turn; negation for the second probe of `ProbeProbeDeflection` |
| C58 | the three classes of `visibility` over an arbitrary ephemeris | line of sight against a sphere (segment or ray meets the ball), vector algebra; negations by parallax |
| C59 | missing attributes modelled as errors | negation; energy balance for the stagnation temperature if the attribute is supplied |
| C60 | density estimate, with and without drag curve | field algebra; reproduction of the samples for distinct altitudes (`_partial`) |
| C61 | `EOM` on the equator | trigonometric evaluation; whole trajectories by Gronwall's inequality, also off a finite set of switching times |
| C62 | unit conversions | field algebra |
| C63 | prediction on copies, modelled with an explicit object store | frame property of the store |
| C64 | sigma scaling rows of the Monte Carlo profile | exact sign condition; negation with witness |
| C65 | `EOM` on circular equatorial orbits | explicit solution curve |
| C66 | `EOM` under longitude shift and equatorial mirror | trigonometric evaluation |
| C67 | `T`, `R`, `B` unit vectors of `Approach` | vector algebra in the rotated frame |
| C68 | `vel_vec_bi` of both orbiter classes | polar decomposition; negation on the inbound half |
| C69–C71 | `compute_probe_targeting_trajectory`, `pos_vec_bi_probe`, `vel_vec_bi_probe` | two-body elements; negations with exact condition |
| C72 | time axis of `LanderToPlanet`/`LanderToOrbiter`, `compute_data_volume` | monotone samples; negation for bodies with negative rate |
| C73 | `terminal_*` results of the four guided simulations | last record of the histories, apsides of a two-body orbit |
| C74 | loop of the four entry phases | inversion of a cycle, induction over cycles |
| C75 | `propogateEntry_util(2)`, `propogateEntry_utilD(2)` | equality of programs; negation for the SciPy version of the lock file with a run that raises |
| C76 | results of guided simulations above escape speed | negation with exact condition and witness |
| C77 | all state changes of the guided simulations | frame property; negation for the reference entry state |
| C78 | `mcRecord` with the two ways of forming the heat load | decomposition of the flight into segments; negation with a concrete run |
| C79 | vehicle after a Monte Carlo simulation; planet objects shared in the store | induction over the samples; negation with a concrete run |
| C80 | `Planet.scaleHeight` with its grid, `createDensityMeasuredFunction` | closed form of the trapezoidal sum of an exponential; bounds of `x coth x`; negations |
| C81 | `computeDynPres`, `computeStagPres`, `computeAccelerationDrag` in stored trajectories | pointwise algebra |
| C82 | axis limits and points of the launch-mass figures of `interplanetary.py`; matplotlib itself is not modelled, only which points lie inside the limits | exact condition; false in general (lightest opportunity is cut off) |
| C83 | the thirteen shipped launcher curves as data, `Launcher.launchMass` | linear interpolation of a decreasing table; false below the published range |
| C84 | `loadAtmosphereModel` with `intType='cubic'`: the not-a-knot spline by its defining equations | diagonal dominance gives existence and uniqueness; positivity between rows false (four-row table) |
| C85 | the nine shipped atmosphere files as data | approximate curvatures are checked by the kernel in integer arithmetic, an error bound transfers to the exact spline, control points give sign and monotonicity; false for `uranus-ames.dat` |
| C86 | searches with angles rounded to nearest double (`Model/FloatSearch.lean`), arbitrary verdict | the number of doubles in the bracket is the variant; below the spacing the ends stay different forever (finding) |
| C87 | `EOM`, `Planet.density`, shipped files | rate of the Jacobi energy (C18) with the positivity of the cubic density (C85) and of the heating law (C25) |
| C88 | `EOM` as a vector field | cubic splines are C¹, so the field is C¹ at regular states; Picard-Lindelöf; density jumps at `h_thres` (finding); drag curves by composition with the smooth positive speed of sound (C99); flights with switches by continuation from the left; through the edge of the atmosphere by continuing the vacuum downwards and the last spline piece upwards, the flight being on one side shortly after a non-horizontal crossing; one-sided limits of the deceleration differ, so no flight is differentiable at the edge (finding); states horizontal at the edge by the sign of the vertical acceleration on either side (`Props/Grazing.lean`) |
| C89 | `Vehicle.__init__`, propagation, searches, guided simulations | every formula commutes with a change of mass and area at constant ballistic coefficient; carried through loops by induction |
| C90 | the same | the equations of motion see the bank angle only through `CL cos δ`, `CL sin δ` |
| C91 | `checkAtmProfiles` and the vectorised lookups without `r` (`Model/Profiles.lean`); the figure is the list of its points | list arithmetic; interval false (finding) |
| C92 | `Schedule`, `compute_data_volume` | induction over the grid; false for a schedule of another duration (finding) |
| C93 | `print_link_budget` (`Model/LinkReport.lean`): the printed numbers with Python's `round` | error bound of rounding half to even; false, a loss is not printed (finding) |
| C94 | the folders and files written by the Monte Carlo functions, on an abstract disk (`Model/MonteCarloFiles.lean`) | invariant of the loop over the runs; zero rows after an interruption (finding) |
| C95 | `EOM`, propagation, `qStagConvective` | every formula commutes with the scaling above the surface |
| C96 | one whole shipped Monte Carlo file (Venus, 30200 rows) and one profile of another (Mars) as data, `loadAtmosphereModel5` | exact sigma ranges; rows checked by the kernel in integer arithmetic; false for Mars |
| C97 | `EOM` | rate from C19 and the exact acceleration of C20; equatorial flights by Gronwall's inequality (C61); false in general because of the `+1e-2` in the heading equation |
| C98 | `solveTrajectory`, `solveTrajectory2` time grids, `classifyTrajectory` | length of `arange` as a ceiling; alignment (C24) and classification (C22). For `propogateEntry2` an event may end the flight early, so the claim on exit flag 0 is made for `propogateEntry` only |
| C99 | speed of sound of `loadAtmosphereModel`, `computeMach`, `computeMachScalar`, shipped files | integer enclosures of the square roots at the rows and approximate curvatures, checked by the kernel; an error bound transfers the bounds to the exact spline (`Lemmas/SplineReal.lean`) |
| C100 | `EOM` as a vector field on long intervals | continuation: the supremum of flight times, a limit state because the right-hand side is bounded on safe states, restart by C88; the upper limits on speed and altitude are removed by the energy law C18; guided flights by induction over the cycles |
| C101 | rate of the flight-path angle in `EOM`, `classifyTrajectory` | spec: inertial speed as the length of relative velocity plus frame velocity, weight as the derivative of the potential; first time at which the angle rises above zero; energy law C18 |
| C102 | `EOM`, `solveTrajectory` with an integrator known to return samples near a curve with small defect, `classifyTrajectory`, `propogateEntry` | spec: `Near` (componentwise tolerance), `NearFlight` (rates up to a defect); Gronwall inside and outside, crossing times of the edge compared, steps chained by compactness; existence from C100; other atmospheres and varying bank angles through any law of motion whose rates are close (first time at a fixed distance is impossible); verdict compared sample by sample; flights in legs (spec: `FlownFrom`) by induction over the legs |
| C103 | exit loops of the four guided simulations (`exitCycle`, `exitLoop`) | spec: `Leaves` (altitudes in km at which a cycle is the last one); the loop unrolled into its cycles, histories compared by prefix; drag modulation: witness that ends at 15 km with a normal report |
| C104 | reference time, `np.arange` and output times with every operation rounded (`Model/FloatGrid.lean`) | relative error of rounding to nearest; exact doubles of two witnesses, for every rounding of ties |
| C105 | heat-load array of `propogateEntry`, heat-rate formulas | trapezoidal sums as integrals of step functions (`Lemmas/TrapezoidLimit.lean`), dominated convergence, continuity of the rate formulas between their jumps, C102 |
| C106 | glide command and `EOM` | vertical component of the equations of motion at the commanded bank angle; negation with witness, exact residual and bound |
| C107 | `propogateEntry2` with the terminal event of `solveTrajectory2` (`Model/Events.lean`) | contract of a terminal event for an exact solver; equality of the two pipelines without event, truncation with event; witness through the local solution of C88 |
| C108 | histories of `propogateEntry` | largest sample of a function that is continuous along a compact curve (Heine–Cantor), density continued past the edge of the atmosphere, continuity of the rate formulas |
| C109 | `hitsTargetApoapsis` and the corridor searches over exact flights (`Spec/Corridor.lean`) | the verdict is stable near a clear exact flight (C102, open conditions on the last point); one accuracy for a compact range of entry angles; C32 |
| C110 | `isCaptured`, `hitsTargetApoapsis2`, the searches ending in 2 and the four corridor widths over exact flights (`FlightEnds`, `Splits` in `Props/CorridorLimit2.lean`) | as C109: open conditions on the last point, with the velocity of the rotation added for the inertial orbit; C107's event stays positive near the exact flight; C32 between the two sides |
| C111 | the recorded history of the four guided simulations as points of one curve (`GuidedFlight` in `Props/GuidedFlight.lean`) | invariant of both loops: the curve of the next cycle starts in the last recorded state (plot units lose nothing) and is shifted to the stored time; energy: C18 on each cycle, joined. Case: a circle at Venus (`Props/GuidedFlightCase.lean`) |
| C112 | `EOM`, `Planet.density`, `qConvFn`, `propogateEntry`; `specificEnergy` (SI) in `Props/EnergyBalance.lean` | C18 integrated over the flight (derivative off a finite set; the density along the flight is integrable although it jumps at the edge); the load bound by Cauchy–Schwarz, the reported loads by C105. Case: Mars at 100 km (`C112_mars_case`) |
| C113 | `EOM`, `propogateEntry`; `centralAngle`, `groundRate` in `Props/GroundTrack.lean` | **false as stated** (see Findings). Great-circle bound: the central angle from the start grows no faster than downrange (comparison of right derivatives, triangle inequality on the sphere); length of the ground track: fundamental theorem of calculus off the switching times. Cases: Mars at 100 km, an orbit around Uranus |
| C114 | `scipy.integrate.cumulative_trapezoid` with every operation rounded (`Model/FloatLoad.lean`), output times of C104 | monotone rounding; relative error of sums (no underflow) and of products (underflow term), induction over the samples. Case: three samples with exact doubles |
| C115 | `EOM`, `propogateEntry`, `classifyTrajectory`, heat rates; `restAt`, `fallSq` in `Props/EnergyCap.lean` | the energy never increases (C18); intermediate value theorem for the altitude; bounds on the zonal potential; monotone heat laws. Case: 50 km above Mars at 500 m/s, flown |
| C116 | `Model/FloatRestart.lean` (`reportR`, `restartR`): `dimensionalize`, `convertToPlotUnits`, `computeR`, `nonDimState` operation by operation | products of factors within 2⁻⁵³ of one; the difference of two doubles above 1 is zero or at least 2⁻⁵². Case: Mars |
| C117 | `Model/Orbiter.lean` (`deflElements`, `posDefl`, `velProbe`) | the angle between the two periapsis directions turns the velocity against the position; products in the orbital plane, then the elements of the burned state. Counterexample for every orbiter: zero burn at apoapsis of the probe orbit. Case: Mars |
| C118 | `Model/FloatTable.lean` (`lineR`, `interp1dR`, `launchMassR`): linear lookups operation by operation, in NumPy's and in SciPy's order | six rounded operations as factors within 2⁻⁵³ of one, underflow as an absolute term; shipped curves by kernel-checked spacing. Case: Atlas V 551 |
| C119 | `Model/Orbiter.lean` (`probeEntry`, `posProbe`, `velProbe`) | the conic through the state after the burn is a two-body orbit (`velocity_unique`, `through_state`); the recorded position is the point of that conic turned by the angle between the two periapsis directions. Counterexample for every orbiter: release at a quarter orbit |
| C120 | `Model/Approach.lean` (`latitudeEntry`, `latitudeEntryAnalytic`) | closed form of the second latitude for every entry point off the plane `x = 0`: the latitude times the sign of `x`. Counterexample: polar arrival at Earth from −x |
| C121 | `Model/Approach.lean` (`tUnitDprime`, `rUnitDprime`, `bUnit`, `biToBiDprime`) | the frame change is a rotation (C46) that takes the arrival direction to `z`; images of `v × z` and `v × (v × z)` under it |
| C122 | `Model/Vehicle.lean`, `Model/Guidance.lean`; curves with a defect as in C102 (`Spec/Near.lean`) | gradient of the Jacobi energy bounded explicitly; energy minus `K·eps·t` is non-increasing on every smooth piece, pieces joined across bank-angle switches and guidance cycles |
| C123 | `Model/FloatRoll.lean`: `psuedoController` with every operation rounded to binary64 | sign and first product are exact, two relative errors and one absolute one remain; induction over the cycles as for C39 with the error of a cycle below half a step |
| C124 | as C111 | free-fall speed from the falling energy of the record (`free_fall_of_energy`, shared with C115); altitude by the intermediate value theorem on every piece, carried from cycle to cycle |
| C125 | `Model/FloatVolume.lean`: `np.linspace`, `Schedule` and `compute_data_volume` with every operation rounded; sums of C114 | relative errors of the step and of each product, the last one below the duration for fewer than 2⁵² samples; products with booleans are exact; exact doubles of the dropped sample |
| C126 | `Model/ExitState.lean`: the six `_bi` attributes of `Orbiter` | **false as stated** (see Findings). Components along up, east and north; exact condition on heading and rotation; Saturn as a case |
| C127 | `PropOrbiter.dvVec` (`Model/Orbiter.lean`) | **false as stated** (see Findings): lengths and scalar products in the plane of the hyperbola, facts of C53. Case: capture at Earth |
| C128 | `ProbeOrbiter`, `ProbeProbe` (`Model/Maneuver.lean`) | **false as stated** (see Findings): transfers of C57, intermediate values, conserved energy. Cases: both missions at Earth |
| C129 | `Approach.hVec`, `bVec`, `beta`, `posVec` (`Model/Approach.lean`) | **false as stated** (see Findings): frame of C48, radius of the conic, limits. Case: arrival at Earth |
| C130 | `targetDirection`, `LanderToPlanet`, `OrbiterToPlanet` (`Model/Visibility.lean`), any ephemeris that knows the planets only | **partial, false for two kinds of pairs** (see Findings). Cases: Earth from Mars and Titan, Titan from Earth, Saturn from Titan |
| C131 | `guided`, `entryPhase`, `exitPhase` (`Model/Guidance.lean`), invariants of both loops | **partial, false in the first line and in the unit of the altitude** (see Findings). Case: the three-line log of the run of C43 |
| C132 | `makeBasicEntryPlots`, `createQPlot` (`Model/EntryPlots.lean`), only the drawn numbers and axis limits | **partial, false for `createQPlot`** (see Findings). Cases: a flight at Venus inside the window and one outside |
| C133 | `Planet.classifyTrajectoryR`, `capturedR`, `rhoR` (`Model/FloatVerdict.lean`): the same functions with every operation rounded to nearest in double precision, ties left open | exact subtraction within a factor of two; a speed that balances the energy exactly has a square that is a double. Cases: flights over Mars ending at, and one unit in the last place beyond, the edge of the atmosphere |
| C134 | `loadAtmosphereModel` with `intType='quadratic'`: the spline with pieces meeting halfway between the rows, by its defining equations (`Model/Quadratic.lean`) | diagonal dominance of the system for the slopes gives existence and uniqueness; positivity between rows false (three-row table) |
| C135 | `LaunchCurve` (`Model/LauncherKinds.lean`): `Launcher` with any `kind` of `interp1d` | two-row kinds cell by cell; quadratic and cubic from C134 and C84; **bounds false** for these two: launcher with a negative launch mass. Case: the same launcher with every kind |
| C136 | `coastArr`, `orbitTraj`, `deflArr` (orbiter.py:551-580, 602-618, 843-852, 983-999) | specification `Spec.Sweep`: two-focus definition of the ellipse and equal turns of the direction; conic equation; **false** for an unbound deflected orbit. Cases: polar arrival at Earth, exit at Mars, deflection of C117 |
| C137 | `probeEntry` (orbiter.py:620-644, 729-757) | spherical coordinates of the recorded position; east from `z × R`; **false** for `x < 0` (lost quadrant) and for the heading of inclined flight (exact condition). Cases: polar Mars orbit with periapsis at 50 km (`x > 0`), braking release a quarter turn after periapsis (`x < 0`) |
| C138 | `Orbiter.init`, `coast`, `prmDvMag` (orbiter.py:252-276, 579-600) against `apoapsisAltitudeKm`, `periapsisAltitudeKm`, `periapsisRaiseDV` (vehicle.py:4286-4454, 4690-4725) | both read the last retained sample; same elements; `C45`, `C54`; **false** for equatorial and circular exits. Cases: level northward and eastward flights at Mars |
| C139 | `loadAtmosphereModel5`, `loadAtmosphereModel6` (planet.py:1002-1089) | the lookup is linear in the tabulated values; bounds of C05 applied to the difference of two profiles. Case: a file with two profiles of two rows |
| C140 | `Approach` entry attributes (approach.py:264-290) passed through `setInitialState` to `entryState` (vehicle.py:516-563, 2459-2471) | local east-north-up frame; `C50`, `C51`, `C52`; exact condition for the velocity to carry over; **false** for southbound and for descending entries with an eastward part. Cases: polar Earth arrivals |
| C141 | `EOM` above `h_thres` (vehicle.py:1587-1628), the truncated columns (2488-2496) and the orbit functions reading their last entry (3150-3156, 4286-4364) | energy of the reported orbit as Jacobi energy plus spin times axial momentum plus the part of the potential left out; `C18`, `C61`, `C97` along flights. Case: a flight climbing from 200 km above Venus |
| C142 | `EOM` with `a_nbar`, `a_wbar`, `Lbar` (vehicle.py:1587-1628, 1214-1278, 929-954) | difference of the rates at one state; one-sided limits of the rates along flights (smoothness as in `C88`), vertical speed first, then altitude. Case: a descent at 100 km above Venus flown full lift up, full lift down and on its side |
| C143 | `Vehicle.__init__` (vehicle.py:317-359), `EOM` with `a_sbar`, `Dbar` (1587-1628, 1181-1212, 956-985) | difference of the decelerations at one state; one-sided limits along flights as in C142; energy by its rate (C18). Case: a Venus descent with ballistic coefficients 50 and 100 |
| C144 | `EOM` with `a_sbar`, `a_nbar`, `gsbar`, `gnbar`, `cfvbar`, `cfgammabar`, `cogammabar` (vehicle.py:1587-1628, 1181-1245, 1499-1552, 1280-1308, 1340-1368, 1397-1422) | vertical acceleration in polar form; margin below orbital speed from the energy (C18, C101); comparison with the linear equation of constant braking; C100 supplies the flight. Case: a Mars descent from 100 km at 2.5 km/s |
| C145 | `EOM` with `a_sbar`, `Dbar` (vehicle.py:1587-1628, 1181-1212, 956-985), `Planet.rho`, `density` (planet.py:310-343, 429-453) | power of drag from C18 bounded below, energy bounded below; minimum of the continuous positive density (C85, C88); C100 supplies the guided flight. Case: a Mars entry at 120 km with bank angle proportional to the flight-path angle |
| C146 | `isCaptured`, `computeEnergy` (vehicle.py:3009-3043, 2314-2336), `compute_ApoapsisAltitudeKm`, `compute_PeriapsisAltitudeKm`; `CoastsFrom`, `exitEnergy` in `Props/AfterExit.lean`, exact flight in `Props/ExitVerdict.lean`, existence of the motion in `Props/ExitMotion.lean`, both apsides in `Props/GuidedFlown.lean`, descending unbound exits in `Props/DeflFlown.lean` | **verdict false as stated** (see Findings). Every state that is not radial lies on a conic, passed at the rate of the law of areas (Barker's equation for the parabola). Conserved energy and angular momentum give the radial equation; second derivative of the squared distance for unbound motion; arctangent comparison bounds the climb. Cases: a climbing ellipse of eccentricity 3/5 at Mars; the finding |
| C147 | `compute_periapsis_raise_DV`, `compute_apoapsis_raise_DV` (vehicle.py:4690-4760) after `compute_ApoapsisAltitudeKm`; `impulse`, `StartsAt`, `StaysBetween` in `Props/OrbitTrim.lean`, every passage in `Props/GuidedFlown.lean` | Uniqueness of two-body motion (`Lemmas/TwoBodyUnique.lean`, local Lipschitz field and connectedness) identifies every motion from an apse with the Keplerian one (`Lemmas/ApseMotion.lean`); conserved energy gives the speed at the reported apoapsis. Cases: the Mars exit of C146 with the target 400 km by 2000 km; a circular orbit raised to three times its radius |
| C148 | `compute_coast_trajectory`, `compute_orbit_trajectory`, `compute_PRM_dv` (orbiter.py:552-618) with the specs `StartsAt`, `impulse`, `At` in `Props/OrbitFlown.lean` | The time from one true anomaly to another on a conic is the integral of an explicit rate (`Lemmas/ConicTime.lean`); with uniqueness of two-body motion every motion from the exit state is on that clock, so the stored positions are reached at increasing times. Partial: circular and equatorial exits excluded, impulse along or against the velocity. Case: the Mars exit of C54 with the periapsis raised to 400 km |
| C149 | `Approach.pos_vec_bi`, `vel_vec_bi`, `beta`, entry state (approach.py) with `StartsAt`; `Props/ArrivalFlown.lean` | The hyperbolic motion from the periapsis in closed form and uniqueness of two-body motion put every motion on a clock that maps the anomalies between the asymptotes onto all times in order (`Lemmas/HyperClock.lean`); the limit is C49's at the asymptote. Partial: equatorial approaches. Case: the arrival at Earth with 10 km/s of C49 |
| C150 | `PropulsiveOrbiter.__init__`, `compute_orbit_trajectory`, `compute_timed_orbit_trajectory` (orbiter.py:863-1048) with `StartsAt`, `impulse`, `At`; `Props/InsertionFlown.lean` | The burn turns the arrival state into the apse of the capture orbit; `apse_motion`, the clock of C148, and uniqueness against the motion of C56. Partial: equatorial approaches, `DV_OI_mag_check` instead of `DV_OI_mag`. Case: capture at Earth to a 35786 km apoapsis |
| C151 | `ProbeOrbiterDeflection`, `OrbiterOrbiterDeflection` (maneuver.py:92-149, 355-410) with `StartsAt`; `Props/Deflected.lean` | The flight before the burn is that of C149 shifted in time; the one after it is unique because its angular momentum is not zero. False for the periapsis: a motion with the arrival energy and its periapsis at the aim point satisfies `h2² - x k h2 = h1² - x h1` at the manoeuvre point, with `h1`, `h2` the angular momenta of the two approaches, `k` the cosine of the angle between the aim points and `0 < x < h1`; impossible for `rp_space ≥ rp_probe` unless the two approaches coincide. Cases: probe at 6371 km and orbiter at 8000 km at Earth, and two orbiters |
| C152 | `P_space`, `P_space2` (maneuver.py:120-128, 389-395) with `StartsAt`; `Props/ClosestPass.lean` | The angular momentum of the velocity `(R2 - f R1)/g` is that of a conic with semi-latus rectum `P_space`; along a motion with positive energy the product of position and velocity grows at least at a constant rate, hence has one zero, the closest point, whose distance solves a quadratic equation. Cases: the two manoeuvres of C151, whose closest pass is below 8000 km |
| C153 | `ProbeOrbiterDeflection`, `ProbeProbeDeflection` (maneuver.py:98-118, 237-258) with the entry state of `Approach` (approach.py:249-262) and `StartsAt`; `Props/ProbeEnters.lean` | The manoeuvre velocity is the one of the arrival hyperbola at the manoeuvre point; the flight of C149 shifted in time. Partial: equatorial probe orbits. Cases: the manoeuvres of C151 and C57 at Earth, interface at 120 km |
| C154 | `Orbiter.compute_probe_targeting_trajectory` (orbiter.py:669-767) with `Release`, `StartsAt`; `Props/ReleaseFlown.lean` | The release state lies on the stored conic with its velocity (C119), so every free motion follows it (`conic_clock`); the distance is monotone in the cosine of the anomaly. Partial: recorded entry position, off by the turn of the apsides. Case: the Mars release of C119 |
| C155 | `Orbiter.compute_orbiter_deflection_trajectory` (orbiter.py:792-855; `deflElements`, `deflApses`, `deflWarns`) with `StartsAt`; `Props/DeflFlown.lean` | Elements from the conserved energy and eccentricity vector; every state lies on a conic (`polar_state` of C146), whose points are passed at the times of `conic_clock`. Case: the Mars release of C117, faster by a quarter at apoapsis |
| C156 | The four guided simulations (`exitResults`, as for C73) with `StartsAt`, `StaysBetween`, `impulse`; `Props/GuidedFlown.lean` | Reported apsides are a(1±e) of the last record (`bound_core`); the motion is at an apse whenever at its greatest distance (the distance is maximal there, energy is conserved); then `trim_step` twice. Case: the Mars run of C73 |
| C157 | `Orbiter.coast`, `rApoapsisMag`, `orbit`, `prmDvMag` with `StartsAt`; `Props/EscapeOrbiter.lean` | Bound: `C54` with `bound_flight`. Escaping: elements by `elementsOf_conic`, position and velocity at anomaly π of the hyperbola computed as the code does, flight by `unbound_leaves`. Cases at Mars |

## Trusted base

* The Lean 4 kernel, version 4.33.0.  Mathlib is used as a library; its theorems are checked by the same kernel.
* Axioms: every theorem listed in `MANIFEST.json` depends on at most `propext`, `Classical.choice` and
  `Quot.sound` (checked with `#print axioms` for each of them).  No axiom is added, there is no `sorry`, and
  neither `native_decide` nor `bv_decide` is used.  `decide +kernel` is used for finite data (shipped tables);
  it is evaluated by the kernel and adds no axiom.
* The reading of the python source embodied in `Verif/Model`.  Each definition cites file and lines.
* The transcription of the shipped data files (`Model/LauncherData.lean`, `Model/AtmosphereData.lean`,
  `Model/MonteCarloData.lean`): every
  digit of the files is represented exactly, as integers with a power of ten.  The numbers python reads from
  the files are the nearest doubles of these decimals; this rounding is part of the idealisation of floats.

### Contracts of external code

The following library calls are parameters of the model.  Theorems hold for every function in the position
unless one of these contracts is a hypothesis.

| call | contract, where one is assumed |
|------|--------------------------------|
| `odeint`, `solve_ivp` | `OdeintLike`, `SolveIvpLike` (`Model/Trajectory.lean`): the samples start with the initial state at the first grid time; `odeint` returns one sample per grid time, `solve_ivp` an initial part of the grid.  Accuracy is no part of these contracts: most statements about the physics are about the right-hand side (`EOM`) and all curves that solve it, and where the accuracy of samples matters (C102, C105, C108–C113, C115) it is a stated hypothesis of the theorem (`NearFlight`, `SolvedWithin`, `SolvedWithin2`, `FollowsFlight`). |
| terminal events of `solve_ivp` | `StopsAtEvent` (`Model/Events.lean`), used by C107 only: an exact solver returns the output times up to the first passage of the event function from positive to negative, and all of them when it stays positive; touching zero is left open |
| `interp1d(kind='linear')` | modelled exactly (`Model/Numpy.lean`) |
| `interp1d(kind='cubic')` | `IsCubicInterp` (`Model/Cubic.lean`): the not-a-knot spline by its defining equations; existence and uniqueness are proved (C84) |
| `interp1d(kind='quadratic')` | `IsQuadInterp` (`Model/Quadratic.lean`): the spline by its defining equations; existence and uniqueness are proved (C134) |
| `interp1d` of the kinds `slinear`, `zero`, `previous`, `next`, `nearest`, `nearest-up` | `IsLocalInterp` (`Model/LauncherKinds.lean`): the value between two rows, used by C135 only |
| `cumulative_trapezoid` | modelled, with both behaviours for a non-zero `initial` (older SciPy accepts it, the version of the lock file raises): parameter `ScipyMode` |
| `optimize.newton` | `_partial` theorems of C56: returns a root up to a stated residual. `C56_eccentric_anomaly_*`, `C56_timed_orbit_secant`: no contract, the secant branch of SciPy's function is modelled (`Model/Secant.lean`, written from SciPy's documented algorithm, which is not part of /repo) |
| ephemerides (`astropy`) | an arbitrary function |
| random numbers, `np.loadtxt`, `np.load` | arbitrary lists |
| `copy.copy` | shallow copy in an explicit object store (`Model/Store.lean`) |

### What is not modelled

* Rounding, overflow and signed zeros of floating point arithmetic, except for the entry angles in the
  corridor searches (C86), the output times of flights (C104), the trapezoidal sums (C114), the unit conversions (C116), linear table lookups (C118),
  the roll-rate limiter (C123), schedules and data volumes (C125) and verdicts on flights (C133).  Statements about exact equality are
  therefore statements about the formulas, not about the last bits of a result.
* Printing, progress messages, figures (except the limits and points of the launch-mass plots, C82, and the
  points of the atmosphere check, C91, and the entry plots, C132; of printing only the link budget, C93, and the
  condition of the warning after a deflection, C155).  The files of the Monte Carlo
  functions are modelled (C94) without permissions, full disks or other processes.
* The test function at `orbiter.py:1050` and the reading of the spreadsheet in `Interplanetary.__init__`.
* Array broadcasting: arrays that python combines are assumed to have the lengths the callers give them; where
  a mismatch is reachable it is an error value.
* Infinities and NaN after they occur: a computation that yields one ends with `none` or an error in the model.

## Findings

Properties with status `partial` in `MANIFEST.json` are almost all claims that the source does not satisfy.
For each the exact condition or a reachable counterexample is proved.  By module:

* **planet** – scalar and vectorised densities differ outside the atmosphere (C04); `scaleHeight` ignores its
  argument, returns 0 in the last kilometre and raises above (C80); sampled densities can be negative (C64), also
  with the shipped Mars files (C96);
  the default cubic lookup can give negative densities for user tables (C84), the quadratic one too (C134), and the cubic one rising densities for both
  Uranus files (C85); `checkAtmProfiles` does not use the requested interval (C91).
* **launcher, interplanetary** – with `kind='quadratic'` or `'cubic'` a launcher can have a negative launch mass inside its published range (C135); below the published range the mass is 0 (C83); the lightest opportunity can be
  cut off in figures and figures are not drawn for equal masses (C82).
* **telecom** – the receiver diameter is overwritten by the transmitter diameter (C09); the duration of a schedule is not
  compared with that of the visibility (C92); the printed budget omits a loss (C93); rounding drops samples on the edge of a
  window (C125).
* **vehicle, aerodynamics** – `acc_w*2.0` instead of `acc_w**2.0` (C16); heading regularisation `+1e-2` (C20, C97);
  `computeStagTemp` uses a missing attribute, user drag curves use `np.float` (C59); the radiative rate at the Earth jumps
  from zero at 9 km/s (C105); downrange is counted at the vehicle's altitude, not on the ground (C113);
  the equations of motion have two solutions or none for some vehicles horizontal at the edge of the atmosphere (C88).
* **vehicle, verdicts and searches** – order of skip-out and capture (C23); missing `h_low` (C31, C34);
  narrow brackets raise, failed searches count as limit 0 (C34, C36); fields not restored (C35); the ballistic
  limit search keeps the lift (C37); a tolerance below the spacing of doubles never ends (C86);
  histories one step too long through rounding (C104); flights of `propogateEntry2` end at 88° below the
  horizontal (C107).
* **vehicle, guidance** – overshoot of bank commands (C39); stale switch speed (C41); endless loop for trapped
  vehicles, and with `solve_ivp` for vehicles about to dive more steeply than 88° (C42); initial heat load lost or rejected (C27, C75); finite trim costs reported for escaping
  vehicles (C76); reference entry state overwritten (C77); crashed vehicles reported like captured ones (C103);
  glide commands leave out rotation, oblateness and the decrease of gravity (C106).
* **vehicle, Monte Carlo** – L/D sample ignored (C44); heat load of one segment stored (C78); nominal atmosphere
  lost (C79); zero rows in the summary files after an interruption (C94).
* **approach** – equatorial arrivals give NaN and outbound velocities are inward (C49, C50); longitude quadrant
  (C51); heading not normalised (C52).
* **orbiter, maneuver, visibility** – an escaping deflected orbit is plotted with points of both branches of the hyperbola (C136); guard constant in speeds (C53, C54, C68); the heading of the body-inertial exit state is
  the planet-relative one (C126); the insertion burn vector is reversed (C127); the probes' times of flight end at periapsis instead of the entry interface, too late by at least the difference of the two radii divided by the speed at periapsis (C128); the stored angular momentum and aim vectors of an arrival have wrong lengths, and `beta` is not the anomaly of the outgoing asymptote (C129); Titan is accepted as an observer but not as a target, and Saturn seen from Titan is at distance zero, never visible for landers and always for orbiters (C130); the logs of guided entries begin with a line of zeros at time zero whatever the entry state, which falsifies the first altitude acceleration, and hold altitudes in km where metres are documented (C131); the axes of `createQPlot` are fixed to 100-700 km and 12500 Pa, so that nothing is visible of a flight below 100 km (C132); an energy less than 2⁻⁵¹ (relatively) below zero can be computed as zero and the capture missed, never the reverse (C133); the on-board density estimate of a vehicle with a drag curve is wrong by the ratio of the flown to the nominal drag coefficient (C60); Kepler's equation is not solved near eccentricity one (C56); probe release and entry
  (C69–C71); orbiter deflection (C117); entry point of a released probe turned by the change of the argument of periapsis (C119); a vehicle started from a southbound arrival flies northbound (C140); no Orbiter after an equatorial or circular exit although the vehicle reports its orbit (C138); longitude, relative velocity and heading of a probe entry with `x < 0` and heading of inclined flight (C137);
  sign of the second entry latitude (C120); second probe of `ProbeProbeDeflection` (C57); targets treated as infinitely far (C58); retrograde
  bodies run time backwards (C72).
* **maneuver, after the burn** – the aim point of a deflected orbiter is a point of its orbit, not the periapsis: for every manoeuvre whose
  second periapsis radius is not below the first, the spacecraft passes below `rp_space` (C151).
* **orbiter, coast** – the exit anomaly is an arccosine, so the coast of a vehicle that is descending at the end of its flight is stored
  from another point of its orbit at the same distance, as if it were climbing (C148).
* **orbiter, after a deflection** – a burn that makes the orbiter escape is reported with a negative `r_apoapsis_orbiter_defl` and no message, although
  the orbiter then leaves beyond every distance (C155).
- An `Orbiter` built for an escaping vehicle reports a closed orbit: a positive `r_apoapsis_mag` (the length of the position at anomaly π
  on the other branch of the hyperbola), a captured orbit with the requested periapsis and a finite `PRM_dv_mag` (C157).
* **vehicle, after exit** – `isCaptured` compares the speed relative to the rotating planet with escape speed, so an eastbound exit with
  positive inertial energy can be called captured (C146).  Proved for an exact flight out of the atmosphere of Mars, short and with step and
  duration from existence proofs, and with explicit numbers for a solver that keeps the state constant.  A westbound exit with negative
  inertial energy can be called not captured (same solver).
