import Verif.Model.Orbiter

/-
Model of `/repo/AMAT/visibility.py`: line-of-sight verdicts lander → planet, lander → orbiter, orbiter → planet.

The ephemeris (astropy, JPL DE files) is an arbitrary function from body names to barycentric positions in km at the
given date; it may raise.  The `orbiter` argument of the constructors is represented by the arrays its method
`compute_timed_orbit_trajectory` leaves behind: one position in planet radii per sample, `none` for NaN entries.
-/

noncomputable section

open Classical

namespace AMAT

/-- `get_body_barycentric_posvel(name, date)[0]` in km (visibility.py:172-182, 409-419). -/
abbrev Ephemeris := String → Py V3

/-- `max(0, x)` of a number that may be NaN: a comparison with NaN is false, so `0` remains. -/
def pyMax0 : Option ℝ → ℝ
  | some x => max 0 x
  | none => 0

/-- What is appended to the arrays in one pass of the lander loops (visibility.py:211-221, 329-339). -/
structure Sight where
  beta : Option ℝ
  elev : ℝ
  visible : Bool

/-- visibility.py:211-217, 329-334: angle between the local vertical and the direction to the target, elevation,
verdict. -/
def sight (up dir : Option V3) : Sight :=
  let beta := do
    let u ← up
    let d ← dir
    let c ← npArccos (V3.dot u d)
    return c * 180 / Real.pi
  let elev := pyMax0 (beta.map fun b => 90 - b)
  ⟨beta, elev, decide (elev > 0)⟩

/-- `lander_pos_vec_bi` (visibility.py:202-207, 301-303). -/
def landerPos (P : Planet) (latitude longitude : ℝ) : V3 :=
  ⟨P.RP * Real.cos (latitude * Real.pi / 180) * Real.cos (longitude * Real.pi / 180),
    P.RP * Real.cos (latitude * Real.pi / 180) * Real.sin (longitude * Real.pi / 180),
    P.RP * Real.sin (latitude * Real.pi / 180)⟩

/-- visibility.py:164-167, 401-404: the body looked up in the ephemeris. -/
def ephName (observer : String) : String := if observer = "TITAN" then "SATURN" else observer

/-- visibility.py:172-192, 409-429: range in m and unit vector towards the target in the body-inertial frame (`none`
when both bodies are at the same place). -/
def targetDirection (P : Planet) (eph : Ephemeris) (target observer : String) : Py (ℝ × Option V3) := do
  let o ← eph (ephName observer)
  let t ← eph target
  let d := t - o
  return (V3.norm d * 1e3, (npUnit d).map (icrfToBi P))

/-- Attributes of `LanderToPlanet`. -/
structure LanderToPlanet where
  range : ℝ
  longitudes : List ℝ
  times : List ℝ
  sights : List Sight

/-- `LanderToPlanet.__init__` (visibility.py:131-221). -/
def LanderToPlanet.init (eph : Ephemeris) (target observer : String) (latitude : ℝ) (n : ℕ) : Py LanderToPlanet := do
  let P ← Planet.init observer
  let (range, dir) ← targetDirection P eph target observer
  let lons := linspace0 360 n
  return { range := range, longitudes := lons, times := linspace0 (2 * Real.pi / P.OMEGA) n,
           sights := lons.map fun lon => sight (npUnit (landerPos P latitude lon)) dir }

/-- Attributes of `LanderToOrbiter`. -/
structure LanderToOrbiter where
  times : List ℝ
  longitudes : List ℝ
  ranges : List (Option ℝ)
  sights : List Sight

/-- visibility.py:319-334, one sample: distance and sight. -/
def landerOrbiterSample (L : V3) (orb : Option V3) : Option ℝ × Sight :=
  (orb.map fun o => V3.norm (o - L), sight (npUnit L) (do let o ← orb; npUnit (o - L)))

/-- `LanderToOrbiter.__init__` (visibility.py:260-339); `orb` are the positions computed by the orbiter for the same
number of samples. -/
def LanderToOrbiter.init (planet : String) (latitude : ℝ) (orb : List (Option V3)) (tSeconds : ℝ) (n : ℕ) :
    Py LanderToOrbiter := do
  let P ← Planet.init planet
  let rate := 360 / ((2 * Real.pi) / P.OMEGA)
  let lons := linspace0 (rate * tSeconds) n
  let out := List.zipWith (fun lon o => landerOrbiterSample (landerPos P latitude lon) (o.map fun x => P.RP • x)) lons orb
  return { times := linspace0 tSeconds n, longitudes := lons, ranges := out.map Prod.fst, sights := out.map Prod.snd }

/-- Attributes of `OrbiterToPlanet`. -/
structure OrbiterToPlanet where
  range : ℝ
  times : List ℝ
  d : List (Option ℝ)
  visible : List Bool

/-- visibility.py:441-451, one sample.  Comparisons with NaN are false. -/
def orbiterPlanetSample (a dir : Option V3) : Option ℝ × Bool :=
  match a, dir with
  | some a, some n =>
      let d := V3.norm (V3.cross ((0 : V3) - a) n)
      (some d, if d < 1.0 ∧ V3.dot n ((-1 : ℝ) • a) > 0 then false else true)
  | _, _ => (none, true)

/-- `OrbiterToPlanet.__init__` (visibility.py:360-454). -/
def OrbiterToPlanet.init (eph : Ephemeris) (target observer : String) (orb : List (Option V3)) (tSeconds : ℝ) (n : ℕ) :
    Py OrbiterToPlanet := do
  let P ← Planet.init observer
  let (range, dir) ← targetDirection P eph target observer
  let out := orb.map fun a => orbiterPlanetSample a dir
  return { range := range, times := linspace0 tSeconds n, d := out.map Prod.fst, visible := out.map Prod.snd }

end AMAT
