import Verif.Props.CorridorLimit

/-
C110: capture verdicts, the verdicts that take the rotation of the planet into account, and corridor widths against the
exact flights.
-/

noncomputable section

open Classical

namespace AMAT.Spec

open AMAT Real AMAT.Props

/-- The exact flight of the vehicle for the requested time lasts, stays away from the obstacles of C100 and, at the output
times after its start, from the two altitudes that decide where the code ends it; all along it `R` holds, and at its last
output point inside the atmosphere `Q`. -/
def FlightEnds (V : Vehicle) (tSec dt deltaDeg : ℝ) (R Q : FState → Prop) : Prop :=
  ∃ (y : ℝ → FState) (S : Finset ℝ) (k : ℕ),
    y 0 = V.planet.nonDimState (Vehicle.entryState V.planet V.init) ∧
    SwitchedFlight (fun t s => V.EOM s t (deltaDeg * π / 180.0)) y 0 ((tSec + dt) / V.planet.tau) S ∧
    (∀ t ∈ Set.Icc 0 ((tSec + dt) / V.planet.tau), Departure V.planet (y t) ∧ R (y t)) ∧
    (∀ j : ℕ, 1 ≤ j → j ≤ ⌈tSec / dt⌉₊ →
      (y (j * dt / V.planet.tau)).r * V.planet.RP - V.planet.RP ≠ V.planet.hTrap ∧
      (y (j * dt / V.planet.tau)).r * V.planet.RP - V.planet.RP ≠ V.planet.hSkip) ∧
    LastInside V.planet (⌈tSec / dt⌉₊ + 1) (fun j => (y (j * dt / V.planet.tau)).r * V.planet.RP - V.planet.RP) k ∧
    Q (y (k * dt / V.planet.tau))

/-- Inertial velocity of the dimensionless state `s`, in SI units: the velocity relative to the planet plus that of the
rotation. -/
def inertialVel (P : Planet) (s : FState) : V3 :=
  vel s.theta s.phi (s.v * P.Vref) s.psi s.gamma + V3.cross (spin P.OMEGA) (pos (s.r * P.RP) s.theta s.phi)

/-- Square of the radial speed at radius `rho` on the orbit through the state `s` in inertial space, in SI units. -/
def inertialSqAt (P : Planet) (rho : ℝ) (s : FState) : ℝ :=
  radialSq P.GM (energy P.GM (pos (s.r * P.RP) s.theta s.phi) (inertialVel P s))
    (angMom (pos (s.r * P.RP) s.theta s.phi) (inertialVel P s)) rho

/-- The vehicle moves in inertial space, is above the altitude `L`, and its orbit rises beyond the radius `rho`. -/
def RisesBeyond2 (P : Planet) (L rho : ℝ) (s : FState) : Prop :=
  inertialVel P s ≠ 0 ∧ L < s.r * P.RP - P.RP ∧ (rho < s.r * P.RP ∨ 0 < inertialSqAt P rho s)

/-- The vehicle moves in inertial space, and is below the altitude `L` or below the radius `rho` on an orbit that turns back
before it. -/
def FallsShort2 (P : Planet) (L rho : ℝ) (s : FState) : Prop :=
  inertialVel P s ≠ 0 ∧ (s.r * P.RP - P.RP < L ∨ (s.r * P.RP < rho ∧ inertialSqAt P rho s < 0))

/-- As `FlightVerdict`, for the orbit in inertial space, and for flights whose path stays less than 88° below the horizontal
(`propogateEntry2` ends steeper ones, C107). -/
def FlightVerdict2 (V : Vehicle) (tSec dt deltaDeg L rho : ℝ) (ans : ℤ) : Prop :=
  FlightEnds V tSec dt deltaDeg (fun s => -(88 * (π / 180)) < s.gamma)
    (fun s => (ans = -1 ∧ RisesBeyond2 V.planet L rho s) ∨ (ans = 1 ∧ FallsShort2 V.planet L rho s))

/-- As `SolvedWithin`, for `solve_ivp`: the samples are those of all output times if the event function is positive along the
solver's curve. -/
def SolvedWithin2 (V : Vehicle) (I : Integrator) (tSec dt deltaDeg ρ : ℝ) : Prop :=
  ∃ (z : ℝ → FState) (S : Finset ℝ), z 0 = V.planet.nonDimState (Vehicle.entryState V.planet V.init) ∧
    NearFlight (fun t s => V.EOM s t (deltaDeg * π / 180.0)) z 0 ((tSec + dt) / V.planet.tau) S ρ ∧
    (∀ p ∈ samples V I tSec dt deltaDeg, Near ρ p.2 (z p.1)) ∧
    ((∀ t ∈ Set.Icc 0 ((tSec + dt) / V.planet.tau), 0 < hitEFPA90 (z t)) →
      (samples V I tSec dt deltaDeg).map Prod.fst = Vehicle.tGrid V.planet tSec dt)

/-- A state in SI units, as the code's terminal state. -/
def terminalOf (P : Planet) (s : FState) : Terminal :=
  { r := s.r * P.RP, v := s.v * P.Vref, g := s.gamma, theta := s.theta, phi := s.phi, psi := s.psi }

/-- The angles `lo, c₁, c₂, hi` are in this order, upwards or downwards; from `lo` to `c₁` one verdict holds and from `c₂` to
`hi` another one. -/
def Splits (verdict : ℝ → ℤ → Prop) (lo c₁ c₂ hi : ℝ) : Prop :=
  ((lo ≤ c₁ ∧ c₁ ≤ c₂ ∧ c₂ ≤ hi) ∨ (hi ≤ c₂ ∧ c₂ ≤ c₁ ∧ c₁ ≤ lo)) ∧
  ∃ a b, a ≠ b ∧ (∀ g ∈ Set.uIcc lo c₁, verdict g a) ∧ ∀ g ∈ Set.uIcc c₂ hi, verdict g b

/-- All simulations with `propogateEntry` at entry angles between `lo` and `hi` return, with an accurate solver. -/
def Simulated (V : Vehicle) (mode : ScipyMode) (I : Integrator) (tSec dt deltaDeg lo hi ρ : ℝ) : Prop :=
  ∀ g ∈ Set.uIcc lo hi, SolvedWithin (Spec.atAngle V g) I tSec dt deltaDeg ρ ∧
    ∃ out, (Spec.atAngle V g).propogateEntry mode I tSec dt deltaDeg = .ok out

/-- The same for `propogateEntry2`. -/
def Simulated2 (V : Vehicle) (mode : ScipyMode) (I : Integrator) (tSec dt deltaDeg lo hi ρ : ℝ) : Prop :=
  ∀ g ∈ Set.uIcc lo hi, SolvedWithin2 (Spec.atAngle V g) I tSec dt deltaDeg ρ ∧
    ∃ out, (Spec.atAngle V g).propogateEntry2 mode I tSec dt deltaDeg = .ok out

end AMAT.Spec

namespace AMAT.Props

open AMAT Real AMAT.Spec AMAT.Data AMAT.Lits Filter

/-- Runs that differ in the treatment of the heat load only. -/
theorem postProcess_change {V : Vehicle} {mode : ScipyMode} {bar : TrajArrays} {delta hi : ℝ} {out : PropOut}
    (h : V.postProcess mode bar delta hi = .ok out) :
    ∃ heat, V.postProcess .strict bar delta 0 = .ok { out with heatload := heat } := by
  obtain ⟨idx, flag, qc, qr, heat, hc, hq, hq2, hh, rfl⟩ := postProcess_inv h
  obtain ⟨h1, -, -⟩ := cumTrapz_ok hh
  have hh' : cumTrapz .strict (List.zip ((V.planet.dimensionalizeArr bar).t.take idx) (List.zipWith (· + ·) qc qr)) 0 =
      .ok (0 :: trapzFrom 0 (List.zip ((V.planet.dimensionalizeArr bar).t.take idx) (List.zipWith (· + ·) qc qr))) := by
    unfold cumTrapz
    split
    · exact absurd (by assumption) h1
    · simp
  refine ⟨0 :: trapzFrom 0 (List.zip ((V.planet.dimensionalizeArr bar).t.take idx) (List.zipWith (· + ·) qc qr)), ?_⟩
  unfold Vehicle.postProcess
  simp only [Bind.bind, Except.bind, Pure.pure, Except.pure, TrajArrays.truncate, hc, hq, hq2, needNumber, hh']

theorem grid_mem {tau tSec dt : ℝ} (htau : 0 < tau) (ht : 0 ≤ tSec) (hdt : 0 < dt) {j : ℕ} (hj : j ≤ ⌈tSec / dt⌉₊) :
    (j:ℝ) * dt / tau ∈ Set.Icc 0 ((tSec + dt) / tau) := by
  refine ⟨by positivity, ?_⟩
  have h1 : (j:ℝ) ≤ ⌈tSec / dt⌉₊ := by exact_mod_cast hj
  have h2 := Nat.ceil_lt_add_one (show 0 ≤ tSec / dt by positivity)
  have h3 : (j:ℝ) * dt ≤ tSec + dt := by
    have := mul_le_mul_of_nonneg_right (h1.trans h2.le) hdt.le
    rwa [add_mul, div_mul_cancel₀ _ hdt.ne', one_mul] at this
  exact div_le_div_of_nonneg_right h3 htau.le

/-- All curves that solve the equations of motion well enough, from nearby entry angles, stay near the exact flight. -/
theorem near_exact (name : String) (F : AtmFile) (hF : (name, F) ∈ shippedFiles) (P : Planet)
    (hP : Planet.init name = .ok P) (atm : Atmosphere) (hatm : LoadedCubic P F.km (fileRows F) atm)
    (m beta LD A alpha RN : ℝ) (u : Bool) (f : ℝ → ℝ) (st : InitState) (hf : u = true → ContDiff ℝ 1 f)
    (tSec dt deltaDeg : ℝ) (ht : 0 ≤ tSec) (hdt : 0 < dt) (g₀ : ℝ) (y : ℝ → FState) (S : Finset ℝ)
    (y0 : y 0 = P.nonDimState (Vehicle.entryState P { st with gamma0Deg := g₀ }))
    (hy : SwitchedFlight (fun t s => (Vehicle.mk' m beta LD A alpha RN P atm u f st).EOM s t (deltaDeg * π / 180.0)) y 0
      ((tSec + dt) / P.tau) S)
    (hreg : ∀ t ∈ Set.Icc 0 ((tSec + dt) / P.tau), Departure P (y t)) (ε : ℝ) (hε : 0 < ε) :
    ∃ ρ > 0, ∀ (g : ℝ) (z : ℝ → FState) (S' : Finset ℝ), |g - g₀| ≤ ρ →
      z 0 = P.nonDimState (Vehicle.entryState P { st with gamma0Deg := g }) →
      NearFlight (fun t s => (Vehicle.mk' m beta LD A alpha RN P atm u f st).EOM s t (deltaDeg * π / 180.0)) z 0
        ((tSec + dt) / P.tau) S' ρ →
      Near ρ (z 0) (y 0) ∧ ρ ≤ ε ∧ ∀ t ∈ Set.Icc 0 ((tSec + dt) / P.tau), Near ε (z t) (y t) := by
  obtain ⟨_, hR, hGM, _, _, _, _, _, hVr, htau, _⟩ := C01_planet_consistent name P hP
  obtain ⟨C, ρ₂, hC, hρ₂, hclose⟩ := C102_errors_grow_linearly name F hF P hP atm hatm m beta LD A alpha RN u f
    st hf (deltaDeg * π / 180.0) _ (show 0 ≤ (tSec + dt) / P.tau by positivity) y S hy hreg
  set ρ := min ρ₂ (ε / (3 * C)) with hρ
  have hρ0 : 0 < ρ := lt_min hρ₂ (by positivity)
  have hρε : (3 * C) * ρ ≤ ε := by
    have := min_le_right ρ₂ (ε / (3 * C))
    rw [← hρ, le_div_iff₀ (by positivity)] at this
    linarith
  have hρb : ρ ≤ ρ₂ := min_le_left _ _
  refine ⟨ρ, hρ0, fun g z S' hg z0 hz => ?_⟩
  have hzy0 : Near ρ (z 0) (y 0) := by
    rw [z0, y0]
    have e : ∀ a : ℝ, |a - a| ≤ ρ := fun a => by rw [sub_self, abs_zero]; exact hρ0.le
    refine ⟨e _, e _, e _, e _, e _, ?_, e _⟩
    change |g * π / 180.0 - g₀ * π / 180.0| ≤ ρ
    rw [show (180.0:ℝ) = 180 by norm_num, show g * π / 180 - g₀ * π / 180 = (g - g₀) * (π / 180) by ring, abs_mul,
      abs_of_pos (show 0 < π / 180 by positivity)]
    have h4 := pi_le_four
    have : |g - g₀| * (π / 180) ≤ |g - g₀| * 1 := mul_le_mul_of_nonneg_left (by linarith) (abs_nonneg _)
    linarith
  refine ⟨hzy0, by nlinarith, fun t ht => ?_⟩
  exact Near.mono (hclose z _ ρ ρ S' (show 0 ≤ (tSec + dt) / P.tau by positivity) le_rfl hρ0.le hρb hρb hzy0 hz t ht)
    (by linarith)

/-- The last reported state of an accurate simulation is close to the last state of the exact flight inside the atmosphere. -/
theorem last_of_flight (name : String) (F : AtmFile) (hF : (name, F) ∈ shippedFiles) (P : Planet)
    (hP : Planet.init name = .ok P) (atm : Atmosphere) (hatm : LoadedCubic P F.km (fileRows F) atm)
    (m beta LD A alpha RN : ℝ) (u : Bool) (f : ℝ → ℝ) (st : InitState) (hf : u = true → ContDiff ℝ 1 f)
    (tSec dt deltaDeg : ℝ) (ht : 0 ≤ tSec) (hdt : 0 < dt) (g₀ : ℝ) (y : ℝ → FState) (S : Finset ℝ) (k : ℕ)
    (y0 : y 0 = P.nonDimState (Vehicle.entryState P { st with gamma0Deg := g₀ }))
    (hy : SwitchedFlight (fun t s => (Vehicle.mk' m beta LD A alpha RN P atm u f st).EOM s t (deltaDeg * π / 180.0)) y 0
      ((tSec + dt) / P.tau) S)
    (hreg : ∀ t ∈ Set.Icc 0 ((tSec + dt) / P.tau), Departure P (y t))
    (hoff : ∀ j : ℕ, 1 ≤ j → j ≤ ⌈tSec / dt⌉₊ → (y (j * dt / P.tau)).r * P.RP - P.RP ≠ P.hTrap ∧
      (y (j * dt / P.tau)).r * P.RP - P.RP ≠ P.hSkip)
    (hlast : LastInside P (⌈tSec / dt⌉₊ + 1) (fun j => (y (j * dt / P.tau)).r * P.RP - P.RP) k) (ε : ℝ) (hε : 0 < ε) :
    ∃ ρ > 0, ∀ (g : ℝ) (I : Integrator) (mode : ScipyMode) (hi : ℝ) (out : PropOut) (z : ℝ → FState) (S' : Finset ℝ),
      |g - g₀| ≤ ρ →
      z 0 = P.nonDimState (Vehicle.entryState P { st with gamma0Deg := g }) →
      NearFlight (fun t s => (Vehicle.mk' m beta LD A alpha RN P atm u f st).EOM s t (deltaDeg * π / 180.0)) z 0
        ((tSec + dt) / P.tau) S' ρ →
      (∀ p ∈ samples (Spec.atAngle (Vehicle.mk' m beta LD A alpha RN P atm u f st) g) I tSec dt deltaDeg, Near ρ p.2 (z p.1)) →
      (samples (Spec.atAngle (Vehicle.mk' m beta LD A alpha RN P atm u f st) g) I tSec dt deltaDeg).map Prod.fst =
        Vehicle.tGrid P tSec dt →
      (∀ p, (samples (Spec.atAngle (Vehicle.mk' m beta LD A alpha RN P atm u f st) g) I tSec dt deltaDeg).head? = some p →
        p.2 = P.nonDimState (Vehicle.entryState P { st with gamma0Deg := g })) →
      (Spec.atAngle (Vehicle.mk' m beta LD A alpha RN P atm u f st) g).postProcess mode (TrajArrays.ofSamples (samples
        (Spec.atAngle (Vehicle.mk' m beta LD A alpha RN P atm u f st) g) I tSec dt deltaDeg)) (deltaDeg * π / 180.0) hi =
        .ok out →
      ∃ s, Near ε s (y (k * dt / P.tau)) ∧ Spec.IsLast out (terminalOf P s) ∧ 0 < s.r * P.RP := by
  obtain ⟨_, hR, hGM, _, _, _, _, _, hVr, htau, _⟩ := C01_planet_consistent name P hP
  set V := Vehicle.mk' m beta LD A alpha RN P atm u f st with hV
  obtain ⟨gr1, gr2⟩ := tGrid_get name P hP tSec dt ht hdt
  have hgridj : ∀ t ∈ Vehicle.tGrid P tSec dt, ∃ j : ℕ, j ≤ ⌈tSec / dt⌉₊ ∧ t = j * dt / P.tau := by
    intro t hmem
    obtain ⟨j, hj⟩ := List.mem_iff_getElem?.mp hmem
    have hjl := (List.getElem?_eq_some_iff.mp hj).1
    rw [gr1] at hjl
    rw [gr2 j hjl] at hj
    exact ⟨j, by omega, (Option.some.inj hj).symm⟩
  have hin : ∀ j : ℕ, j ≤ ⌈tSec / dt⌉₊ → (j:ℝ) * dt / P.tau ∈ Set.Icc 0 ((tSec + dt) / P.tau) :=
    fun j hj => grid_mem htau ht hdt hj
  have hk : k ≤ ⌈tSec / dt⌉₊ := by
    rcases hlast with ⟨-, h, -⟩ | ⟨-, h, -⟩ | ⟨h, -⟩ <;> omega
  obtain ⟨ρ₁, hρ₁, hstable⟩ := C102_verdict_stable name F hF P hP atm hatm m beta LD A alpha RN u f
    { st with gamma0Deg := g₀ } hf tSec dt deltaDeg ht hdt y S y0 hy hreg (by
      intro t hmem hne
      obtain ⟨j, hj, rfl⟩ := hgridj t hmem
      refine hoff j ?_ hj
      by_contra hn
      exact hne (by rw [show j = 0 by omega]; simp))
  obtain ⟨ρ₂, hρ₂, hnear⟩ := near_exact name F hF P hP atm hatm m beta LD A alpha RN u f st hf tSec dt deltaDeg ht hdt g₀ y S
    y0 hy hreg (ε / 2) (by linarith)
  set ρ := min ρ₁ ρ₂ with hρ
  have hρ0 : 0 < ρ := lt_min hρ₁ hρ₂
  have hρa : ρ ≤ ρ₁ := min_le_left _ _
  have hρb : ρ ≤ ρ₂ := min_le_right _ _
  refine ⟨ρ, hρ0, fun g I mode hi out z S' hg z0 hz hsam htimes hhead hrun => ?_⟩
  obtain ⟨hzy0, hρε, hzy⟩ := hnear g z S' (hg.trans hρb) z0 (nearFlight_weaken hz hρb)
  have hzy0' : Near ρ₁ (z 0) (y 0) := by
    rw [z0, y0]
    have e : ∀ a : ℝ, |a - a| ≤ ρ₁ := fun a => by rw [sub_self, abs_zero]; exact hρ₁.le
    refine ⟨e _, e _, e _, e _, e _, ?_, e _⟩
    change |g * π / 180.0 - g₀ * π / 180.0| ≤ ρ₁
    rw [show (180.0:ℝ) = 180 by norm_num, show g * π / 180 - g₀ * π / 180 = (g - g₀) * (π / 180) by ring, abs_mul,
      abs_of_pos (show 0 < π / 180 by positivity)]
    have h4 := pi_le_four
    have : |g - g₀| * (π / 180) ≤ |g - g₀| * 1 := mul_le_mul_of_nonneg_left (by linarith) (abs_nonneg _)
    linarith
  -- a solver that returns the same samples for this flight, and one sample per output time always
  set J : Integrator := fun f' y' grid => if (I f' y' grid).map Prod.fst = grid ∧ (∀ p, (I f' y' grid).head? = some p → p.2 = y')
    then I f' y' grid else traceIntegrator (fun _ => y') f' y' grid with hJ
  have hJo : OdeintLike J := by
    intro f' y' grid
    by_cases h : (I f' y' grid).map Prod.fst = grid ∧ (∀ p, (I f' y' grid).head? = some p → p.2 = y')
    · simp only [hJ, if_pos h]; exact h
    · simp only [hJ, if_neg h]; exact traceIntegrator_ok _ f' y' grid
  have hJs : samples (Spec.atAngle V g) J tSec dt deltaDeg = samples (Spec.atAngle V g) I tSec dt deltaDeg := by
    change (if _ then _ else _) = _
    exact if_pos ⟨htimes, hhead⟩
  obtain ⟨heat, hrun'⟩ := postProcess_change hrun
  rw [← hJs] at hrun'
  have hidx := hstable (Spec.atAngle V g) J .strict _ z S' hJo rfl rfl z0 hzy0' (nearFlight_weaken hz hρa)
    (fun p hp => Near.mono (hsam p (by rwa [hJs] at hp)) hρa) hrun'
  obtain ⟨flag, hflag⟩ := lastInside_index name P hP hlast ((Vehicle.tGrid P tSec dt).map fun t => (y t).r * P.RP)
    (by rw [List.length_map, gr1]) (by
      intro j hj
      have hj' : j < ⌈tSec / dt⌉₊ + 1 := by simpa [gr1] using hj
      rw [List.getElem_map]
      have := gr2 j hj'
      rw [List.getElem?_eq_getElem (by rw [gr1]; exact hj')] at this
      rw [Option.some.inj this])
  rw [hidx] at hflag
  have hix : out.index = k + 1 := congrArg Prod.fst (Except.ok.inj hflag)
  -- the last point
  have hal := postProcess_aligned hrun
  obtain ⟨s', -, hs'⟩ := terminal_isLast hal
  have hspos := last_above_ground name (Spec.atAngle V g) hP hrun s' hs'
  obtain ⟨-, hle, -, er, eth, eph, ev, eps, eg, -⟩ := hal
  change out.c.r = ((samples (Spec.atAngle V g) I tSec dt deltaDeg).take out.index).map (fun p => p.2.r * P.RP) at er
  change out.c.v = ((samples (Spec.atAngle V g) I tSec dt deltaDeg).take out.index).map (fun p => p.2.v * P.Vref) at ev
  have hkl : k < (samples (Spec.atAngle V g) I tSec dt deltaDeg).length := by omega
  set p := (samples (Spec.atAngle V g) I tSec dt deltaDeg)[k] with hp
  have hpm' : p ∈ samples (Spec.atAngle V g) I tSec dt deltaDeg := List.getElem_mem _
  have hp1 : p.1 = k * dt / P.tau := by
    have h1 := gr2 k (by omega)
    rw [← htimes, List.getElem?_map, List.getElem?_eq_getElem hkl] at h1
    exact Option.some.inj h1
  have lastOf : ∀ (q : ℝ × FState → ℝ), (((samples (Spec.atAngle V g) I tSec dt deltaDeg).take out.index).map q).getLast?
      = some (q p) := by
    intro q
    rw [List.getLast?_eq_getElem?, List.length_map, List.length_take, min_eq_left hle, hix, Nat.add_sub_cancel,
      List.getElem?_map, List.getElem?_take_of_lt (Nat.lt_succ_self k), List.getElem?_eq_getElem hkl]
    rfl
  have hlastp : Spec.IsLast out (terminalOf P p.2) := by
    refine ⟨?_, ?_, ?_, ?_, ?_, ?_⟩
    · rw [er]; exact lastOf _
    · rw [ev]; exact lastOf _
    · rw [eg]; exact lastOf _
    · rw [eth]; exact lastOf _
    · rw [eph]; exact lastOf _
    · rw [eps]; exact lastOf _
  refine ⟨p.2, ?_, hlastp, ?_⟩
  · have a1 := hsam p hpm'
    have a2 := hzy _ (hin k hk)
    rw [hp1] at a1
    have tri : ∀ {a b c : ℝ}, |a - b| ≤ ρ → |b - c| ≤ ε / 2 → |a - c| ≤ ε := fun {a b c} h1 h2 => by
      have := abs_sub_le a b c
      linarith
    exact ⟨tri a1.r a2.r, tri a1.theta a2.theta, tri a1.phi a2.phi, tri a1.v a2.v, tri a1.psi a2.psi,
      tri a1.gamma a2.gamma, tri a1.drange a2.drange⟩
  · have := hs'.1
    rw [hlastp.1] at this
    rw [← Option.some.inj this] at hspos
    exact hspos

/-- A condition that holds around a state holds at all states near it. -/
theorem near_of_eventually {s : FState} {Q : FState → Prop} (h : ∀ᶠ x in nhds s.toR7, Q (FState.ofR7 x)) :
    ∃ ε > 0, ∀ s', Near ε s' s → Q s' := by
  rw [Metric.eventually_nhds_iff] at h
  obtain ⟨ε, hε, h⟩ := h
  refine ⟨ε / 2, by linarith, fun s' hs' => ?_⟩
  have := h (y := s'.toR7) (by rw [dist_eq_norm]; linarith [(near_iff _ _ _).mp hs'])
  exact this

theorem flightEnds_mono {V : Vehicle} {tSec dt deltaDeg : ℝ} {R R' Q Q' : FState → Prop}
    (h : FlightEnds V tSec dt deltaDeg R Q) (hR : ∀ s, R s → R' s) (hQ : ∀ s, Q s → Q' s) :
    FlightEnds V tSec dt deltaDeg R' Q' := by
  obtain ⟨y, S, k, h1, h2, h3, h4, h5, h6⟩ := h
  exact ⟨y, S, k, h1, h2, fun t ht => ⟨(h3 t ht).1, hR _ (h3 t ht).2⟩, h4, h5, hQ _ h6⟩

/-! ### Capture -/

/-- C110: the verdict of `isCaptured` is that of the exact flight.  If, at the last point of the exact flight inside the
atmosphere, the energy (of the motion relative to the planet, as the code computes it) is negative, then with an accurate
enough solver `isCaptured` returns `-1`, and if it is positive `1`; also for slightly different entry angles. -/
theorem C110_capture_of_flight (name : String) (F : AtmFile) (hF : (name, F) ∈ shippedFiles) (P : Planet)
    (hP : Planet.init name = .ok P) (atm : Atmosphere) (hatm : LoadedCubic P F.km (fileRows F) atm)
    (m beta LD A alpha RN : ℝ) (u : Bool) (f : ℝ → ℝ) (st : InitState) (hf : u = true → ContDiff ℝ 1 f)
    (tSec dt deltaDeg : ℝ) (ht : 0 ≤ tSec) (hdt : 0 < dt) (g₀ : ℝ) (ans : ℤ)
    (hv : FlightEnds (Spec.atAngle (Vehicle.mk' m beta LD A alpha RN P atm u f st) g₀) tSec dt deltaDeg (fun _ => True)
      (fun s => (ans = -1 ∧ (s.v * P.Vref) ^ 2 / 2 < P.GM / (s.r * P.RP)) ∨
        (ans = 1 ∧ P.GM / (s.r * P.RP) < (s.v * P.Vref) ^ 2 / 2))) :
    ∃ ρ > 0, ∀ (g : ℝ) (I : Integrator) (mode : ScipyMode) (out : PropOut), |g - g₀| ≤ ρ → OdeintLike I →
      SolvedWithin (Spec.atAngle (Vehicle.mk' m beta LD A alpha RN P atm u f st) g) I tSec dt deltaDeg ρ →
      (Spec.atAngle (Vehicle.mk' m beta LD A alpha RN P atm u f st) g).propogateEntry mode I tSec dt deltaDeg = .ok out →
      (Spec.atAngle (Vehicle.mk' m beta LD A alpha RN P atm u f st) g).isCaptured mode I tSec dt deltaDeg = .ok ans := by
  obtain ⟨_, hR, hGM, _, _, _, _, _, hVr, htau, _⟩ := C01_planet_consistent name P hP
  obtain ⟨y, S, k, y0, hy, hreg, hoff, hlast, hQ⟩ := hv
  change LastInside P _ (fun j => (y (j * dt / P.tau)).r * P.RP - P.RP) k at hlast
  have hk : k ≤ ⌈tSec / dt⌉₊ := by
    rcases hlast with ⟨-, h, -⟩ | ⟨-, h, -⟩ | ⟨h, -⟩ <;> omega
  have hrk : 0 < (y (k * dt / P.tau)).r := by
    have := (hreg _ (grid_mem htau ht hdt hk)).1.alt
    by_contra hn
    have h2 := mul_nonpos_of_nonpos_of_nonneg (not_lt.mp hn) hR.le
    change 0 < (y (k * dt / P.tau)).r * P.RP - P.RP at this
    linarith
  obtain ⟨ε, hε, hmargin⟩ := near_of_eventually (s := y (k * dt / P.tau))
    (Q := fun s => (ans = -1 ∧ (s.v * P.Vref) ^ 2 / 2 < P.GM / (s.r * P.RP)) ∨
        (ans = 1 ∧ P.GM / (s.r * P.RP) < (s.v * P.Vref) ^ 2 / 2)) (by
      have c1 : ContinuousAt (fun x : R7 => (x.2.2.2.1 * P.Vref) ^ 2 / 2) (y (k * dt / P.tau)).toR7 := by fun_prop
      have c2 : ContinuousAt (fun x : R7 => x.1 * P.RP) (y (k * dt / P.tau)).toR7 := by fun_prop
      have c3 : ContinuousAt (fun x : R7 => P.GM / (x.1 * P.RP)) (y (k * dt / P.tau)).toR7 :=
        continuousAt_const.div c2 (mul_pos hrk hR).ne'
      rcases hQ with ⟨ha, h⟩ | ⟨ha, h⟩
      · filter_upwards [c1.eventually_lt c3 h] with x hx
        exact Or.inl ⟨ha, hx⟩
      · filter_upwards [c3.eventually_lt c1 h] with x hx
        exact Or.inr ⟨ha, hx⟩)
  obtain ⟨ρ, hρ, h⟩ := last_of_flight name F hF P hP atm hatm m beta LD A alpha RN u f st hf tSec dt deltaDeg ht hdt g₀ y S k y0
    hy (fun t ht => (hreg t ht).1) hoff hlast ε hε
  refine ⟨ρ, hρ, fun g I mode out hg hI hsol hrun => ?_⟩
  obtain ⟨z, S', z0, hz, hsam⟩ := hsol
  obtain ⟨i1, i2⟩ := hI (fun t y => (Spec.atAngle (Vehicle.mk' m beta LD A alpha RN P atm u f st) g).EOM y t
    (deltaDeg * π / 180.0)) (P.nonDimState (Vehicle.entryState P { st with gamma0Deg := g })) (Vehicle.tGrid P tSec dt)
  obtain ⟨s, hs, hl, hs0⟩ := h g I mode 0 out z S' hg z0 hz hsam i1 i2 hrun
  obtain ⟨r, v, hr, hv, h1, h2⟩ := (C30_capture_verdict _ mode I tSec dt deltaDeg).1 out hrun
  have er : s.r * P.RP = r := Option.some.inj (hl.1.symm.trans hr)
  have ev : s.v * P.Vref = v := Option.some.inj (hl.2.1.symm.trans hv)
  change v ^ 2 / 2 - P.GM / r < 0 → _ at h1
  change 0 ≤ v ^ 2 / 2 - P.GM / r → _ at h2
  rw [← er, ← ev] at h1 h2
  rcases hmargin s hs with ⟨rfl, hq⟩ | ⟨rfl, hq⟩
  · exact h1 (by linarith)
  · exact h2 (by linarith)

/-! ### The orbit in inertial space -/

theorem orbit_margin2 {name : String} {P : Planet} (hP : Planet.init name = .ok P) {L rho : ℝ} {s : FState}
    (hr : 0 < s.r) {ans : ℤ} (h : (ans = -1 ∧ RisesBeyond2 P L rho s) ∨ (ans = 1 ∧ FallsShort2 P L rho s)) :
    ∃ ε > 0, ∀ s', Near ε s' s → (ans = -1 ∧ RisesBeyond2 P L rho s') ∨ (ans = 1 ∧ FallsShort2 P L rho s') := by
  obtain ⟨_, hR, _⟩ := C01_planet_consistent name P hP
  have halt : ContinuousAt (fun x : R7 => (FState.ofR7 x).r * P.RP - P.RP) s.toR7 := by
    unfold FState.ofR7; fun_prop
  have hr' : ContinuousAt (fun x : R7 => (FState.ofR7 x).r * P.RP) s.toR7 := by
    unfold FState.ofR7; fun_prop
  -- the inertial velocity
  have hx : ContinuousAt (fun x : R7 => (inertialVel P (FState.ofR7 x)).x) s.toR7 := by
    unfold FState.ofR7 inertialVel vel along horiz pos V3.cross spin up east north
    simp [V3.add_x, V3.smul_x, V3.smul_y, V3.smul_z]
    fun_prop
  have hy : ContinuousAt (fun x : R7 => (inertialVel P (FState.ofR7 x)).y) s.toR7 := by
    unfold FState.ofR7 inertialVel vel along horiz pos V3.cross spin up east north
    simp [V3.smul_x, V3.add_y, V3.smul_y, V3.smul_z]
    fun_prop
  have hz : ContinuousAt (fun x : R7 => (inertialVel P (FState.ofR7 x)).z) s.toR7 := by
    unfold FState.ofR7 inertialVel vel along horiz pos V3.cross spin up east north
    simp [V3.smul_x, V3.smul_y, V3.add_z, V3.smul_z]
    fun_prop
  have hpx : ContinuousAt (fun x : R7 => (pos ((FState.ofR7 x).r * P.RP) (FState.ofR7 x).theta (FState.ofR7 x).phi).x) s.toR7 := by
    unfold FState.ofR7 pos up
    simp only [V3.smul_x]
    fun_prop
  have hpy : ContinuousAt (fun x : R7 => (pos ((FState.ofR7 x).r * P.RP) (FState.ofR7 x).theta (FState.ofR7 x).phi).y) s.toR7 := by
    unfold FState.ofR7 pos up
    simp only [V3.smul_y]
    fun_prop
  have hpz : ContinuousAt (fun x : R7 => (pos ((FState.ofR7 x).r * P.RP) (FState.ofR7 x).theta (FState.ofR7 x).phi).z) s.toR7 := by
    unfold FState.ofR7 pos up
    simp only [V3.smul_z]
    fun_prop
  have hnU : ContinuousAt (fun x : R7 => V3.norm (inertialVel P (FState.ofR7 x))) s.toR7 := by
    unfold V3.norm V3.dot
    exact (((hx.mul hx).add (hy.mul hy)).add (hz.mul hz)).sqrt
  have hnR : ContinuousAt (fun x : R7 => V3.norm (pos ((FState.ofR7 x).r * P.RP) (FState.ofR7 x).theta (FState.ofR7 x).phi))
      s.toR7 := by
    unfold V3.norm V3.dot
    exact (((hpx.mul hpx).add (hpy.mul hpy)).add (hpz.mul hpz)).sqrt
  have hh : ContinuousAt (fun x : R7 => angMom (pos ((FState.ofR7 x).r * P.RP) (FState.ofR7 x).theta (FState.ofR7 x).phi)
      (inertialVel P (FState.ofR7 x))) s.toR7 := by
    unfold angMom V3.norm V3.dot V3.cross
    exact ((((((hpy.mul hz).sub (hpz.mul hy)).mul ((hpy.mul hz).sub (hpz.mul hy))).add
      (((hpz.mul hx).sub (hpx.mul hz)).mul ((hpz.mul hx).sub (hpx.mul hz)))).add
      (((hpx.mul hy).sub (hpy.mul hx)).mul ((hpx.mul hy).sub (hpy.mul hx)))).sqrt)
  have hne : V3.norm (pos (s.r * P.RP) s.theta s.phi) ≠ 0 := by
    rw [norm_pos_r (mul_pos hr hR)]; exact (mul_pos hr hR).ne'
  have hE : ContinuousAt (fun x : R7 => energy P.GM (pos ((FState.ofR7 x).r * P.RP) (FState.ofR7 x).theta (FState.ofR7 x).phi)
      (inertialVel P (FState.ofR7 x))) s.toR7 := by
    unfold energy
    exact ((hnU.pow 2).div_const 2).sub (continuousAt_const.div hnR hne)
  have hq : ContinuousAt (fun x : R7 => inertialSqAt P rho (FState.ofR7 x)) s.toR7 := by
    unfold inertialSqAt radialSq
    exact ((continuousAt_const (y := (2:ℝ))).mul (hE.add continuousAt_const)).sub ((hh.div_const rho).pow 2)
  have hmov : inertialVel P s ≠ 0 → ∀ᶠ x in nhds s.toR7, inertialVel P (FState.ofR7 x) ≠ 0 := by
    intro h0
    have h1 : V3.norm (inertialVel P s) ≠ 0 := fun hc => h0 (V3.norm_eq_zero.mp hc)
    filter_upwards [hnU.eventually_ne h1] with x hx hc
    exact hx (V3.norm_eq_zero.mpr hc)
  apply near_of_eventually
  rcases h with ⟨ha, h0, h1, h2⟩ | ⟨ha, h0, h1⟩
  · have e1 := (continuousAt_const (y := L)).eventually_lt halt h1
    rcases h2 with h2 | h2
    · filter_upwards [hmov h0, e1, (continuousAt_const (y := rho)).eventually_lt hr' h2] with x x0 x1 x2
      exact Or.inl ⟨ha, x0, x1, Or.inl x2⟩
    · filter_upwards [hmov h0, e1, (continuousAt_const (y := (0:ℝ))).eventually_lt hq h2] with x x0 x1 x2
      exact Or.inl ⟨ha, x0, x1, Or.inr x2⟩
  · rcases h1 with h1 | ⟨h1, h2⟩
    · filter_upwards [hmov h0, halt.eventually_lt (continuousAt_const (y := L)) h1] with x x0 x1
      exact Or.inr ⟨ha, x0, Or.inl x1⟩
    · filter_upwards [hmov h0, hr'.eventually_lt (continuousAt_const (y := rho)) h1, hq.eventually_lt (continuousAt_const (y := (0:ℝ))) h2]
        with x x0 x1 x2
      exact Or.inr ⟨ha, x0, Or.inr ⟨x1, x2⟩⟩

/-- C110: the verdict of `hitsTargetApoapsis2`, which takes the rotation of the planet into account, is that of the exact
flight, also for slightly different entry angles. -/
theorem C110_verdict2_of_flight (name : String) (F : AtmFile) (hF : (name, F) ∈ shippedFiles) (P : Planet)
    (hP : Planet.init name = .ok P) (atm : Atmosphere) (hatm : LoadedCubic P F.km (fileRows F) atm)
    (m beta LD A alpha RN : ℝ) (u : Bool) (f : ℝ → ℝ) (st : InitState) (hf : u = true → ContDiff ℝ 1 f)
    (tSec dt deltaDeg targetKm L : ℝ) (ht : 0 ≤ tSec) (hdt : 0 < dt) (hL : P.hLow = some L) (g₀ : ℝ) (ans : ℤ)
    (hv : FlightVerdict2 (Spec.atAngle (Vehicle.mk' m beta LD A alpha RN P atm u f st) g₀) tSec dt deltaDeg L
      (P.RP + 1000 * targetKm) ans) :
    ∃ ρ > 0, ∀ (g : ℝ) (I : Integrator) (mode : ScipyMode) (out : PropOut), |g - g₀| ≤ ρ → SolveIvpLike I →
      SolvedWithin2 (Spec.atAngle (Vehicle.mk' m beta LD A alpha RN P atm u f st) g) I tSec dt deltaDeg ρ →
      (Spec.atAngle (Vehicle.mk' m beta LD A alpha RN P atm u f st) g).propogateEntry2 mode I tSec dt deltaDeg = .ok out →
      (Spec.atAngle (Vehicle.mk' m beta LD A alpha RN P atm u f st) g).hitsTargetApoapsis2 mode I tSec dt deltaDeg targetKm
        = .ok ans := by
  obtain ⟨_, hR, hGM, _, _, _, _, _, hVr, htau, _⟩ := C01_planet_consistent name P hP
  obtain ⟨y, S, k, y0, hy, hreg, hoff, hlast, hQ⟩ := hv
  change LastInside P _ (fun j => (y (j * dt / P.tau)).r * P.RP - P.RP) k at hlast
  change ∀ t ∈ Set.Icc 0 ((tSec + dt) / P.tau), Departure P (y t) ∧ -(88 * (π / 180)) < (y t).gamma at hreg
  have hk : k ≤ ⌈tSec / dt⌉₊ := by
    rcases hlast with ⟨-, h, -⟩ | ⟨-, h, -⟩ | ⟨h, -⟩ <;> omega
  have hrk : 0 < (y (k * dt / P.tau)).r := by
    have := (hreg _ (grid_mem htau ht hdt hk)).1.alt
    by_contra hn
    have h2 := mul_nonpos_of_nonpos_of_nonneg (not_lt.mp hn) hR.le
    linarith
  obtain ⟨ε, hε, hmargin⟩ := orbit_margin2 hP hrk hQ
  -- the flight keeps away from the dive
  obtain ⟨κ, hκ, hdive⟩ : ∃ κ > 0, ∀ t ∈ Set.Icc 0 ((tSec + dt) / P.tau), -(88 * (π / 180)) + κ ≤ (y t).gamma := by
    have hT : 0 ≤ (tSec + dt) / P.tau := by positivity
    obtain ⟨t₁, ht₁, hmin⟩ := isCompact_Icc.exists_isMinOn (Set.nonempty_Icc.mpr hT) hy.gamma
    exact ⟨(y t₁).gamma + 88 * (π / 180), by linarith [(hreg t₁ ht₁).2], fun t ht => by
      have : (y t₁).gamma ≤ (y t).gamma := hmin ht
      linarith⟩
  obtain ⟨ρ₁, hρ₁, h⟩ := last_of_flight name F hF P hP atm hatm m beta LD A alpha RN u f st hf tSec dt deltaDeg ht hdt g₀ y S k y0
    hy (fun t ht => (hreg t ht).1) hoff hlast ε hε
  obtain ⟨ρ₂, hρ₂, hnear⟩ := near_exact name F hF P hP atm hatm m beta LD A alpha RN u f st hf tSec dt deltaDeg ht hdt g₀ y S
    y0 hy (fun t ht => (hreg t ht).1) (κ / 2) (by linarith)
  refine ⟨min ρ₁ ρ₂, lt_min hρ₁ hρ₂, fun g I mode out hg hI hsol hrun => ?_⟩
  obtain ⟨z, S', z0, hz, hsam, hall⟩ := hsol
  have hρa : min ρ₁ ρ₂ ≤ ρ₁ := min_le_left _ _
  have hρb : min ρ₁ ρ₂ ≤ ρ₂ := min_le_right _ _
  have hz' : NearFlight (fun t s => (Vehicle.mk' m beta LD A alpha RN P atm u f st).EOM s t (deltaDeg * π / 180.0)) z 0
      ((tSec + dt) / P.tau) S' (min ρ₁ ρ₂) := hz
  obtain ⟨-, -, hzy⟩ := hnear g z S' (hg.trans hρb) z0 (nearFlight_weaken hz' hρb)
  have htimes := hall (fun t ht => by
    have h1 := (abs_le.mp (hzy t ht).gamma).1
    have h2 := hdive t ht
    unfold hitEFPA90
    linarith)
  obtain ⟨-, -, i2⟩ := hI (fun t y => (Spec.atAngle (Vehicle.mk' m beta LD A alpha RN P atm u f st) g).EOM y t
    (deltaDeg * π / 180.0)) (P.nonDimState (Vehicle.entryState P { st with gamma0Deg := g })) (Vehicle.tGrid P tSec dt)
  obtain ⟨s, hs, hl, hs0⟩ := h g I mode _ out z S' (hg.trans hρa) z0 (nearFlight_weaken hz' hρa)
    (fun p hp => Near.mono (hsam p hp) hρa) htimes i2 hrun
  obtain ⟨s', ans', hs', hans, hpm, hiff⟩ := C31_verdict2_partial name
    (Spec.atAngle (Vehicle.mk' m beta LD A alpha RN P atm u f st) g) hP mode I tSec dt deltaDeg targetKm L hL out hrun
  obtain rfl : terminalOf P s = s' := by
    obtain ⟨a1, a2, a3, a4, a5, a6⟩ := hl
    obtain ⟨b1, b2, b3, b4, b5, b6⟩ := hs'
    have c1 := Option.some.inj (a1.symm.trans b1)
    have c2 := Option.some.inj (a2.symm.trans b2)
    have c3 := Option.some.inj (a3.symm.trans b3)
    have c4 := Option.some.inj (a4.symm.trans b4)
    have c5 := Option.some.inj (a5.symm.trans b5)
    have c6 := Option.some.inj (a6.symm.trans b6)
    cases s'
    simp only [terminalOf] at c1 c2 c3 c4 c5 c6 ⊢
    rw [c1, c2, c3, c4, c5, c6]
  rw [hans]
  change inertialVel P s ≠ 0 → (ans' = -1 ↔ L ≤ s.r * P.RP - P.RP ∧ Reaches P.GM (pos (s.r * P.RP) s.theta s.phi)
    (inertialVel P s) (P.RP + 1000 * targetKm)) at hiff
  unfold Reaches at hiff
  rw [norm_pos_r hs0] at hiff
  change inertialVel P s ≠ 0 → (ans' = -1 ↔ L ≤ s.r * P.RP - P.RP ∧ (P.RP + 1000 * targetKm ≤ s.r * P.RP ∨
    0 ≤ inertialSqAt P (P.RP + 1000 * targetKm) s)) at hiff
  rcases hmargin s hs with ⟨rfl, h0, h1, h2⟩ | ⟨rfl, h0, h1⟩
  · rw [(hiff h0).mpr ⟨h1.le, h2.imp le_of_lt le_of_lt⟩]
  · have : ans' ≠ -1 := by
      rw [Ne, hiff h0]
      rintro ⟨c1, c2⟩
      rcases h1 with h1 | ⟨h1, h2⟩
      · linarith
      · rcases c2 with c2 | c2 <;> linarith
    rw [hpm.resolve_left this]

/-! ### Limits and widths -/

theorem solvedWithin2_weaken {V : Vehicle} {I : Integrator} {tSec dt deltaDeg ρ ρ' : ℝ}
    (h : SolvedWithin2 V I tSec dt deltaDeg ρ) (hd : ρ ≤ ρ') : SolvedWithin2 V I tSec dt deltaDeg ρ' := by
  obtain ⟨z, S, z0, hz, hs, he⟩ := h
  exact ⟨z, S, z0, nearFlight_weaken hz hd, fun p hp => Near.mono (hs p hp) hd, he⟩

/-- C110: one accuracy serves for a whole range of entry angles. -/
theorem C110_verdict2_of_flights (name : String) (F : AtmFile) (hF : (name, F) ∈ shippedFiles) (P : Planet)
    (hP : Planet.init name = .ok P) (atm : Atmosphere) (hatm : LoadedCubic P F.km (fileRows F) atm)
    (m beta LD A alpha RN : ℝ) (u : Bool) (f : ℝ → ℝ) (st : InitState) (hf : u = true → ContDiff ℝ 1 f)
    (tSec dt deltaDeg targetKm L : ℝ) (ht : 0 ≤ tSec) (hdt : 0 < dt) (hL : P.hLow = some L) (K : Set ℝ) (hK : IsCompact K)
    (ans : ℤ)
    (hv : ∀ g ∈ K, FlightVerdict2 (Spec.atAngle (Vehicle.mk' m beta LD A alpha RN P atm u f st) g) tSec dt deltaDeg L
      (P.RP + 1000 * targetKm) ans) :
    ∃ ρ > 0, ∀ (g : ℝ) (I : Integrator) (mode : ScipyMode) (out : PropOut), g ∈ K → SolveIvpLike I →
      SolvedWithin2 (Spec.atAngle (Vehicle.mk' m beta LD A alpha RN P atm u f st) g) I tSec dt deltaDeg ρ →
      (Spec.atAngle (Vehicle.mk' m beta LD A alpha RN P atm u f st) g).propogateEntry2 mode I tSec dt deltaDeg = .ok out →
      (Spec.atAngle (Vehicle.mk' m beta LD A alpha RN P atm u f st) g).hitsTargetApoapsis2 mode I tSec dt deltaDeg targetKm
        = .ok ans := by
  refine hK.induction_on (p := fun K' => ∃ ρ > 0, ∀ (g : ℝ) (I : Integrator) (mode : ScipyMode) (out : PropOut), g ∈ K' →
      SolveIvpLike I →
      SolvedWithin2 (Spec.atAngle (Vehicle.mk' m beta LD A alpha RN P atm u f st) g) I tSec dt deltaDeg ρ →
      (Spec.atAngle (Vehicle.mk' m beta LD A alpha RN P atm u f st) g).propogateEntry2 mode I tSec dt deltaDeg = .ok out →
      (Spec.atAngle (Vehicle.mk' m beta LD A alpha RN P atm u f st) g).hitsTargetApoapsis2 mode I tSec dt deltaDeg targetKm
        = .ok ans) ⟨1, one_pos, fun g I mode out h => absurd h (by simp)⟩ ?_ ?_ ?_
  · rintro s t hst ⟨ρ, hρ, h⟩
    exact ⟨ρ, hρ, fun g I mode out hg => h g I mode out (hst hg)⟩
  · rintro s t ⟨ρ, hρ, h⟩ ⟨ρ', hρ', h'⟩
    refine ⟨min ρ ρ', lt_min hρ hρ', fun g I mode out hg hI hs hr => ?_⟩
    rcases hg with hg | hg
    · exact h g I mode out hg hI (solvedWithin2_weaken hs (min_le_left _ _)) hr
    · exact h' g I mode out hg hI (solvedWithin2_weaken hs (min_le_right _ _)) hr
  · intro g₀ hg₀
    obtain ⟨ρ, hρ, h⟩ := C110_verdict2_of_flight name F hF P hP atm hatm m beta LD A alpha RN u f st hf tSec dt deltaDeg
      targetKm L ht hdt hL g₀ ans (hv g₀ hg₀)
    refine ⟨Metric.closedBall g₀ ρ, mem_nhdsWithin_of_mem_nhds (Metric.closedBall_mem_nhds _ hρ), ρ, hρ,
      fun g I mode out hg => h g I mode out ?_⟩
    rwa [← Real.dist_eq]

/-- A search between angles with known verdicts. -/
theorem search_between {S : SearchEnv} {search : ℕ → Vehicle → ℝ → ℝ → ℝ → Option (Vehicle × Py (ℝ × ℝ))}
    {test : Vehicle → Py ℤ} (hs : Spec.IsSearch S search test) (V : Vehicle) (lo c₁ c₂ hi tol : ℝ) (htol : 0 < tol)
    (hwide : tol < |hi - lo|) (a b : ℤ) (hab : a ≠ b)
    (hord : (lo ≤ c₁ ∧ c₁ ≤ c₂ ∧ c₂ ≤ hi) ∨ (hi ≤ c₂ ∧ c₂ ≤ c₁ ∧ c₁ ≤ lo))
    (hall : ∀ g ∈ Set.uIcc lo hi, ∃ v : ℤ, (v = -1 ∨ v = 1) ∧ test (Spec.atAngle V g) = .ok v)
    (ha : ∀ g ∈ Set.uIcc lo c₁, test (Spec.atAngle V g) = .ok a)
    (hb : ∀ g ∈ Set.uIcc c₂ hi, test (Spec.atAngle V g) = .ok b) :
    ∃ lim n, (∀ fuel, n ≤ fuel → search fuel V lo hi tol = some (V, .ok (lim, 1))) ∧
      lim ∈ Set.uIcc lo hi ∧ ∃ c ∈ Set.uIcc c₁ c₂, |lim - c| ≤ tol := by
  have hsub : Set.uIcc lo c₁ ⊆ Set.uIcc lo hi ∧ Set.uIcc c₂ hi ⊆ Set.uIcc lo hi := by
    rcases hord with ⟨o1, o2, o3⟩ | ⟨o1, o2, o3⟩
    · rw [Set.uIcc_of_le o1, Set.uIcc_of_le o3, Set.uIcc_of_le (by linarith)]
      exact ⟨Set.Icc_subset_Icc_right (by linarith), Set.Icc_subset_Icc_left (by linarith)⟩
    · rw [Set.uIcc_of_ge o3, Set.uIcc_of_ge o1, Set.uIcc_of_ge (by linarith)]
      exact ⟨Set.Icc_subset_Icc_left (by linarith), Set.Icc_subset_Icc_right (by linarith)⟩
  have hex : ∀ g : ℝ, ∃ v : ℤ, (v = -1 ∨ v = 1) ∧ (g ∈ Set.uIcc lo hi → test (Spec.atAngle V g) = .ok v) := by
    intro g
    by_cases hg : g ∈ Set.uIcc lo hi
    · obtain ⟨v, h1, h2⟩ := hall g hg
      exact ⟨v, h1, fun _ => h2⟩
    · exact ⟨1, Or.inr rfl, fun h => absurd h hg⟩
  choose v hpm hv using hex
  have va : ∀ g ∈ Set.uIcc lo c₁, v g = a := fun g hg =>
    Except.ok.inj ((hv g (hsub.1 hg)).symm.trans (ha g hg))
  have vb : ∀ g ∈ Set.uIcc c₂ hi, v g = b := fun g hg =>
    Except.ok.inj ((hv g (hsub.2 hg)).symm.trans (hb g hg))
  have vlo := va lo Set.left_mem_uIcc
  have vhi := vb hi Set.right_mem_uIcc
  obtain ⟨lim, l1, l2, ⟨g, g1, g2, g3⟩, l3, ⟨n, hn⟩⟩ := C32_search_brackets_bound hs V v hpm lo hi tol htol hwide hv
    (by rw [vlo, vhi]; exact hab)
  have n1 : lim ∉ Set.uIcc lo c₁ := fun hc => by rw [va lim hc, vhi] at l2; exact hab l2
  have n2 : g ∉ Set.uIcc c₂ hi := fun hc => by rw [vb g hc, vlo] at g3; exact hab g3.symm
  refine ⟨lim, n + 1, fun fuel hfuel => l3 n fuel hn hfuel, l1, ?_⟩
  have gd := abs_le.mp g2
  rcases hord with ⟨o1, o2, o3⟩ | ⟨o1, o2, o3⟩
  · rw [Set.uIcc_of_le o1, Set.mem_Icc, not_and, not_le] at n1
    rw [Set.uIcc_of_le o3, Set.mem_Icc, not_and'] at n2
    rw [Set.uIcc_of_le (by linarith)] at l1 g1
    have q1 := n1 l1.1
    have q2 := n2 g1.2
    rw [Set.uIcc_of_le o2]
    rcases le_or_gt lim c₂ with h | h
    · exact ⟨lim, ⟨q1.le, h⟩, by rw [sub_self, abs_zero]; exact htol.le⟩
    · exact ⟨c₂, ⟨o2, le_rfl⟩, by rw [abs_of_pos (by linarith)]; linarith⟩
  · rw [Set.uIcc_of_ge o3, Set.mem_Icc, not_and'] at n1
    rw [Set.uIcc_of_ge o1, Set.mem_Icc, not_and] at n2
    rw [Set.uIcc_of_ge (by linarith)] at l1 g1
    have q1 := n1 l1.2
    have q2 := n2 g1.1
    rw [Set.uIcc_of_ge o2]
    rcases le_or_gt c₂ lim with h | h
    · exact ⟨lim, ⟨h, by linarith⟩, by rw [sub_self, abs_zero]; exact htol.le⟩
    · exact ⟨c₂, ⟨le_rfl, o2⟩, by rw [abs_of_neg (by linarith)]; linarith⟩

theorem bound_of_splits (name : String) (F : AtmFile) (hF : (name, F) ∈ shippedFiles) (P : Planet)
    (hP : Planet.init name = .ok P) (atm : Atmosphere) (hatm : LoadedCubic P F.km (fileRows F) atm)
    (m beta LD A alpha RN : ℝ) (u : Bool) (f : ℝ → ℝ) (st : InitState) (hf : u = true → ContDiff ℝ 1 f)
    (tSec dt deltaDeg targetKm L : ℝ) (ht : 0 ≤ tSec) (hdt : 0 < dt) (hL : P.hLow = some L)
    (lo c₁ c₂ hi tol : ℝ) (htol : 0 < tol) (hwide : tol < |hi - lo|)
    (hv : Splits (fun g => FlightVerdict (Spec.atAngle (Vehicle.mk' m beta LD A alpha RN P atm u f st) g) tSec dt deltaDeg L
      (P.RP + 1000 * targetKm)) lo c₁ c₂ hi) :
    ∃ ρ > 0, ∀ (V : Vehicle) (S : SearchEnv) (search : ℕ → Vehicle → ℝ → ℝ → ℝ → Option (Vehicle × Py (ℝ × ℝ)))
      (test : Vehicle → Py ℤ), Spec.IsSearch S search test → S.tSec = tSec → S.dt = dt → S.targetKm = targetKm →
      (∀ g, test (Spec.atAngle V g) = (Spec.atAngle (Vehicle.mk' m beta LD A alpha RN P atm u f st) g).hitsTargetApoapsis
        S.mode S.I S.tSec S.dt deltaDeg S.targetKm) → OdeintLike S.I →
      Simulated (Vehicle.mk' m beta LD A alpha RN P atm u f st) S.mode S.I tSec dt deltaDeg lo hi ρ →
      ∃ lim n, (∀ fuel, n ≤ fuel → search fuel V lo hi tol = some (V, .ok (lim, 1))) ∧
        lim ∈ Set.uIcc lo hi ∧ ∃ c ∈ Set.uIcc c₁ c₂, |lim - c| ≤ tol := by
  obtain ⟨hord, a, b, hab, ha, hb⟩ := hv
  exact bound_of_flights name F hF P hP atm hatm m beta LD A alpha RN u f st hf tSec dt deltaDeg targetKm L ht hdt hL lo c₁ c₂
    hi tol htol hwide a b hab hord ha hb

theorem bound_of_splits2 (name : String) (F : AtmFile) (hF : (name, F) ∈ shippedFiles) (P : Planet)
    (hP : Planet.init name = .ok P) (atm : Atmosphere) (hatm : LoadedCubic P F.km (fileRows F) atm)
    (m beta LD A alpha RN : ℝ) (u : Bool) (f : ℝ → ℝ) (st : InitState) (hf : u = true → ContDiff ℝ 1 f)
    (tSec dt deltaDeg targetKm L : ℝ) (ht : 0 ≤ tSec) (hdt : 0 < dt) (hL : P.hLow = some L)
    (lo c₁ c₂ hi tol : ℝ) (htol : 0 < tol) (hwide : tol < |hi - lo|)
    (hv : Splits (fun g => FlightVerdict2 (Spec.atAngle (Vehicle.mk' m beta LD A alpha RN P atm u f st) g) tSec dt deltaDeg L
      (P.RP + 1000 * targetKm)) lo c₁ c₂ hi) :
    ∃ ρ > 0, ∀ (V : Vehicle) (S : SearchEnv) (search : ℕ → Vehicle → ℝ → ℝ → ℝ → Option (Vehicle × Py (ℝ × ℝ)))
      (test : Vehicle → Py ℤ), Spec.IsSearch S search test → S.tSec = tSec → S.dt = dt → S.targetKm = targetKm →
      (∀ g, test (Spec.atAngle V g) = (Spec.atAngle (Vehicle.mk' m beta LD A alpha RN P atm u f st) g).hitsTargetApoapsis2
        S.mode S.I S.tSec S.dt deltaDeg S.targetKm) → SolveIvpLike S.I →
      Simulated2 (Vehicle.mk' m beta LD A alpha RN P atm u f st) S.mode S.I tSec dt deltaDeg lo hi ρ →
      ∃ lim n, (∀ fuel, n ≤ fuel → search fuel V lo hi tol = some (V, .ok (lim, 1))) ∧
        lim ∈ Set.uIcc lo hi ∧ ∃ c ∈ Set.uIcc c₁ c₂, |lim - c| ≤ tol := by
  obtain ⟨hord, a, b, hab, ha, hb⟩ := hv
  obtain ⟨ρ, hρ, h⟩ := C110_verdict2_of_flights name F hF P hP atm hatm m beta LD A alpha RN u f st hf tSec dt deltaDeg
      targetKm L ht hdt hL _ isCompact_uIcc a ha
  obtain ⟨ρ', hρ', h'⟩ := C110_verdict2_of_flights name F hF P hP atm hatm m beta LD A alpha RN u f st hf tSec dt deltaDeg
      targetKm L ht hdt hL _ isCompact_uIcc b hb
  refine ⟨min ρ ρ', lt_min hρ hρ', fun V S search test hs e1 e2 e3 htest hI hall => ?_⟩
  subst e1 e2 e3
  have hsub : Set.uIcc lo c₁ ⊆ Set.uIcc lo hi ∧ Set.uIcc c₂ hi ⊆ Set.uIcc lo hi := by
    rcases hord with ⟨o1, o2, o3⟩ | ⟨o1, o2, o3⟩
    · rw [Set.uIcc_of_le o1, Set.uIcc_of_le o3, Set.uIcc_of_le (by linarith)]
      exact ⟨Set.Icc_subset_Icc_right (by linarith), Set.Icc_subset_Icc_left (by linarith)⟩
    · rw [Set.uIcc_of_ge o3, Set.uIcc_of_ge o1, Set.uIcc_of_ge (by linarith)]
      exact ⟨Set.Icc_subset_Icc_left (by linarith), Set.Icc_subset_Icc_right (by linarith)⟩
  refine search_between hs V lo c₁ c₂ hi tol htol hwide a b hab hord (fun g hg => ?_) (fun g hg => ?_) (fun g hg => ?_)
  · obtain ⟨-, out, ho⟩ := hall g hg
    obtain ⟨s, v, -, hv, hpm, -⟩ := C31_verdict2_partial name (Spec.atAngle (Vehicle.mk' m beta LD A alpha RN P atm u f st) g)
      hP S.mode S.I S.tSec S.dt deltaDeg S.targetKm L hL out ho
    exact ⟨v, hpm, by rw [htest, hv]⟩
  · obtain ⟨hsol, out, ho⟩ := hall g (hsub.1 hg)
    rw [htest]
    exact h g S.I S.mode out hg hI (solvedWithin2_weaken hsol (min_le_left _ _)) ho
  · obtain ⟨hsol, out, ho⟩ := hall g (hsub.2 hg)
    rw [htest]
    exact h' g S.I S.mode out hg hI (solvedWithin2_weaken hsol (min_le_right _ _)) ho

theorem simulated_weaken {V : Vehicle} {mode : ScipyMode} {I : Integrator} {tSec dt deltaDeg lo hi ρ ρ' : ℝ}
    (h : Simulated V mode I tSec dt deltaDeg lo hi ρ) (hd : ρ ≤ ρ') : Simulated V mode I tSec dt deltaDeg lo hi ρ' :=
  fun g hg => ⟨solvedWithin_weaken (h g hg).1 hd, (h g hg).2⟩

theorem simulated2_weaken {V : Vehicle} {mode : ScipyMode} {I : Integrator} {tSec dt deltaDeg lo hi ρ ρ' : ℝ}
    (h : Simulated2 V mode I tSec dt deltaDeg lo hi ρ) (hd : ρ ≤ ρ') : Simulated2 V mode I tSec dt deltaDeg lo hi ρ' :=
  fun g hg => ⟨solvedWithin2_weaken (h g hg).1 hd, (h g hg).2⟩

/-- C110: the limits of the exact flights in inertial space.  If, flown lift down (up), the exact flights at the entry angles
between `lo` and `c₁` have one clear verdict and those between `c₂` and `hi` the other, then `findOverShootLimit2`
(`findUnderShootLimit2`) with an accurate enough solver returns a limit within the tolerance of an angle between `c₁` and
`c₂` and leaves the vehicle as it was. -/
theorem C110_limits2 (name : String) (F : AtmFile) (hF : (name, F) ∈ shippedFiles) (P : Planet)
    (hP : Planet.init name = .ok P) (atm : Atmosphere) (hatm : LoadedCubic P F.km (fileRows F) atm)
    (m beta LD A alpha RN : ℝ) (u : Bool) (f : ℝ → ℝ) (st : InitState) (hf : u = true → ContDiff ℝ 1 f)
    (tSec dt targetKm L : ℝ) (ht : 0 ≤ tSec) (hdt : 0 < dt) (hL : P.hLow = some L)
    (lo c₁ c₂ hi tol : ℝ) (htol : 0 < tol) (hwide : tol < |hi - lo|) (V : Vehicle)
    (hV : V = Vehicle.mk' m beta LD A alpha RN P atm u f st) :
    (Splits (fun g => FlightVerdict2 (Spec.atAngle V g) tSec dt 180 L (P.RP + 1000 * targetKm)) lo c₁ c₂ hi →
      ∃ ρ > 0, ∀ (mode : ScipyMode) (I : Integrator), SolveIvpLike I → Simulated2 V mode I tSec dt 180 lo hi ρ →
        ∃ lim n, lim ∈ Set.uIcc lo hi ∧ (∃ c ∈ Set.uIcc c₁ c₂, |lim - c| ≤ tol) ∧ ∀ fuel, n ≤ fuel →
          Vehicle.findOverShootLimit2 ⟨mode, I, tSec, dt, targetKm⟩ fuel V lo hi tol = some (V, .ok (lim, 1))) ∧
    (Splits (fun g => FlightVerdict2 (Spec.atAngle V g) tSec dt 0 L (P.RP + 1000 * targetKm)) lo c₁ c₂ hi →
      ∃ ρ > 0, ∀ (mode : ScipyMode) (I : Integrator), SolveIvpLike I → Simulated2 V mode I tSec dt 0 lo hi ρ →
        ∃ lim n, lim ∈ Set.uIcc lo hi ∧ (∃ c ∈ Set.uIcc c₁ c₂, |lim - c| ≤ tol) ∧ ∀ fuel, n ≤ fuel →
          Vehicle.findUnderShootLimit2 ⟨mode, I, tSec, dt, targetKm⟩ fuel V lo hi tol = some (V, .ok (lim, 1))) := by
  subst hV
  constructor
  · intro h
    obtain ⟨ρ, hρ, h⟩ := bound_of_splits2 name F hF P hP atm hatm m beta LD A alpha RN u f st hf tSec dt 180 targetKm L ht hdt
      hL lo c₁ c₂ hi tol htol hwide h
    refine ⟨ρ, hρ, fun mode I hI hs => ?_⟩
    obtain ⟨lim, n, h1, h2, h3⟩ := h _ ⟨mode, I, tSec, dt, targetKm⟩ _ _ Spec.IsSearch.over2 rfl rfl rfl (fun _ => rfl) hI hs
    exact ⟨lim, n, h2, h3, h1⟩
  · intro h
    obtain ⟨ρ, hρ, h⟩ := bound_of_splits2 name F hF P hP atm hatm m beta LD A alpha RN u f st hf tSec dt 0 targetKm L ht hdt
      hL lo c₁ c₂ hi tol htol hwide h
    refine ⟨ρ, hρ, fun mode I hI hs => ?_⟩
    obtain ⟨lim, n, h1, h2, h3⟩ := h _ ⟨mode, I, tSec, dt, targetKm⟩ _ _ Spec.IsSearch.under2 rfl rfl rfl (fun _ => rfl) hI hs
    exact ⟨lim, n, h2, h3, h1⟩

/-- C110: the corridor width of the exact flights, for `computeTCW` and `computeTCW2`: with an accurate enough solver the
result is the distance of two angles at which the verdicts of the exact flights change, up to the two tolerances, and the
vehicle is left as it was. -/
theorem C110_widths (name : String) (F : AtmFile) (hF : (name, F) ∈ shippedFiles) (P : Planet)
    (hP : Planet.init name = .ok P) (atm : Atmosphere) (hatm : LoadedCubic P F.km (fileRows F) atm)
    (m beta LD A alpha RN : ℝ) (u : Bool) (f : ℝ → ℝ) (st : InitState) (hf : u = true → ContDiff ℝ 1 f)
    (tSec dt targetKm L : ℝ) (ht : 0 ≤ tSec) (hdt : 0 < dt) (hL : P.hLow = some L)
    (loO o₁ o₂ hiO tolO loU u₁ u₂ hiU tolU : ℝ) (htO : 0 < tolO) (hwO : tolO < |hiO - loO|) (htU : 0 < tolU)
    (hwU : tolU < |hiU - loU|) (V : Vehicle) (hV : V = Vehicle.mk' m beta LD A alpha RN P atm u f st) :
    (Splits (fun g => FlightVerdict (Spec.atAngle V g) tSec dt 180 L (P.RP + 1000 * targetKm)) loO o₁ o₂ hiO →
      Splits (fun g => FlightVerdict (Spec.atAngle V g) tSec dt 0 L (P.RP + 1000 * targetKm)) loU u₁ u₂ hiU →
      ∃ ρ > 0, ∀ (mode : ScipyMode) (I : Integrator), OdeintLike I → Simulated V mode I tSec dt 180 loO hiO ρ →
        Simulated V mode I tSec dt 0 loU hiU ρ →
        ∃ w n, (∃ o ∈ Set.uIcc o₁ o₂, ∃ c ∈ Set.uIcc u₁ u₂, |w - (o - c)| ≤ tolO + tolU) ∧ ∀ fuel, n ≤ fuel →
          Vehicle.computeTCW ⟨mode, I, tSec, dt, targetKm⟩ fuel V loO hiO loU hiU tolO tolU = some (V, .ok w)) ∧
    (Splits (fun g => FlightVerdict2 (Spec.atAngle V g) tSec dt 180 L (P.RP + 1000 * targetKm)) loO o₁ o₂ hiO →
      Splits (fun g => FlightVerdict2 (Spec.atAngle V g) tSec dt 0 L (P.RP + 1000 * targetKm)) loU u₁ u₂ hiU →
      ∃ ρ > 0, ∀ (mode : ScipyMode) (I : Integrator), SolveIvpLike I → Simulated2 V mode I tSec dt 180 loO hiO ρ →
        Simulated2 V mode I tSec dt 0 loU hiU ρ →
        ∃ w n, (∃ o ∈ Set.uIcc o₁ o₂, ∃ c ∈ Set.uIcc u₁ u₂, |w - (o - c)| ≤ tolO + tolU) ∧ ∀ fuel, n ≤ fuel →
          Vehicle.computeTCW2 ⟨mode, I, tSec, dt, targetKm⟩ fuel V loO hiO loU hiU tolO tolU = some (V, .ok w)) := by
  have dist : ∀ {x y o c : ℝ}, |x - o| ≤ tolO → |y - c| ≤ tolU → |x - y - (o - c)| ≤ tolO + tolU := fun h1 h2 => by
    rw [abs_le] at h1 h2 ⊢
    constructor <;> linarith [h1.1, h1.2, h2.1, h2.2]
  subst hV
  constructor
  · intro hO hU
    obtain ⟨ρ, hρ, h⟩ := bound_of_splits name F hF P hP atm hatm m beta LD A alpha RN u f st hf tSec dt 180 targetKm L ht hdt
      hL loO o₁ o₂ hiO tolO htO hwO hO
    obtain ⟨ρ', hρ', h'⟩ := bound_of_splits name F hF P hP atm hatm m beta LD A alpha RN u f st hf tSec dt 0 targetKm L ht hdt
      hL loU u₁ u₂ hiU tolU htU hwU hU
    refine ⟨min ρ ρ', lt_min hρ hρ', fun mode I hI hs hs' => ?_⟩
    obtain ⟨x, n, h1, -, o, ho, h3⟩ := h _ ⟨mode, I, tSec, dt, targetKm⟩ _ _ Spec.IsSearch.over rfl rfl rfl (fun _ => rfl) hI
      (simulated_weaken hs (min_le_left _ _))
    obtain ⟨y, n', h1', -, c, hc, h3'⟩ := h' _ ⟨mode, I, tSec, dt, targetKm⟩ _ _ Spec.IsSearch.under rfl rfl rfl (fun _ => rfl)
      hI (simulated_weaken hs' (min_le_right _ _))
    refine ⟨x - y, max n n', ⟨o, ho, c, hc, dist h3 h3'⟩, fun fuel hfuel => ?_⟩
    unfold Vehicle.computeTCW Vehicle.widthOf
    simp only [h1 fuel ((le_max_left _ _).trans hfuel), h1' fuel ((le_max_right _ _).trans hfuel)]
    rfl
  · intro hO hU
    obtain ⟨ρ, hρ, h⟩ := bound_of_splits2 name F hF P hP atm hatm m beta LD A alpha RN u f st hf tSec dt 180 targetKm L ht hdt
      hL loO o₁ o₂ hiO tolO htO hwO hO
    obtain ⟨ρ', hρ', h'⟩ := bound_of_splits2 name F hF P hP atm hatm m beta LD A alpha RN u f st hf tSec dt 0 targetKm L ht hdt
      hL loU u₁ u₂ hiU tolU htU hwU hU
    refine ⟨min ρ ρ', lt_min hρ hρ', fun mode I hI hs hs' => ?_⟩
    obtain ⟨x, n, h1, -, o, ho, h3⟩ := h _ ⟨mode, I, tSec, dt, targetKm⟩ _ _ Spec.IsSearch.over2 rfl rfl rfl (fun _ => rfl) hI
      (simulated2_weaken hs (min_le_left _ _))
    obtain ⟨y, n', h1', -, c, hc, h3'⟩ := h' _ ⟨mode, I, tSec, dt, targetKm⟩ _ _ Spec.IsSearch.under2 rfl rfl rfl (fun _ => rfl)
      hI (simulated2_weaken hs' (min_le_right _ _))
    refine ⟨x - y, max n n', ⟨o, ho, c, hc, dist h3 h3'⟩, fun fuel hfuel => ?_⟩
    unfold Vehicle.computeTCW2 Vehicle.widthOf
    simp only [h1 fuel ((le_max_left _ _).trans hfuel), h1' fuel ((le_max_right _ _).trans hfuel)]
    rfl

/-- A vehicle built without lift, with another ballistic coefficient set later. -/
theorem setBeta_mk' (m beta beta' A alpha RN : ℝ) (P : Planet) (atm : Atmosphere) (u : Bool) (f : ℝ → ℝ) (st : InitState) :
    (Vehicle.mk' m beta 0 A alpha RN P atm u f st).setBeta beta' = Vehicle.mk' m beta' 0 A alpha RN P atm u f st := by
  simp [Vehicle.setBeta, Vehicle.mk']

/-- C110: the drag-modulation corridor of the exact flights, for `computeTCWD` and `computeTCWD2` and a vehicle built without
lift (for others the searches keep the lift, C37): with an accurate enough solver the result is the distance, up to twice the
tolerance, of an angle at which the verdicts of the exact flights with ballistic coefficient `beta1` change and one at which
those with `beta1·ratio` do.  The vehicle is left with the ballistic coefficient `beta1`. -/
theorem C110_drag_widths (name : String) (F : AtmFile) (hF : (name, F) ∈ shippedFiles) (P : Planet)
    (hP : Planet.init name = .ok P) (atm : Atmosphere) (hatm : LoadedCubic P F.km (fileRows F) atm)
    (m beta beta1 ratio A alpha RN : ℝ) (u : Bool) (f : ℝ → ℝ) (st : InitState) (hf : u = true → ContDiff ℝ 1 f)
    (tSec dt targetKm L : ℝ) (ht : 0 ≤ tSec) (hdt : 0 < dt) (hL : P.hLow = some L)
    (lo o₁ o₂ u₁ u₂ hi tol : ℝ) (htol : 0 < tol) (hwide : tol < |hi - lo|) (V VO VU : Vehicle)
    (hV : V = Vehicle.mk' m beta 0 A alpha RN P atm u f st) (hVO : VO = Vehicle.mk' m beta1 0 A alpha RN P atm u f st)
    (hVU : VU = Vehicle.mk' m (beta1 * ratio) 0 A alpha RN P atm u f st) :
    (Splits (fun g => FlightVerdict (Spec.atAngle VO g) tSec dt 0 L (P.RP + 1000 * targetKm)) lo o₁ o₂ hi →
      Splits (fun g => FlightVerdict (Spec.atAngle VU g) tSec dt 0 L (P.RP + 1000 * targetKm)) lo u₁ u₂ hi →
      ∃ ρ > 0, ∀ (mode : ScipyMode) (I : Integrator), OdeintLike I → Simulated VO mode I tSec dt 0 lo hi ρ →
        Simulated VU mode I tSec dt 0 lo hi ρ →
        ∃ w n, (∃ o ∈ Set.uIcc o₁ o₂, ∃ c ∈ Set.uIcc u₁ u₂, |w - (o - c)| ≤ tol + tol) ∧ ∀ fuel, n ≤ fuel →
          Vehicle.computeTCWD ⟨mode, I, tSec, dt, targetKm⟩ fuel V beta1 ratio lo hi tol = some (VO, .ok w)) ∧
    (Splits (fun g => FlightVerdict2 (Spec.atAngle VO g) tSec dt 0 L (P.RP + 1000 * targetKm)) lo o₁ o₂ hi →
      Splits (fun g => FlightVerdict2 (Spec.atAngle VU g) tSec dt 0 L (P.RP + 1000 * targetKm)) lo u₁ u₂ hi →
      ∃ ρ > 0, ∀ (mode : ScipyMode) (I : Integrator), SolveIvpLike I → Simulated2 VO mode I tSec dt 0 lo hi ρ →
        Simulated2 VU mode I tSec dt 0 lo hi ρ →
        ∃ w n, (∃ o ∈ Set.uIcc o₁ o₂, ∃ c ∈ Set.uIcc u₁ u₂, |w - (o - c)| ≤ tol + tol) ∧ ∀ fuel, n ≤ fuel →
          Vehicle.computeTCWD2 ⟨mode, I, tSec, dt, targetKm⟩ fuel V beta1 ratio lo hi tol = some (VO, .ok w)) := by
  have dist : ∀ {x y o c : ℝ}, |x - o| ≤ tol → |y - c| ≤ tol → |x - y - (o - c)| ≤ tol + tol := fun h1 h2 => by
    rw [abs_le] at h1 h2 ⊢
    constructor <;> linarith [h1.1, h1.2, h2.1, h2.2]
  subst hV hVO hVU
  constructor
  · intro hO hU
    obtain ⟨ρ, hρ, h⟩ := bound_of_splits name F hF P hP atm hatm m beta1 0 A alpha RN u f st hf tSec dt 0 targetKm L ht hdt
      hL lo o₁ o₂ hi tol htol hwide hO
    obtain ⟨ρ', hρ', h'⟩ := bound_of_splits name F hF P hP atm hatm m (beta1 * ratio) 0 A alpha RN u f st hf tSec dt 0 targetKm L
      ht hdt hL lo u₁ u₂ hi tol htol hwide hU
    refine ⟨min ρ ρ', lt_min hρ hρ', fun mode I hI hs hs' => ?_⟩
    obtain ⟨x, n, h1, -, o, ho, h3⟩ := h (Vehicle.mk' m beta1 0 A alpha RN P atm u f st) ⟨mode, I, tSec, dt, targetKm⟩ _ _
      Spec.IsSearch.efpa rfl rfl rfl (fun _ => rfl) hI (simulated_weaken hs (min_le_left _ _))
    obtain ⟨y, n', h1', -, c, hc, h3'⟩ := h' (Vehicle.mk' m (beta1 * ratio) 0 A alpha RN P atm u f st)
      ⟨mode, I, tSec, dt, targetKm⟩ _ _ Spec.IsSearch.efpa rfl rfl rfl (fun _ => rfl) hI
      (simulated_weaken hs' (min_le_right _ _))
    refine ⟨x - y, max n n', ⟨o, ho, c, hc, dist h3 h3'⟩, fun fuel hfuel => ?_⟩
    unfold Vehicle.computeTCWD Vehicle.widthOf Vehicle.findUnderShootLimitD Vehicle.findOverShootLimitD
    simp only [setBeta_mk', h1 fuel ((le_max_left _ _).trans hfuel), h1' fuel ((le_max_right _ _).trans hfuel)]
    rfl
  · intro hO hU
    obtain ⟨ρ, hρ, h⟩ := bound_of_splits2 name F hF P hP atm hatm m beta1 0 A alpha RN u f st hf tSec dt 0 targetKm L ht hdt
      hL lo o₁ o₂ hi tol htol hwide hO
    obtain ⟨ρ', hρ', h'⟩ := bound_of_splits2 name F hF P hP atm hatm m (beta1 * ratio) 0 A alpha RN u f st hf tSec dt 0 targetKm L
      ht hdt hL lo u₁ u₂ hi tol htol hwide hU
    refine ⟨min ρ ρ', lt_min hρ hρ', fun mode I hI hs hs' => ?_⟩
    obtain ⟨x, n, h1, -, o, ho, h3⟩ := h (Vehicle.mk' m beta1 0 A alpha RN P atm u f st) ⟨mode, I, tSec, dt, targetKm⟩ _ _
      Spec.IsSearch.efpa2 rfl rfl rfl (fun _ => rfl) hI (simulated2_weaken hs (min_le_left _ _))
    obtain ⟨y, n', h1', -, c, hc, h3'⟩ := h' (Vehicle.mk' m (beta1 * ratio) 0 A alpha RN P atm u f st)
      ⟨mode, I, tSec, dt, targetKm⟩ _ _ Spec.IsSearch.efpa2 rfl rfl rfl (fun _ => rfl) hI
      (simulated2_weaken hs' (min_le_right _ _))
    refine ⟨x - y, max n n', ⟨o, ho, c, hc, dist h3 h3'⟩, fun fuel hfuel => ?_⟩
    unfold Vehicle.computeTCWD2 Vehicle.widthOf Vehicle.findUnderShootLimitD2 Vehicle.findOverShootLimitD2
    simp only [setBeta_mk', h1 fuel ((le_max_left _ _).trans hfuel), h1' fuel ((le_max_right _ _).trans hfuel)]
    rfl

/-! ### Cases -/

/-- The start of the cases: 60 km above the equator, 4 km/s to the east. -/
def caseState : InitState := ⟨60, 0, 0, 4, 0, 0, 0, 0⟩

/-- Vehicles of the cases, by ballistic coefficient and lift-to-drag ratio. -/
def caseVehicle (P : Planet) (atm : Atmosphere) (beta LD : ℝ) : Vehicle :=
  Vehicle.mk' 1000 beta LD 10 0 1 P atm true demoCurve caseState

/-- Dimensionless start at the entry angle `g`. -/
def caseStart (P : Planet) (g : ℝ) : FState := P.nonDimState (Vehicle.entryState P { caseState with gamma0Deg := g })

theorem mars_case_facts {P : Planet} (hP : Planet.init "MARS" = .ok P) :
    P.RP = 3389500 ∧ P.GM = 42828370000000 ∧ P.hThres = 120000 ∧ P.hSkip = 120000 ∧ P.hTrap = 10000 ∧
    P.OMEGA = 7.088253e-5 ∧ 3000 ≤ P.Vref ∧ P.Vref ≤ 4000 ∧ (∃ L, P.hLow = some L ∧ L < 60000) ∧
    ∀ g, (caseStart P g).r * P.RP = 3449500 ∧ 0 < (caseStart P g).r ∧ (caseStart P g).v * P.Vref = 4000 ∧
      (caseStart P g).gamma = g * π / 180 ∧ (caseStart P g).phi = 0 ∧ (caseStart P g).theta = 0 ∧ (caseStart P g).psi = 0 := by
  obtain ⟨_, hR, _, _, _, _, _, _, hV, htau, hVR, _⟩ := C01_planet_consistent "MARS" P hP
  have hRv : P.RP = 3389500 := by simp [Planet.init] at hP; subst hP; norm_num [Planet.withScales]
  have hGM : P.GM = 42828370000000 := by simp [Planet.init] at hP; subst hP; norm_num [Planet.withScales]
  have hTh : P.hThres = 120000 := by simp [Planet.init] at hP; subst hP; norm_num [Planet.withScales]
  have hSk : P.hSkip = 120000 := by simp [Planet.init] at hP; subst hP; norm_num [Planet.withScales]
  have hTr : P.hTrap = 10000 := by simp [Planet.init] at hP; subst hP; norm_num [Planet.withScales]
  have hOm : P.OMEGA = 7.088253e-5 := by simp [Planet.init] at hP; subst hP; norm_num [Planet.withScales]
  have hL : ∃ L, P.hLow = some L ∧ L < 60000 := by
    simp [Planet.init] at hP; subst hP; exact ⟨_, rfl, by norm_num⟩
  rw [hRv, hGM] at hVR
  have hV1 : 3000 ≤ P.Vref := by
    by_contra hn
    have := pow_lt_pow_left₀ (not_le.mp hn) hV.le (two_ne_zero)
    norm_num at this
    linarith
  have hV2 : P.Vref ≤ 4000 := by
    by_contra hn
    have := pow_lt_pow_left₀ (not_le.mp hn) (by norm_num : (0:ℝ) ≤ 4000) (two_ne_zero)
    norm_num at this
    linarith
  have z : (0:ℝ) * π / 180.0 = 0 := by rw [zero_mul, zero_div]
  refine ⟨hRv, hGM, hTh, hSk, hTr, hOm, hV1, hV2, hL, fun g => ?_⟩
  have hsr : (caseStart P g).r * P.RP = 3449500 := by
    change (P.RP + 60 * 1.0E3) / P.RP * P.RP = 3449500
    rw [div_mul_cancel₀ _ hR.ne', hRv]
    norm_num
  refine ⟨hsr, ?_, ?_, ?_, z, z, z⟩
  · by_contra hn
    have := mul_nonpos_of_nonpos_of_nonneg (not_lt.mp hn) hR.le
    linarith
  · change 4 * 1.000E3 / P.Vref * P.Vref = 4000
    rw [div_mul_cancel₀ _ hV.ne']
    norm_num
  · change g * π / 180.0 = g * π / 180
    norm_num

theorem case_cos {g h : ℝ} (hg : g ≤ 0) (h1 : h ≤ 180) (h2 : -h ≤ g) :
    cos (h * π / 180) ≤ cos (g * π / 180) := by
  rw [← cos_neg (g * π / 180)]
  have := pi_pos
  apply cos_le_cos_of_nonneg_of_le_pi
  · nlinarith
  · nlinarith
  · nlinarith

theorem case_cos' {g h : ℝ} (hg : -180 ≤ g) (h0 : 0 ≤ h) (h2 : g ≤ -h) :
    cos (g * π / 180) ≤ cos (h * π / 180) := by
  rw [← cos_neg (g * π / 180)]
  have := pi_pos
  apply cos_le_cos_of_nonneg_of_le_pi
  · positivity
  · nlinarith
  · nlinarith

theorem case_cosines : (∀ g ∈ Set.uIcc (-60:ℝ) 0, 1 / 2 ≤ cos (g * π / 180)) ∧
    (∀ g ∈ Set.uIcc (-60:ℝ) (-45), 1 / 2 ≤ cos (g * π / 180) ∧ cos (g * π / 180) ≤ 0.7072) ∧
    ∀ g ∈ Set.uIcc (-30:ℝ) 0, 0.866 ≤ cos (g * π / 180) := by
  have c60 : cos (60 * π / 180) = 1 / 2 := by rw [← cos_pi_div_three]; congr 1; ring
  have c45 : cos (45 * π / 180) = √2 / 2 := by rw [← cos_pi_div_four]; congr 1; ring
  have c30 : cos (30 * π / 180) = √3 / 2 := by rw [← cos_pi_div_six]; congr 1; ring
  have s2 : √2 ≤ 1.4144 := by rw [sqrt_le_left (by norm_num)]; norm_num
  have s3 : 1.732 ≤ √3 := by apply le_sqrt_of_sq_le; norm_num
  refine ⟨fun g hg => ?_, fun g hg => ?_, fun g hg => ?_⟩ <;> rw [Set.uIcc_of_le (by norm_num)] at hg
  · rw [← c60]; exact case_cos hg.2 (by norm_num) hg.1
  · refine ⟨by rw [← c60]; exact case_cos (by linarith [hg.2]) (by norm_num) hg.1, ?_⟩
    refine (case_cos' (h := 45) (by linarith [hg.1]) (by norm_num) hg.2).trans ?_
    rw [c45]; norm_num at s2 ⊢; linarith
  · refine le_trans ?_ (case_cos hg.2 (by norm_num) hg.1)
    rw [c30]; norm_num at s3 ⊢; linarith

theorem case_safe {P : Planet} (hP : Planet.init "MARS" = .ok P) :
    ∀ g ∈ Set.uIcc (-60:ℝ) 0, Safe P 59998 60000 0.2 1.4 0.2 2 (caseStart P g) := by
  obtain ⟨_, hR, _, _, _, _, _, _, hV, _⟩ := C01_planet_consistent "MARS" P hP
  obtain ⟨hRv, hGM, hTh, hSk, hTr, hOm, hV1, hV2, -, hs⟩ := mars_case_facts hP
  intro g hg
  obtain ⟨hsr, hsr0, hsv, hsg, hsp, -⟩ := hs g
  refine ⟨by rw [hsr, hRv]; norm_num, by rw [hsr, hRv]; norm_num, ?_, ?_, ?_, ?_, Or.inl ?_⟩
  · rw [← mul_le_mul_iff_left₀ hV, hsv]; norm_num; linarith
  · rw [← mul_le_mul_iff_left₀ hV, hsv]; norm_num; linarith
  · rw [hsp, cos_zero]; norm_num
  · have := case_cosines.1 g hg; rw [hsg]; norm_num; linarith
  · rw [hsr, hRv, hTh]; norm_num

/-- For finitely many vehicles and bank angles, a time for which the flights from all entry angles stay close to their
start. -/
theorem case_flights {P : Planet} (hP : Planet.init "MARS" = .ok P) {atm : Atmosphere}
    (hatm : LoadedCubic P mars.km (fileRows mars) atm) {κ : ℝ} (hκ : 0 < κ) (K : Finset (ℝ × ℝ × ℝ)) :
    ∃ T > 0, ∀ c ∈ K, ∀ g ∈ Set.uIcc (-60:ℝ) 0, ∃ (y : ℝ → FState) (S : Finset ℝ), y 0 = caseStart P g ∧
      SwitchedFlight (fun t s => (caseVehicle P atm c.1 c.2.1).EOM s t (c.2.2 * π / 180.0)) y 0 T S ∧
      ∀ t ∈ Set.Icc 0 T, Near κ (y t) (y 0) := by
  have hF : ("MARS", mars) ∈ shippedFiles := by simp [shippedFiles]
  induction K using Finset.induction_on with
  | empty => exact ⟨1, one_pos, fun c hc => by simp at hc⟩
  | insert c K _ ih =>
    obtain ⟨T, hT, h⟩ := ih
    obtain ⟨T', hT', h'⟩ := short_flights "MARS" mars hF P hP atm hatm 1000 c.1 c.2.1 10 0 1 true demoCurve caseState
      (fun _ => demoCurve_smooth) (c.2.2 * π / 180.0) 59998 60000 0.2 1.4 0.2 2 κ (by norm_num) (by norm_num) (by norm_num)
      (by norm_num) hκ (Set.uIcc (-60:ℝ) 0) isCompact_uIcc (case_safe hP)
    refine ⟨min T T', lt_min hT hT', fun c' hc' g hg => ?_⟩
    rcases Finset.mem_insert.mp hc' with rfl | hc'
    · obtain ⟨y, S, y0, hy, hn⟩ := h' g hg
      exact ⟨y, S, y0, flight_mono hy le_rfl (min_le_right _ _), fun t ht => hn t ⟨ht.1, ht.2.trans (min_le_right _ _)⟩⟩
    · obtain ⟨y, S, y0, hy, hn⟩ := h c' hc' g hg
      exact ⟨y, S, y0, flight_mono hy le_rfl (min_le_left _ _), fun t ht => hn t ⟨ht.1, ht.2.trans (min_le_left _ _)⟩⟩

/-- One step and one solver, which returns points of the exact flights, for finitely many vehicles and bank angles and all
entry angles down to 60°; the flights stay within `κ` of their start. -/
theorem mars_family {P : Planet} (hP : Planet.init "MARS" = .ok P) {atm : Atmosphere}
    (hatm : LoadedCubic P mars.km (fileRows mars) atm) {κ : ℝ} (hκ : 0 < κ) (κ1 : κ * P.RP ≤ 1) (κ2 : κ ≤ 0.1)
    (K : Finset (ℝ × ℝ × ℝ)) : ∃ (dt : ℝ) (I : Integrator), 0 < dt ∧ OdeintLike I ∧ SolveIvpLike I ∧
      ∀ c ∈ K, (∀ g ∈ Set.uIcc (-60:ℝ) 0, FlightEnds (Spec.atAngle (caseVehicle P atm c.1 c.2.1) g) dt dt c.2.2
        (fun s => Near κ s (caseStart P g)) (fun s => Near κ s (caseStart P g))) ∧
        ∀ ρ > 0, Simulated (caseVehicle P atm c.1 c.2.1) .strict I dt dt c.2.2 (-60) 0 ρ ∧
          Simulated2 (caseVehicle P atm c.1 c.2.1) .strict I dt dt c.2.2 (-60) 0 ρ := by
  obtain ⟨_, hR, _, _, _, _, _, _, hV, htau, _⟩ := C01_planet_consistent "MARS" P hP
  obtain ⟨hRv, hGM, hTh, hSk, hTr, hOm, hV1, hV2, -, hs⟩ := mars_case_facts hP
  obtain ⟨T, hT, hfl⟩ := case_flights hP hatm hκ K
  have hfl' : ∀ (f : ℝ → FState → FState) (s : FState), ∃ (y : ℝ → FState),
      (∃ (z : ℝ → FState) (S : Finset ℝ), z 0 = s ∧ SwitchedFlight f z 0 T S ∧ ∀ t ∈ Set.Icc 0 T, Near κ (z t) (z 0)) →
      ∃ S : Finset ℝ, y 0 = s ∧ SwitchedFlight f y 0 T S ∧ ∀ t ∈ Set.Icc 0 T, Near κ (y t) (y 0) := by
    intro f s
    by_cases h : ∃ (z : ℝ → FState) (S : Finset ℝ), z 0 = s ∧ SwitchedFlight f z 0 T S ∧ ∀ t ∈ Set.Icc 0 T, Near κ (z t) (z 0)
    · obtain ⟨z, S, h⟩ := h
      exact ⟨z, fun _ => ⟨S, h⟩⟩
    · exact ⟨fun _ => s, fun h' => absurd h' h⟩
  choose Y hY using hfl'
  set dt := P.tau * T / 2 with hdt
  have hdt0 : 0 < dt := by positivity
  have eT : (dt + dt) / P.tau = T := by rw [hdt]; field_simp; norm_num
  have hceil : ⌈dt / dt⌉₊ = 1 := by rw [div_self hdt0.ne', Nat.ceil_one]
  have hedge : ∀ j : ℕ, j ≤ 1 → (j:ℝ) * dt / P.tau ∈ Set.Icc 0 T := by
    intro j hj
    have e : (j:ℝ) * dt / P.tau = j * T / 2 := by rw [hdt]; field_simp
    rw [e]
    have : (j:ℝ) ≤ 1 := by exact_mod_cast hj
    exact ⟨by positivity, by nlinarith⟩
  have hmem : ∀ t ∈ Vehicle.tGrid P dt dt, t ∈ Set.Icc 0 T := by
    intro t ht
    obtain ⟨g1, g2⟩ := tGrid_get "MARS" P hP dt dt hdt0.le hdt0
    obtain ⟨j, hj⟩ := List.mem_iff_getElem?.mp ht
    have hjl := (List.getElem?_eq_some_iff.mp hj).1
    rw [g1] at hjl
    rw [g2 j hjl] at hj
    rw [hceil] at hjl
    obtain rfl := Option.some.inj hj
    exact hedge j (by omega)
  set I : Integrator := fun f y0 grid => traceIntegrator (Y f y0) f y0 grid with hI
  have hIo : OdeintLike I := fun f y0 grid => traceIntegrator_ok _ f y0 grid
  refine ⟨dt, I, hdt0, hIo, fun f y0 grid => ⟨by rw [(hIo f y0 grid).1], fun hg hn => hg ?_, (hIo f y0 grid).2⟩, fun c hc => ?_⟩
  · have := (hIo f y0 grid).1
    rw [hn] at this
    exact this.symm
  set V := caseVehicle P atm c.1 c.2.1 with hVdef
  set G : ℝ → FState → FState := fun t s => V.EOM s t (c.2.2 * π / 180.0) with hG
  have hy' : ∀ g ∈ Set.uIcc (-60:ℝ) 0, ∃ S : Finset ℝ, Y G (caseStart P g) 0 = caseStart P g ∧
      SwitchedFlight G (Y G (caseStart P g)) 0 T S ∧
      ∀ t ∈ Set.Icc 0 T, Near κ (Y G (caseStart P g) t) (Y G (caseStart P g) 0) :=
    fun g hg => hY G (caseStart P g) (hfl c hc g hg)
  have halt : ∀ g ∈ Set.uIcc (-60:ℝ) 0, ∀ t ∈ Set.Icc 0 T, 59999 ≤ (Y G (caseStart P g) t).r * P.RP - P.RP ∧
      (Y G (caseStart P g) t).r * P.RP - P.RP ≤ 60001 := by
    intro g hg t ht
    obtain ⟨S, y0, -, hn⟩ := hy' g hg
    have h1 : |(Y G (caseStart P g) t).r * P.RP - (Y G (caseStart P g) 0).r * P.RP| ≤ 1 := by
      rw [← sub_mul, abs_mul, abs_of_pos hR]
      exact (mul_le_mul_of_nonneg_right (hn t ht).r hR.le).trans κ1
    rw [y0, (hs g).1] at h1
    have := abs_le.mp h1
    rw [hRv] at this ⊢
    exact ⟨by linarith, by linarith⟩
  have hsam : ∀ g ∈ Set.uIcc (-60:ℝ) 0, samples (Spec.atAngle V g) I dt dt c.2.2 =
      (Vehicle.tGrid P dt dt).map fun t => (t, Y G (caseStart P g) t) := by
    intro g hg
    obtain ⟨S, y0, -⟩ := hy' g hg
    obtain ⟨g1, g2⟩ := tGrid_get "MARS" P hP dt dt hdt0.le hdt0
    have g0 := g2 0 (by omega)
    change traceIntegrator (Y G (caseStart P g)) G (caseStart P g) (Vehicle.tGrid P dt dt) = _
    cases hgr : Vehicle.tGrid P dt dt with
    | nil => rw [hgr] at g1; simp at g1
    | cons t ts =>
      rw [hgr] at g0
      simp only [List.getElem?_cons_zero, Nat.cast_zero, zero_mul, zero_div, Option.some.injEq] at g0
      subst g0
      simp only [traceIntegrator, List.map_cons, y0]
  refine ⟨fun g hg => ?_, fun ρ hρ => ?_⟩
  · obtain ⟨S, y0, hy, hn⟩ := hy' g hg
    refine ⟨Y G (caseStart P g), S, 1, y0, ?_, ?_, ?_, ?_, ?_⟩
    · change SwitchedFlight _ _ 0 ((dt + dt) / P.tau) _
      rw [eT]; exact hy
    · change ∀ t ∈ Set.Icc 0 ((dt + dt) / P.tau), Departure P (Y G (caseStart P g) t) ∧ _
      rw [eT]
      intro t ht
      have hn' : Near κ (Y G (caseStart P g) t) (caseStart P g) := by
        have := hn t ht
        rwa [y0] at this
      have := safe_near hR (case_safe hP g hg) hn' (by linarith) κ1 (by linarith)
        (by norm_num at κ2 ⊢; linarith) (by norm_num at κ2; linarith) (by norm_num at κ2 ⊢; linarith)
      exact ⟨this.departure (by norm_num) (by norm_num) (by norm_num) (by norm_num), hn'⟩
    · intro j _ hj
      rw [hceil] at hj
      have := halt g hg _ (hedge j hj)
      change (Y G (caseStart P g) (j * dt / P.tau)).r * P.RP - P.RP ≠ P.hTrap ∧
        (Y G (caseStart P g) (j * dt / P.tau)).r * P.RP - P.RP ≠ P.hSkip
      rw [hTr, hSk]
      exact ⟨fun h => by linarith [this.1], fun h => by linarith [this.2]⟩
    · refine Or.inr (Or.inr ⟨by rw [hceil], fun j hj => ?_⟩)
      rw [hceil] at hj
      have := halt g hg _ (hedge j (by omega))
      change P.hTrap < (Y G (caseStart P g) (j * dt / P.tau)).r * P.RP - P.RP ∧
        (Y G (caseStart P g) (j * dt / P.tau)).r * P.RP - P.RP ≤ P.hSkip
      rw [hTr, hSk]
      exact ⟨by linarith [this.1], by linarith [this.2]⟩
    · have := hn _ (hedge 1 le_rfl)
      rwa [y0] at this
  · have both : ∀ g ∈ Set.uIcc (-60:ℝ) 0, SolvedWithin (Spec.atAngle V g) I dt dt c.2.2 ρ ∧
        SolvedWithin2 (Spec.atAngle V g) I dt dt c.2.2 ρ ∧
        ∃ out, (Spec.atAngle V g).propogateEntry .strict I dt dt c.2.2 = .ok out := by
      intro g hg
      obtain ⟨S, y0, hy, hn⟩ := hy' g hg
      have q1 : NearFlight G (Y G (caseStart P g)) 0 ((dt + dt) / P.tau) S ρ := by
        rw [eT]
        exact flight_nearFlight hy hρ.le
      have q2 : ∀ p ∈ samples (Spec.atAngle V g) I dt dt c.2.2, Near ρ p.2 (Y G (caseStart P g) p.1) := by
        intro p hp
        rw [hsam g hg] at hp
        obtain ⟨t, -, rfl⟩ := List.mem_map.mp hp
        have e : ∀ a : ℝ, |a - a| ≤ ρ := fun a => by rw [sub_self, abs_zero]; exact hρ.le
        exact ⟨e _, e _, e _, e _, e _, e _, e _⟩
      refine ⟨⟨_, S, y0, q1, q2⟩, ⟨_, S, y0, q1, q2, fun _ => (hIo _ _ _).1⟩, ?_⟩
      have hall : ∀ p ∈ samples (Spec.atAngle V g) I dt dt c.2.2, 59999 ≤ p.2.r * P.RP - P.RP ∧
          p.2.r * P.RP - P.RP ≤ 60001 := by
        intro p hp
        rw [hsam g hg] at hp
        obtain ⟨t, ht, rfl⟩ := List.mem_map.mp hp
        exact halt g hg t (hmem t ht)
      cases hsp' : samples (Spec.atAngle V g) I dt dt c.2.2 with
      | nil =>
        rw [hsam g hg] at hsp'
        have := congrArg List.length hsp'
        rw [List.length_map, (tGrid_get "MARS" P hP dt dt hdt0.le hdt0).1] at this
        simp at this
      | cons p Q =>
        rw [hsp'] at hall
        have hp := hall p List.mem_cons_self
        refine C24_returns_inside "MARS" (Spec.atAngle V g) hP .strict I dt dt c.2.2 p Q hsp' ?_ ?_ ?_
        · change P.hTrap ≤ p.2.r * P.RP - P.RP
          rw [hTr]; linarith [hp.1]
        · change p.2.r * P.RP - P.RP ≤ P.hSkip
          rw [hSk]; linarith [hp.2]
        · rintro ⟨⟨q, hq, hq1⟩, -⟩
          change q.2.r * P.RP - P.RP = P.hTrap at hq1
          have := (hall q hq).1
          rw [hTr] at hq1
          linarith
    exact ⟨fun g hg => ⟨(both g hg).1, (both g hg).2.2⟩, fun g hg => ⟨(both g hg).2.1, (both g hg).2.2⟩⟩

theorem orbit_margin2_uniform {name : String} {P : Planet} (hP : Planet.init name = .ok P) {L rho : ℝ} {ans : ℤ} {K : Set ℝ}
    (hK : IsCompact K) (st : InitState)
    (hr : ∀ g ∈ K, 0 < (P.nonDimState (Vehicle.entryState P { st with gamma0Deg := g })).r)
    (h : ∀ g ∈ K, (ans = -1 ∧ RisesBeyond2 P L rho (P.nonDimState (Vehicle.entryState P { st with gamma0Deg := g }))) ∨
      (ans = 1 ∧ FallsShort2 P L rho (P.nonDimState (Vehicle.entryState P { st with gamma0Deg := g })))) :
    ∃ ε > 0, ∀ g ∈ K, ∀ s', Near ε s' (P.nonDimState (Vehicle.entryState P { st with gamma0Deg := g })) →
      (ans = -1 ∧ RisesBeyond2 P L rho s') ∨ (ans = 1 ∧ FallsShort2 P L rho s') := by
  refine hK.induction_on (p := fun K' => ∃ ε > 0, ∀ g ∈ K', ∀ s',
      Near ε s' (P.nonDimState (Vehicle.entryState P { st with gamma0Deg := g })) →
      (ans = -1 ∧ RisesBeyond2 P L rho s') ∨ (ans = 1 ∧ FallsShort2 P L rho s'))
      ⟨1, one_pos, fun g h => absurd h (by simp)⟩ ?_ ?_ ?_
  · rintro s t hst ⟨ε, hε, h⟩
    exact ⟨ε, hε, fun g hg => h g (hst hg)⟩
  · rintro s t ⟨ε, hε, h⟩ ⟨ε', hε', h'⟩
    refine ⟨min ε ε', lt_min hε hε', fun g hg s' hs' => ?_⟩
    rcases hg with hg | hg
    · exact h g hg s' (Near.mono hs' (min_le_left _ _))
    · exact h' g hg s' (Near.mono hs' (min_le_right _ _))
  · intro g₀ hg₀
    obtain ⟨ε, hε, hm⟩ := orbit_margin2 hP (hr g₀ hg₀) (h g₀ hg₀)
    refine ⟨Metric.closedBall g₀ (ε / 2), mem_nhdsWithin_of_mem_nhds (Metric.closedBall_mem_nhds _ (by linarith)), ε / 2,
      by linarith, fun g hg s' hs' => hm s' ?_⟩
    rw [Metric.mem_closedBall, Real.dist_eq] at hg
    have weak : ∀ {a b : ℝ}, |a - b| ≤ ε / 2 → |a - b| ≤ ε := fun hx => by linarith
    refine ⟨weak hs'.r, weak hs'.theta, weak hs'.phi, weak hs'.v, weak hs'.psi, ?_, weak hs'.drange⟩
    have h1 : |s'.gamma - g * π / 180.0| ≤ ε / 2 := hs'.gamma
    change |s'.gamma - g₀ * π / 180.0| ≤ ε
    have h2 := abs_sub_le s'.gamma (g * π / 180.0) (g₀ * π / 180.0)
    have h3 : |g * π / 180.0 - g₀ * π / 180.0| ≤ ε / 2 := by
      rw [show (180.0:ℝ) = 180 by norm_num, show g * π / 180 - g₀ * π / 180 = (g - g₀) * (π / 180) by ring, abs_mul,
        abs_of_pos (show 0 < π / 180 by positivity)]
      have h4 := pi_le_four
      have : |g - g₀| * (π / 180) ≤ |g - g₀| * 1 := mul_le_mul_of_nonneg_left (by linarith) (abs_nonneg _)
      linarith
    linarith

/-- The verdicts at the start: relative to the planet for the radius of 8000 km, in inertial space for 9800 km. -/
theorem case_verdicts {P : Planet} (hP : Planet.init "MARS" = .ok P) {L : ℝ} (hL : L < 60000) :
    (∀ g ∈ Set.uIcc (-60:ℝ) (-45), RisesBeyond P L (P.RP + 1000 * 4610.5) (caseStart P g) ∧
      RisesBeyond2 P L (P.RP + 1000 * 6410.5) (caseStart P g)) ∧
    ∀ g ∈ Set.uIcc (-30:ℝ) 0, FallsShort P L (P.RP + 1000 * 4610.5) (caseStart P g) ∧
      FallsShort2 P L (P.RP + 1000 * 6410.5) (caseStart P g) := by
  obtain ⟨hRv, hGM, hTh, hSk, hTr, hOm, hV1, hV2, -, hs⟩ := mars_case_facts hP
  obtain ⟨hc60, hc45, hc30⟩ := case_cosines
  have hrad : ∀ g, radialSqAt P (P.RP + 1000 * 4610.5) (caseStart P g) =
      2 * (8000000 - 42828370000000 / 3449500 + 42828370000000 / 8000000)
        - (3449500 * 4000 / 8000000) ^ 2 * cos (g * π / 180) ^ 2 := by
    intro g
    obtain ⟨hsr, hsr0, hsv, hsg, -⟩ := hs g
    unfold radialSqAt radialSq
    rw [hsr, hsv, hsg, hGM, hRv]
    generalize cos (g * π / 180) = x
    norm_num
    ring
  have hvel : ∀ g, inertialVel P (caseStart P g) =
      ⟨4000 * sin (g * π / 180), 4000 * cos (g * π / 180) + P.OMEGA * 3449500, 0⟩ := by
    intro g
    obtain ⟨hsr, hsr0, hsv, hsg, hsp, hst, hspsi⟩ := hs g
    unfold inertialVel
    rw [hsr, hsv, hsg, hsp, hst, hspsi]
    ext <;> simp [vel, along, horiz, pos, V3.cross, spin, up, east, north]
  have hpos : ∀ g, pos ((caseStart P g).r * P.RP) (caseStart P g).theta (caseStart P g).phi = ⟨3449500, 0, 0⟩ := by
    intro g
    obtain ⟨hsr, hsr0, hsv, hsg, hsp, hst, hspsi⟩ := hs g
    rw [hsr, hsp, hst]
    ext <;> simp [pos, up]
  have hin : ∀ g, inertialSqAt P (P.RP + 1000 * 6410.5) (caseStart P g) =
      (4000 ^ 2 + 8000 * (P.OMEGA * 3449500) * cos (g * π / 180) + (P.OMEGA * 3449500) ^ 2) - 2 * (42828370000000 / 3449500)
        + 2 * (42828370000000 / 9800000)
        - (3449500 / 9800000) ^ 2 * (4000 * cos (g * π / 180) + P.OMEGA * 3449500) ^ 2 := by
    intro g
    unfold inertialSqAt radialSq energy angMom
    rw [div_pow, V3.norm_sq, V3.norm_sq, hpos, hvel, hGM,
      V3.norm_eq_of_sq (a := (⟨3449500, 0, 0⟩ : V3)) (c := 3449500) (by norm_num) (by simp [V3.dot]; norm_num),
      show P.RP + 1000 * 6410.5 = 9800000 by rw [hRv]; norm_num]
    simp only [V3.dot, V3.cross]
    have hsq := sin_sq_add_cos_sq (g * π / 180)
    generalize cos (g * π / 180) = c at *
    generalize sin (g * π / 180) = s at *
    generalize P.OMEGA = w at *
    have : s ^ 2 = 1 - c ^ 2 := by linarith
    ring_nf
    rw [this]
    ring
  have hmove : ∀ g ∈ Set.uIcc (-60:ℝ) 0, inertialVel P (caseStart P g) ≠ 0 := by
    intro g hg h
    rw [hvel] at h
    have h1 := congrArg V3.y h
    have h2 := hc60 g hg
    simp at h1
    rw [hOm] at h1
    norm_num at h1
    linarith
  refine ⟨fun g hg => ?_, fun g hg => ?_⟩
  · obtain ⟨c1, c2⟩ := hc45 g hg
    have hg' : g ∈ Set.uIcc (-60:ℝ) 0 := by
      rw [Set.uIcc_of_le (by norm_num)] at hg ⊢
      exact ⟨hg.1, by linarith [hg.2]⟩
    refine ⟨⟨by rw [(hs g).1, hRv]; linarith, Or.inr ?_⟩, hmove g hg', by rw [(hs g).1, hRv]; linarith, Or.inr ?_⟩
    · rw [hrad]
      generalize cos (g * π / 180) = c at *
      norm_num at c2 ⊢
      nlinarith
    · rw [hin, hOm]
      generalize cos (g * π / 180) = c at *
      norm_num at c2 ⊢
      nlinarith
  · have c1 := hc30 g hg
    have c2 := cos_le_one (g * π / 180)
    have hg' : g ∈ Set.uIcc (-60:ℝ) 0 := by
      rw [Set.uIcc_of_le (by norm_num)] at hg ⊢
      exact ⟨by linarith [hg.1], hg.2⟩
    refine ⟨Or.inr ⟨by rw [(hs g).1, hRv]; norm_num, ?_⟩, hmove g hg', Or.inr ⟨by rw [(hs g).1, hRv]; norm_num, ?_⟩⟩
    · rw [hrad]
      generalize cos (g * π / 180) = c at *
      norm_num at c1 ⊢
      nlinarith
    · rw [hin, hOm]
      generalize cos (g * π / 180) = c at *
      norm_num at c1 ⊢
      nlinarith

/-- The cases: for finitely many vehicles and bank angles, flights whose verdicts change between 45° and 30° below the
horizontal, simulated exactly. -/
theorem mars_case (K : Finset (ℝ × ℝ × ℝ)) : ∃ (P : Planet) (atm : Atmosphere) (L dt : ℝ) (I : Integrator),
    Planet.init "MARS" = .ok P ∧ LoadedCubic P mars.km (fileRows mars) atm ∧ P.hLow = some L ∧ 0 < dt ∧ OdeintLike I ∧
    SolveIvpLike I ∧ ∀ c ∈ K,
      Splits (fun g => FlightVerdict (Spec.atAngle (caseVehicle P atm c.1 c.2.1) g) dt dt c.2.2 L (P.RP + 1000 * 4610.5))
        (-60) (-45) (-30) 0 ∧
      Splits (fun g => FlightVerdict2 (Spec.atAngle (caseVehicle P atm c.1 c.2.1) g) dt dt c.2.2 L (P.RP + 1000 * 6410.5))
        (-60) (-45) (-30) 0 ∧
      (∀ g ∈ Set.uIcc (-60:ℝ) 0, FlightEnds (Spec.atAngle (caseVehicle P atm c.1 c.2.1) g) dt dt c.2.2 (fun _ => True)
        (fun s => ((-1 : ℤ) = -1 ∧ (s.v * P.Vref) ^ 2 / 2 < P.GM / (s.r * P.RP)) ∨
          ((-1 : ℤ) = 1 ∧ P.GM / (s.r * P.RP) < (s.v * P.Vref) ^ 2 / 2))) ∧
      ∀ ρ > 0, Simulated (caseVehicle P atm c.1 c.2.1) .strict I dt dt c.2.2 (-60) 0 ρ ∧
        Simulated2 (caseVehicle P atm c.1 c.2.1) .strict I dt dt c.2.2 (-60) 0 ρ := by
  obtain ⟨P, hP⟩ := (C01_planet_names "MARS").1.mpr (by simp [Spec.bodies])
  have hF : ("MARS", mars) ∈ shippedFiles := by simp [shippedFiles]
  obtain ⟨atm, hatm⟩ := (C85_loads "MARS" mars hF P hP).1
  obtain ⟨_, hR, _, _, _, _, _, _, hV, htau, _⟩ := C01_planet_consistent "MARS" P hP
  obtain ⟨hRv, hGM, hTh, hSk, hTr, hOm, hV1, hV2, ⟨L, hL, hL1⟩, hs⟩ := mars_case_facts hP
  obtain ⟨hA, hB⟩ := case_verdicts hP hL1
  obtain ⟨ε₁, hε₁, m₁⟩ := orbit_margin_uniform hP isCompact_uIcc caseState (fun g _ => (hs g).2.1) (ans := -1)
    (fun g hg => Or.inl ⟨rfl, (hA g hg).1⟩)
  obtain ⟨ε₂, hε₂, m₂⟩ := orbit_margin_uniform hP isCompact_uIcc caseState (fun g _ => (hs g).2.1) (ans := 1)
    (fun g hg => Or.inr ⟨rfl, (hB g hg).1⟩)
  obtain ⟨ε₃, hε₃, m₃⟩ := orbit_margin2_uniform hP isCompact_uIcc caseState (fun g _ => (hs g).2.1) (ans := -1)
    (fun g hg => Or.inl ⟨rfl, (hA g hg).2⟩)
  obtain ⟨ε₄, hε₄, m₄⟩ := orbit_margin2_uniform hP isCompact_uIcc caseState (fun g _ => (hs g).2.1) (ans := 1)
    (fun g hg => Or.inr ⟨rfl, (hB g hg).2⟩)
  set κ := min (min (1 / P.RP) 0.1) (min (min ε₁ ε₂) (min ε₃ ε₄)) with hκ
  have hκ0 : 0 < κ := lt_min (lt_min (by positivity) (by norm_num)) (lt_min (lt_min hε₁ hε₂) (lt_min hε₃ hε₄))
  obtain ⟨⟨κ1', κ2⟩, ⟨κa, κb⟩, κc, κd⟩ : (κ ≤ 1 / P.RP ∧ κ ≤ 0.1) ∧ (κ ≤ ε₁ ∧ κ ≤ ε₂) ∧ κ ≤ ε₃ ∧ κ ≤ ε₄ := by
    have := le_refl κ
    nth_rewrite 2 [hκ] at this
    simpa only [le_min_iff] using this
  have κ1 : κ * P.RP ≤ 1 := by rwa [← le_div_iff₀ hR]
  obtain ⟨dt, I, hdt, hI1, hI2, hK⟩ := mars_family hP hatm hκ0 κ1 κ2 K
  refine ⟨P, atm, L, dt, I, hP, hatm, hL, hdt, hI1, hI2, fun c hc => ?_⟩
  obtain ⟨hE, hsim⟩ := hK c hc
  have sub1 : ∀ g ∈ Set.uIcc (-60:ℝ) (-45), g ∈ Set.uIcc (-60:ℝ) 0 := fun g hg => by
    rw [Set.uIcc_of_le (by norm_num)] at hg ⊢
    exact ⟨hg.1, by linarith [hg.2]⟩
  have sub2 : ∀ g ∈ Set.uIcc (-30:ℝ) 0, g ∈ Set.uIcc (-60:ℝ) 0 := fun g hg => by
    rw [Set.uIcc_of_le (by norm_num)] at hg ⊢
    exact ⟨by linarith [hg.1], hg.2⟩
  -- relative to the planet
  have rel : ∀ (ans : ℤ) (g : ℝ), g ∈ Set.uIcc (-60:ℝ) 0 →
      (∀ s', Near κ s' (caseStart P g) → (ans = -1 ∧ RisesBeyond P L (P.RP + 1000 * 4610.5) s') ∨
        (ans = 1 ∧ FallsShort P L (P.RP + 1000 * 4610.5) s')) →
      FlightVerdict (Spec.atAngle (caseVehicle P atm c.1 c.2.1) g) dt dt c.2.2 L (P.RP + 1000 * 4610.5) ans := by
    intro ans g hg hm
    obtain ⟨y, S, k, h1, h2, h3, h4, h5, h6⟩ := hE g hg
    exact ⟨y, S, k, h1, h2, fun t ht => (h3 t ht).1, h4, h5, hm _ h6⟩
  -- in inertial space
  have steep : ∀ g ∈ Set.uIcc (-60:ℝ) 0, ∀ s, Near κ s (caseStart P g) → -(88 * (π / 180)) < s.gamma := by
    intro g hg s hn
    rw [Set.uIcc_of_le (by norm_num)] at hg
    have h1 := (abs_le.mp hn.gamma).1
    rw [(hs g).2.2.2.1] at h1
    have h2 := two_le_pi
    norm_num at κ2
    nlinarith [hg.1]
  have ine : ∀ (ans : ℤ) (g : ℝ), g ∈ Set.uIcc (-60:ℝ) 0 →
      (∀ s', Near κ s' (caseStart P g) → (ans = -1 ∧ RisesBeyond2 P L (P.RP + 1000 * 6410.5) s') ∨
        (ans = 1 ∧ FallsShort2 P L (P.RP + 1000 * 6410.5) s')) →
      FlightVerdict2 (Spec.atAngle (caseVehicle P atm c.1 c.2.1) g) dt dt c.2.2 L (P.RP + 1000 * 6410.5) ans :=
    fun ans g hg hm => flightEnds_mono (hE g hg) (steep g hg) hm
  refine ⟨⟨Or.inl (by norm_num), -1, 1, by norm_num, fun g hg => ?_, fun g hg => ?_⟩,
    ⟨Or.inl (by norm_num), -1, 1, by norm_num, fun g hg => ?_, fun g hg => ?_⟩, fun g hg => ?_, hsim⟩
  · exact rel (-1) g (sub1 g hg) fun s' hs' => m₁ g hg s' (Near.mono hs' κa)
  · exact rel 1 g (sub2 g hg) fun s' hs' => m₂ g hg s' (Near.mono hs' κb)
  · exact ine (-1) g (sub1 g hg) fun s' hs' => m₃ g hg s' (Near.mono hs' κc)
  · exact ine 1 g (sub2 g hg) fun s' hs' => m₄ g hg s' (Near.mono hs' κd)
  · refine flightEnds_mono (hE g hg) (fun _ _ => trivial) fun s hn => Or.inl ⟨rfl, ?_⟩
    obtain ⟨hsr, -, hsv, -⟩ := hs g
    have h1 : |s.r * P.RP - 3449500| ≤ 1 := by
      rw [← hsr, ← sub_mul, abs_mul, abs_of_pos hR]
      exact (mul_le_mul_of_nonneg_right hn.r hR.le).trans κ1
    have h2 : |s.v * P.Vref - 4000| ≤ 400 := by
      rw [← hsv, ← sub_mul, abs_mul, abs_of_pos hV]
      have := mul_le_mul hn.v hV2 hV.le (by linarith)
      norm_num at κ2
      linarith
    rw [abs_le] at h1 h2
    rw [lt_div_iff₀ (by linarith [h1.1]), hGM]
    have h3 : (s.v * P.Vref) ^ 2 ≤ 4400 ^ 2 := pow_le_pow_left₀ (by linarith [h2.1]) (by linarith [h2.2]) 2
    have h4 : (s.v * P.Vref) ^ 2 / 2 * (s.r * P.RP) ≤ 4400 ^ 2 / 2 * 3449501 :=
      mul_le_mul (by linarith) (by linarith [h1.2]) (by linarith [h1.1]) (by norm_num)
    norm_num at h4
    linarith

/-- Case for `C110_capture_of_flight`: the vehicle at 45° is captured. -/
example : ∃ (P : Planet) (atm : Atmosphere) (dt : ℝ) (I : Integrator), 0 < dt ∧
    (Spec.atAngle (caseVehicle P atm 100 0.2) (-45)).isCaptured .strict I dt dt 0 = .ok (-1) := by
  have hF : ("MARS", mars) ∈ shippedFiles := by simp [shippedFiles]
  obtain ⟨P, atm, L, dt, I, hP, hatm, hL, hdt, hI, -, hK⟩ := mars_case {(100, 0.2, 0)}
  obtain ⟨-, -, hcap, hsim⟩ := hK _ (Finset.mem_singleton_self _)
  have hg : (-45:ℝ) ∈ Set.uIcc (-60:ℝ) 0 := by rw [Set.uIcc_of_le (by norm_num)]; norm_num
  obtain ⟨ρ, hρ, h⟩ := C110_capture_of_flight "MARS" mars hF P hP atm hatm 1000 100 0.2 10 0 1 true demoCurve caseState
    (fun _ => demoCurve_smooth) dt dt 0 hdt.le hdt (-45) (-1) (hcap _ hg)
  obtain ⟨h1, out, h2⟩ := (hsim ρ hρ).1 _ hg
  exact ⟨P, atm, dt, I, hdt, h _ I .strict out (by rw [sub_self, abs_zero]; exact hρ.le) hI h1 h2⟩

/-- Case for `C110_verdict2_of_flights`, and with it `C110_verdict2_of_flight`: the verdicts of steep and of flat entries. -/
example : ∃ (P : Planet) (atm : Atmosphere) (dt : ℝ) (I : Integrator) (a b : ℤ), 0 < dt ∧ a ≠ b ∧
    (∀ g ∈ Set.uIcc (-60:ℝ) (-45),
      (Spec.atAngle (caseVehicle P atm 100 0.2) g).hitsTargetApoapsis2 .strict I dt dt 0 6410.5 = .ok a) ∧
    ∀ g ∈ Set.uIcc (-30:ℝ) 0,
      (Spec.atAngle (caseVehicle P atm 100 0.2) g).hitsTargetApoapsis2 .strict I dt dt 0 6410.5 = .ok b := by
  have hF : ("MARS", mars) ∈ shippedFiles := by simp [shippedFiles]
  obtain ⟨P, atm, L, dt, I, hP, hatm, hL, hdt, -, hI, hK⟩ := mars_case {(100, 0.2, 0)}
  obtain ⟨-, ⟨-, a, b, hab, ha, hb⟩, -, hsim⟩ := hK _ (Finset.mem_singleton_self _)
  obtain ⟨ρ, hρ, h⟩ := C110_verdict2_of_flights "MARS" mars hF P hP atm hatm 1000 100 0.2 10 0 1 true demoCurve caseState
    (fun _ => demoCurve_smooth) dt dt 0 6410.5 L hdt.le hdt hL _ isCompact_uIcc a ha
  obtain ⟨ρ', hρ', h'⟩ := C110_verdict2_of_flights "MARS" mars hF P hP atm hatm 1000 100 0.2 10 0 1 true demoCurve caseState
    (fun _ => demoCurve_smooth) dt dt 0 6410.5 L hdt.le hdt hL _ isCompact_uIcc b hb
  refine ⟨P, atm, dt, I, a, b, hdt, hab, fun g hg => ?_, fun g hg => ?_⟩
  · obtain ⟨h1, out, h2⟩ := (hsim ρ hρ).2 g (by
      rw [Set.uIcc_of_le (by norm_num)] at hg ⊢
      exact ⟨hg.1, by linarith [hg.2]⟩)
    exact h g I .strict out hg hI h1 h2
  · obtain ⟨h1, out, h2⟩ := (hsim ρ' hρ').2 g (by
      rw [Set.uIcc_of_le (by norm_num)] at hg ⊢
      exact ⟨by linarith [hg.1], hg.2⟩)
    exact h' g I .strict out hg hI h1 h2

/-- Case for `C110_limits2`: searching from 60° to 0 with a tolerance of 0.1°, both searches return limits within 0.1° of an
angle between 45° and 30° below the horizontal. -/
example : ∃ (P : Planet) (atm : Atmosphere) (dt : ℝ) (I : Integrator) (x y : ℝ) (n : ℕ), 0 < dt ∧
    (∃ c ∈ Set.uIcc (-45:ℝ) (-30), |x - c| ≤ 0.1) ∧ (∃ c ∈ Set.uIcc (-45:ℝ) (-30), |y - c| ≤ 0.1) ∧
    Vehicle.findOverShootLimit2 ⟨.strict, I, dt, dt, 6410.5⟩ n (caseVehicle P atm 100 0.2) (-60) 0 0.1 =
      some (caseVehicle P atm 100 0.2, .ok (x, 1)) ∧
    Vehicle.findUnderShootLimit2 ⟨.strict, I, dt, dt, 6410.5⟩ n (caseVehicle P atm 100 0.2) (-60) 0 0.1 =
      some (caseVehicle P atm 100 0.2, .ok (y, 1)) := by
  have hF : ("MARS", mars) ∈ shippedFiles := by simp [shippedFiles]
  obtain ⟨P, atm, L, dt, I, hP, hatm, hL, hdt, -, hI, hK⟩ := mars_case {(100, 0.2, 180), (100, 0.2, 0)}
  obtain ⟨-, hO, -, hsO⟩ := hK (100, 0.2, 180) (by simp)
  obtain ⟨-, hU, -, hsU⟩ := hK (100, 0.2, 0) (by simp)
  obtain ⟨h, h'⟩ := C110_limits2 "MARS" mars hF P hP atm hatm 1000 100 0.2 10 0 1 true demoCurve caseState
    (fun _ => demoCurve_smooth) dt dt 6410.5 L hdt.le hdt hL (-60) (-45) (-30) 0 0.1 (by norm_num) (by norm_num) _ rfl
  obtain ⟨ρ, hρ, h⟩ := h hO
  obtain ⟨ρ', hρ', h'⟩ := h' hU
  obtain ⟨x, n, -, x1, x2⟩ := h .strict I hI (hsO ρ hρ).2
  obtain ⟨y, n', -, y1, y2⟩ := h' .strict I hI (hsU ρ' hρ').2
  exact ⟨P, atm, dt, I, x, y, max n n', hdt, x1, y1, x2 _ (le_max_left _ _), y2 _ (le_max_right _ _)⟩

/-- Case for `C110_widths`: the same searches for the two corridor widths. -/
example : ∃ (P : Planet) (atm : Atmosphere) (dt : ℝ) (I : Integrator) (w w' : ℝ) (n : ℕ), 0 < dt ∧ |w| ≤ 15.2 ∧ |w'| ≤ 15.2 ∧
    Vehicle.computeTCW ⟨.strict, I, dt, dt, 4610.5⟩ n (caseVehicle P atm 100 0.2) (-60) 0 (-60) 0 0.1 0.1 =
      some (caseVehicle P atm 100 0.2, .ok w) ∧
    Vehicle.computeTCW2 ⟨.strict, I, dt, dt, 6410.5⟩ n (caseVehicle P atm 100 0.2) (-60) 0 (-60) 0 0.1 0.1 =
      some (caseVehicle P atm 100 0.2, .ok w') := by
  have hF : ("MARS", mars) ∈ shippedFiles := by simp [shippedFiles]
  obtain ⟨P, atm, L, dt, I, hP, hatm, hL, hdt, hI, hI', hK⟩ := mars_case {(100, 0.2, 180), (100, 0.2, 0)}
  obtain ⟨hO, hO', -, hsO⟩ := hK (100, 0.2, 180) (by simp)
  obtain ⟨hU, hU', -, hsU⟩ := hK (100, 0.2, 0) (by simp)
  obtain ⟨ρ, hρ, h⟩ := (C110_widths "MARS" mars hF P hP atm hatm 1000 100 0.2 10 0 1 true demoCurve caseState
    (fun _ => demoCurve_smooth) dt dt 4610.5 L hdt.le hdt hL (-60) (-45) (-30) 0 0.1 (-60) (-45) (-30) 0 0.1 (by norm_num)
    (by norm_num) (by norm_num) (by norm_num) _ rfl).1 hO hU
  obtain ⟨ρ', hρ', h'⟩ := (C110_widths "MARS" mars hF P hP atm hatm 1000 100 0.2 10 0 1 true demoCurve caseState
    (fun _ => demoCurve_smooth) dt dt 6410.5 L hdt.le hdt hL (-60) (-45) (-30) 0 0.1 (-60) (-45) (-30) 0 0.1 (by norm_num)
    (by norm_num) (by norm_num) (by norm_num) _ rfl).2 hO' hU'
  obtain ⟨w, n, ⟨o, ho, c, hc, hw⟩, hn⟩ := h .strict I hI (hsO ρ hρ).1 (hsU ρ hρ).1
  obtain ⟨w', n', ⟨o', ho', c', hc', hw'⟩, hn'⟩ := h' .strict I hI' (hsO ρ' hρ').2 (hsU ρ' hρ').2
  refine ⟨P, atm, dt, I, w, w', max n n', hdt, ?_, ?_, hn _ (le_max_left _ _), hn' _ (le_max_right _ _)⟩
  · rw [Set.uIcc_of_le (by norm_num)] at ho hc
    rw [abs_le] at hw ⊢
    norm_num at hw ⊢
    constructor <;> linarith [ho.1, ho.2, hc.1, hc.2, hw.1, hw.2]
  · rw [Set.uIcc_of_le (by norm_num)] at ho' hc'
    rw [abs_le] at hw' ⊢
    norm_num at hw' ⊢
    constructor <;> linarith [ho'.1, ho'.2, hc'.1, hc'.2, hw'.1, hw'.2]

/-- Case for `C110_drag_widths`: ballistic coefficients 20 and 100. -/
example : ∃ (P : Planet) (atm : Atmosphere) (dt : ℝ) (I : Integrator) (w w' : ℝ) (n : ℕ), 0 < dt ∧ |w| ≤ 15.2 ∧ |w'| ≤ 15.2 ∧
    Vehicle.computeTCWD ⟨.strict, I, dt, dt, 4610.5⟩ n (caseVehicle P atm 50 0) 20 5 (-60) 0 0.1 =
      some (caseVehicle P atm 20 0, .ok w) ∧
    Vehicle.computeTCWD2 ⟨.strict, I, dt, dt, 6410.5⟩ n (caseVehicle P atm 50 0) 20 5 (-60) 0 0.1 =
      some (caseVehicle P atm 20 0, .ok w') := by
  have hF : ("MARS", mars) ∈ shippedFiles := by simp [shippedFiles]
  obtain ⟨P, atm, L, dt, I, hP, hatm, hL, hdt, hI, hI', hK⟩ := mars_case {(20, 0, 0), (20 * 5, 0, 0)}
  obtain ⟨hO, hO', -, hsO⟩ := hK (20, 0, 0) (by simp)
  obtain ⟨hU, hU', -, hsU⟩ := hK (20 * 5, 0, 0) (by simp)
  obtain ⟨ρ, hρ, h⟩ := (C110_drag_widths "MARS" mars hF P hP atm hatm 1000 50 20 5 10 0 1 true demoCurve caseState
    (fun _ => demoCurve_smooth) dt dt 4610.5 L hdt.le hdt hL (-60) (-45) (-30) (-45) (-30) 0 0.1 (by norm_num)
    (by norm_num) _ _ _ rfl rfl rfl).1 hO hU
  obtain ⟨ρ', hρ', h'⟩ := (C110_drag_widths "MARS" mars hF P hP atm hatm 1000 50 20 5 10 0 1 true demoCurve caseState
    (fun _ => demoCurve_smooth) dt dt 6410.5 L hdt.le hdt hL (-60) (-45) (-30) (-45) (-30) 0 0.1 (by norm_num)
    (by norm_num) _ _ _ rfl rfl rfl).2 hO' hU'
  obtain ⟨w, n, ⟨o, ho, c, hc, hw⟩, hn⟩ := h .strict I hI (hsO ρ hρ).1 (hsU ρ hρ).1
  obtain ⟨w', n', ⟨o', ho', c', hc', hw'⟩, hn'⟩ := h' .strict I hI' (hsO ρ' hρ').2 (hsU ρ' hρ').2
  refine ⟨P, atm, dt, I, w, w', max n n', hdt, ?_, ?_, hn _ (le_max_left _ _), hn' _ (le_max_right _ _)⟩
  · rw [Set.uIcc_of_le (by norm_num)] at ho hc
    rw [abs_le] at hw ⊢
    norm_num at hw ⊢
    constructor <;> linarith [ho.1, ho.2, hc.1, hc.2, hw.1, hw.2]
  · rw [Set.uIcc_of_le (by norm_num)] at ho' hc'
    rw [abs_le] at hw' ⊢
    norm_num at hw' ⊢
    constructor <;> linarith [ho'.1, ho'.2, hc'.1, hc'.2, hw'.1, hw'.2]

end AMAT.Props
