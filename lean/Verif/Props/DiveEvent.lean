import Verif.Model.Events
import Verif.Props.HeatIntegral

/-
C107: `propogateEntry2` against `propogateEntry`: the same flight, cut off where the vehicle dives.
-/

noncomputable section

open Classical

namespace AMAT.Props

open AMAT Real AMAT.Spec AMAT.Data AMAT.Lits Filter

/-- Samples strictly between trap and skip altitude are reported completely, with exit flag 0. -/
theorem inside_flag {V : Vehicle} {mode : ScipyMode} {S : List (ℝ × FState)} {delta hi : ℝ} {out : PropOut}
    (hp : V.postProcess mode (TrajArrays.ofSamples S) delta hi = .ok out)
    (h : ∀ p ∈ S, V.planet.hTrap < p.2.r * V.planet.RP - V.planet.RP ∧
      p.2.r * V.planet.RP - V.planet.RP < V.planet.hSkip) :
    out.exitflag = 0 ∧ out.index = S.length := by
  obtain ⟨idx, flag, qc, qr, heat, hc, -, -, -, rfl⟩ := postProcess_inv hp
  have hrr : (V.planet.dimensionalizeArr (TrajArrays.ofSamples S)).r = S.map (fun p => p.2.r * V.planet.RP) := by
    simp [Planet.dimensionalizeArr, TrajArrays.ofSamples, Function.comp_def]
  rw [hrr] at hc
  have hne : (S.map fun p => p.2.r * V.planet.RP).map V.planet.computeH ≠ [] := by
    simpa using classify_nonempty hc
  obtain ⟨M, hM, hMm, -⟩ := pyMax_spec hne
  obtain ⟨mm, hm, hmm, -⟩ := pyMin_spec hne
  simp only [List.map_map, List.mem_map, Function.comp_apply, Planet.computeH] at hMm hmm
  obtain ⟨r, hr, hr1⟩ := hMm
  obtain ⟨r', hr', hr1'⟩ := hmm
  have a1 := (h r hr).2
  have a2 := (h r' hr').1
  rw [hr1] at a1
  rw [hr1'] at a2
  rw [classify_eq V.planet hM hm, if_neg (fun h => absurd h.2 (not_lt.mpr a1.le)), if_pos ⟨a2.le, a1⟩] at hc
  have h3 := Except.ok.inj hc
  simp only [List.length_map, Prod.mk.injEq] at h3
  exact ⟨h3.2.symm, h3.1.symm⟩

/-- C107 (partial): on a flight whose path stays less than 88° below the horizontal, `propogateEntry2` with an exact solver
returns what `propogateEntry` returns with an exact solver.  Missing: flights that dive (`C107_flights_differ`). -/
theorem C107_same_flight_partial (V : Vehicle) (mode : ScipyMode) (I I' : Integrator) (tSec dt deltaDeg T : ℝ)
    (y : ℝ → FState) (hJ : V.init.heatLoad0 = 0)
    (hI : I (fun t s => V.EOM s t (deltaDeg * π / 180.0)) (V.planet.nonDimState (Vehicle.entryState V.planet V.init))
      (Vehicle.tGrid V.planet tSec dt) = (Vehicle.tGrid V.planet tSec dt).map fun t => (t, y t))
    (hI' : StopsAtEvent hitEFPA90 I' (fun t s => V.EOM2 t s (deltaDeg * π / 180.0))
      (V.planet.nonDimState (Vehicle.entryState V.planet V.init)) (Vehicle.tGrid V.planet tSec dt) y T)
    (hγ : ∀ t ∈ Set.Icc 0 T, -(88 * (π / 180)) < (y t).gamma) :
    V.propogateEntry2 mode I' tSec dt deltaDeg = V.propogateEntry mode I tSec dt deltaDeg := by
  have h := hI'.whole fun t ht => by
    have := hγ t ht
    unfold hitEFPA90
    linarith
  unfold Vehicle.propogateEntry2 Vehicle.propogateEntry Vehicle.solveTrajectory2 Vehicle.solveTrajectory
  simp only [h, hI, hJ]

/-- C107 (finding): on a flight that becomes steeper than 88° below the horizontal at time `ts`, the histories of
`propogateEntry2` end there: they have no later point, and if the vehicle is then still between trap and skip altitude it is
reported as being in flight (exit flag 0), however the flight goes on. -/
theorem C107_cut_off (name : String) (V : Vehicle) (hP : Planet.init name = .ok V.planet) (mode : ScipyMode)
    (I' : Integrator) (tSec dt deltaDeg T ts : ℝ) (y : ℝ → FState) (hdt : 0 < dt)
    (hI' : StopsAtEvent hitEFPA90 I' (fun t s => V.EOM2 t s (deltaDeg * π / 180.0))
      (V.planet.nonDimState (Vehicle.entryState V.planet V.init)) (Vehicle.tGrid V.planet tSec dt) y T)
    (hts : ts ∈ Set.Icc 0 T) (h1 : ∀ t ∈ Set.Ico 0 ts, -(88 * (π / 180)) < (y t).gamma)
    (h2 : (y ts).gamma = -(88 * (π / 180)))
    (h3 : ∀ᶠ t in nhdsWithin ts (Set.Ioi ts), (y t).gamma < -(88 * (π / 180))) (out : PropOut)
    (hout : V.propogateEntry2 mode I' tSec dt deltaDeg = .ok out) :
    (∀ t ∈ out.c.t, t ≤ ts * V.planet.tau) ∧ (∀ g ∈ out.c.gamma, -(88 * (π / 180)) ≤ g) ∧
    ((∀ t ∈ Vehicle.tGrid V.planet tSec dt, t ≤ ts → V.planet.hTrap < (y t).r * V.planet.RP - V.planet.RP ∧
        (y t).r * V.planet.RP - V.planet.RP < V.planet.hSkip) →
      out.exitflag = 0 ∧ out.index = ((Vehicle.tGrid V.planet tSec dt).filter fun t => t ≤ ts).length) := by
  obtain ⟨_, hR, _, _, _, _, _, _, _, htau, _⟩ := C01_planet_consistent name V.planet hP
  have hg : ∀ t, hitEFPA90 (y t) = (y t).gamma - -(88 * (π / 180)) := fun t => by unfold hitEFPA90; ring
  have h := hI'.cut ts hts (fun t ht => by rw [hg]; linarith [h1 t ht]) (by rw [hg, h2, sub_self])
    (h3.mono fun t ht => by rw [hg]; linarith)
  have hS : samples V I' tSec dt deltaDeg = ((Vehicle.tGrid V.planet tSec dt).filter fun t => t ≤ ts).map
    fun t => (t, y t) := h
  have hgrid0 : ∀ t ∈ Vehicle.tGrid V.planet tSec dt, 0 ≤ t := by
    intro t ht
    obtain ⟨i, -, rfl⟩ := List.mem_map.mp ht
    positivity
  have hmem : ∀ p ∈ samples V I' tSec dt deltaDeg, p.1 ∈ Vehicle.tGrid V.planet tSec dt ∧ p.1 ≤ ts ∧ p.2 = y p.1 := by
    intro p hp
    rw [hS] at hp
    obtain ⟨t, ht, rfl⟩ := List.mem_map.mp hp
    rw [List.mem_filter] at ht
    exact ⟨ht.1, of_decide_eq_true ht.2, rfl⟩
  obtain ⟨-, -, a1, -, -, -, -, -, a2, -⟩ := (C24_arrays_aligned_variants V mode I' tSec dt deltaDeg out V.init
    V.atm.densityInt).1 hout
  refine ⟨fun t ht => ?_, fun g hgm => ?_, fun hin => ?_⟩
  · rw [a1] at ht
    obtain ⟨p, hp, rfl⟩ := List.mem_map.mp ht
    rw [mul_comm]
    exact mul_le_mul_of_nonneg_right (hmem p (List.mem_of_mem_take hp)).2.1 htau.le
  · rw [a2] at hgm
    obtain ⟨p, hp, rfl⟩ := List.mem_map.mp hgm
    obtain ⟨b1, b2, b3⟩ := hmem p (List.mem_of_mem_take hp)
    rw [b3]
    rcases b2.lt_or_eq with h4 | h4
    · exact (h1 _ ⟨hgrid0 _ b1, h4⟩).le
    · rw [h4, h2]
  · obtain ⟨c1, c2⟩ := inside_flag (S := samples V I' tSec dt deltaDeg) hout fun p hp => by
      obtain ⟨b1, b2, b3⟩ := hmem p hp
      rw [b3]
      exact hin _ b1 b2
    refine ⟨c1, ?_⟩
    rw [c2, hS, List.length_map]

/-- The initial state that starts the simulation in a given dimensionless state. -/
def startAt (P : Planet) (s : FState) : InitState :=
  ⟨(s.r * P.RP - P.RP) / 1000, s.theta * 180 / π, s.phi * 180 / π, s.v * P.Vref / 1000, s.psi * 180 / π,
    s.gamma * 180 / π, s.drange * P.RP / 1000, 0⟩

theorem startAt_ok {P : Planet} (hR : 0 < P.RP) (hV : 0 < P.Vref) (s : FState) :
    P.nonDimState (Vehicle.entryState P (startAt P s)) = s := by
  have hpi := pi_pos.ne'
  have e1 : (1.0E3 : ℝ) = 1000 := by norm_num
  have e2 : (1.000E3 : ℝ) = 1000 := by norm_num
  have e3 : (180.0 : ℝ) = 180 := by norm_num
  have e4 : (1E3 : ℝ) = 1000 := by norm_num
  have a : ∀ x : ℝ, x * 180 / π * π / 180 = x := fun x => by field_simp
  simp only [Planet.nonDimState, Vehicle.entryState, startAt, Planet.computeR, e1, e2, e3, e4, a]
  cases s
  simp only [FState.mk.injEq, true_and]
  refine ⟨?_, ?_, ?_⟩
  all_goals
    field_simp
    try ring

/-- At Mars, a vehicle without lift, at 50 km, slow, westbound and 88° below the horizontal dives more steeply. -/
theorem mars_dive {P : Planet} (hP : Planet.init "MARS" = .ok P) (atm : Atmosphere) (st : InitState) (t delta : ℝ) :
    ((Vehicle.mk' 1000 100 0 10 0 1 P atm false demoCurve st).EOM
      ⟨1 + 50000 / P.RP, 0, 0, 1 / 10, π, -(88 * (π / 180)), 0⟩ t delta).gamma < 0 := by
  obtain ⟨_, hR, _, _, _, _, _, _, hV, htau, hVR, htV, hOm, _⟩ := C01_planet_consistent "MARS" P hP
  have hRv : P.RP = 3389500 := by simp [Planet.init] at hP; subst hP; norm_num [Planet.withScales]
  have hGM : P.GM = 42828370000000 := by simp [Planet.init] at hP; subst hP; norm_num [Planet.withScales]
  have hO : P.OMEGA = 7.088253e-5 := by simp [Planet.init] at hP; subst hP; rfl
  have hJ : P.J2 = 1960.45e-6 := by simp [Planet.init] at hP; subst hP; rfl
  have hJ0 : 0 ≤ P.J2 := by rw [hJ]; norm_num
  rw [hRv, hGM] at hVR
  have hV1 : 3000 ≤ P.Vref := by
    by_contra hn
    have := pow_lt_pow_left₀ (not_le.mp hn) hV.le (two_ne_zero)
    norm_num at this
    linarith
  have ht1 : P.tau ≤ 1200 := by
    rw [hRv] at htV
    by_contra hn
    have := mul_lt_mul (not_le.mp hn) hV1 (by norm_num) htau.le
    linarith
  have hO0 : 0 < P.OMEGAbar := by
    rw [hOm, hO]
    positivity
  have hO1 : P.OMEGAbar ≤ 1 / 10 := by
    rw [hOm, hO]
    norm_num
    linarith
  have hr1 : (1:ℝ) ≤ 1 + 50000 / P.RP := by
    have : 0 < 50000 / P.RP := by positivity
    linarith
  have hr2 : 1 + 50000 / P.RP ≤ 51 / 50 := by
    rw [hRv]; norm_num
  generalize 1 + 50000 / P.RP = r at hr1 hr2
  have hc : 0 ≤ cos (88 * (π / 180)) := cos_nonneg_of_mem_Icc ⟨by linarith [pi_pos], by linarith [pi_pos]⟩
  have hr0 : 0 < r := by linarith
  have e : ((Vehicle.mk' 1000 100 0 10 0 1 P atm false demoCurve st).EOM ⟨r, 0, 0, 1 / 10, π, -(88 * (π / 180)), 0⟩ t
      delta).gamma = cos (88 * (π / 180)) * (10 * (-1 / r ^ 2 - 3 / 2 * P.J2 / r ^ 4) + 1 / 10 / r +
        10 * P.OMEGAbar ^ 2 * r) - 2 * P.OMEGAbar := by
    have l1 : (1.5 : ℝ) = 3 / 2 := by norm_num
    simp only [Vehicle.EOM, Vehicle.mk', Vehicle.a_nbar, Vehicle.Lbar, Vehicle.gnbar, Vehicle.grbar, Vehicle.gthetabar,
      Vehicle.cfgammabar, Vehicle.cogammabar, sin_zero, cos_zero, sin_pi, cos_pi, cos_neg, l00, l10, l1, l20, l30, l50]
    generalize cos (88 * (π / 180)) = c
    field_simp
    ring
  rw [e]
  have k1 : 9 / 10 ≤ 1 / r ^ 2 := by
    rw [le_div_iff₀ (by positivity)]
    nlinarith
  have k2 : 0 ≤ 3 / 2 * P.J2 / r ^ 4 := by positivity
  have k3 : 1 / 10 / r ≤ 1 / 10 := div_le_self (by norm_num) hr1
  have k4 : P.OMEGAbar ^ 2 ≤ 1 / 100 := by nlinarith
  have k5 : 10 * P.OMEGAbar ^ 2 * r ≤ 1 := by nlinarith [sq_nonneg P.OMEGAbar]
  have k6 : 10 * (-1 / r ^ 2 - 3 / 2 * P.J2 / r ^ 4) + 1 / 10 / r + 10 * P.OMEGAbar ^ 2 * r ≤ 0 := by
    rw [neg_div]
    linarith
  have := mul_nonpos_of_nonneg_of_nonpos hc k6
  linarith

/-- A flight at Mars, about 50 km up, that passes 88° below the horizontal at `3/2 b`. -/
theorem mars_dive_flight : ∃ (P : Planet) (atm : Atmosphere) (y : ℝ → FState) (b : ℝ), Planet.init "MARS" = .ok P ∧
    LoadedCubic P mars.km (fileRows mars) atm ∧ 0 < b ∧
    (∀ t ∈ Set.Icc 0 (2 * b), ∀ st, SolvesAt (fun z => (Vehicle.mk' 1000 100 0 10 0 1 P atm false demoCurve st).EOM
      z t (0 * π / 180.0)) y t ∧ Regular P 10000 120000 (y t)) ∧
    (∀ t ∈ Set.Icc 0 (2 * b), (t < 3 / 2 * b → -(88 * (π / 180)) < (y t).gamma) ∧
      (3 / 2 * b < t → (y t).gamma < -(88 * (π / 180)))) ∧
    (y (3 / 2 * b)).gamma = -(88 * (π / 180)) ∧
    ∀ t ∈ Set.Icc 0 (2 * b), (y t).gamma < 0 ∧ 40000 < (y t).r * P.RP - P.RP ∧ (y t).r * P.RP - P.RP < 60000 := by
  obtain ⟨P, hP⟩ := (C01_planet_names "MARS").1.mpr (by simp [Spec.bodies])
  have hF : ("MARS", mars) ∈ shippedFiles := by simp [shippedFiles]
  obtain ⟨atm, hatm⟩ := (C85_loads "MARS" mars hF P hP).1
  obtain ⟨_, hR, -⟩ := C01_planet_consistent "MARS" P hP
  have hTh : P.hThres = 120000 := by simp [Planet.init] at hP; subst hP; norm_num [Planet.withScales]
  set s : FState := ⟨1 + 50000 / P.RP, 0, 0, 1 / 10, π, -(88 * (π / 180)), 0⟩ with hs
  have halt : s.r * P.RP - P.RP = 50000 := by
    change (1 + 50000 / P.RP) * P.RP - P.RP = 50000
    rw [add_mul, div_mul_cancel₀ _ hR.ne']; ring
  have hreg : Regular P 40000 60000 s := by
    refine ⟨by rw [hs]; positivity, by rw [hs]; norm_num, by rw [halt]; norm_num, by rw [halt]; norm_num, ?_, ?_⟩
    · change 0 < cos 0
      rw [cos_zero]; exact one_pos
    · change 0 < cos (-(88 * (π / 180)))
      exact cos_pos_of_mem_Ioo ⟨by linarith [pi_pos], by linarith [pi_pos]⟩
  obtain ⟨x, ε, hε, x0, hx⟩ := shipped_continuation hF hP hatm 1000 100 0 10 0 1 false demoCurve ⟨0, 0, 0, 0, 0, 0, 0, 0⟩
    (by simp) (0 * π / 180.0) 0 (by norm_num) (Or.inl (by rw [hTh]; norm_num)) hreg
  -- the flight passes 88 degrees downwards
  have hd := (hx 0 ⟨by linarith, by linarith⟩).1.gamma
  rw [x0] at hd
  have hneg := mars_dive hP atm ⟨0, 0, 0, 0, 0, 0, 0, 0⟩ 0 (0 * π / 180.0)
  have hsl := (hasDerivAt_iff_tendsto_slope.mp hd).eventually (gt_mem_nhds hneg)
  rw [eventually_nhdsWithin_iff] at hsl
  obtain ⟨η, hη, hsl⟩ := Metric.eventually_nhds_iff.mp hsl
  have g0 : (x 0).gamma = -(88 * (π / 180)) := by rw [x0]
  have hsign : ∀ t, |t| < η → (t < 0 → -(88 * (π / 180)) < (x t).gamma) ∧ (0 < t → (x t).gamma < -(88 * (π / 180))) := by
    intro t ht
    have h1 := @hsl t (by rw [Real.dist_eq, sub_zero]; exact ht)
    constructor
    · intro h0
      have h2 := h1 h0.ne
      rw [slope_def_field, g0, sub_zero] at h2
      by_contra hc
      exact absurd h2 (not_lt.mpr (div_nonneg_of_nonpos (by linarith) h0.le))
    · intro h0
      have h2 := h1 h0.ne'
      rw [slope_def_field, g0, sub_zero] at h2
      by_contra hc
      exact absurd h2 (not_lt.mpr (div_nonneg (by linarith) h0.le))
  obtain ⟨ζ, hζ, hneg0⟩ := Metric.eventually_nhds_iff.mp (hd.continuousAt.eventually (gt_mem_nhds
    (show (x 0).gamma < 0 by rw [g0]; linarith [pi_pos])))
  obtain ⟨b, hb, hbε, hbη, hbζ⟩ : ∃ b > 0, 2 * b ≤ ε ∧ 2 * b < η ∧ 2 * b < ζ := by
    have h0 := lt_min hε (lt_min hη hζ)
    have h1 := min_le_left ε (min η ζ)
    have h2 := min_le_right ε (min η ζ)
    refine ⟨min ε (min η ζ) / 4, by positivity, ?_, ?_, ?_⟩
    · linarith
    · linarith [min_le_left η ζ]
    · linarith [min_le_right η ζ]
  set y : ℝ → FState := fun t => x (t - 3 / 2 * b) with hy
  have hsol : ∀ t ∈ Set.Icc 0 (2 * b), ∀ st, SolvesAt (fun z => (Vehicle.mk' 1000 100 0 10 0 1 P atm false demoCurve st).EOM
      z t (0 * π / 180.0)) y t ∧ Regular P 10000 120000 (y t) := by
    intro t ht st
    obtain ⟨h1, h2⟩ := hx (t - 3 / 2 * b) ⟨by linarith [ht.1], by linarith [ht.2]⟩
    exact ⟨⟨h1.r.comp_sub_const t _, h1.theta.comp_sub_const t _, h1.phi.comp_sub_const t _, h1.v.comp_sub_const t _,
      h1.psi.comp_sub_const t _, h1.gamma.comp_sub_const t _, h1.drange.comp_sub_const t _⟩, h2.r, h2.v,
      by linarith [h2.low], by linarith [h2.high], h2.phi, h2.gamma⟩
  have hyg : ∀ t ∈ Set.Icc 0 (2 * b), (t < 3 / 2 * b → -(88 * (π / 180)) < (y t).gamma) ∧
      (3 / 2 * b < t → (y t).gamma < -(88 * (π / 180))) := by
    intro t ht
    obtain ⟨h1, h2⟩ := hsign (t - 3 / 2 * b) (by rw [abs_lt]; constructor <;> linarith [ht.1, ht.2])
    exact ⟨fun h => h1 (by linarith), fun h => h2 (by linarith)⟩
  have hys : (y (3 / 2 * b)).gamma = -(88 * (π / 180)) := by
    change (x (3 / 2 * b - 3 / 2 * b)).gamma = _
    rw [sub_self, g0]
  refine ⟨P, atm, y, b, hP, hatm, hb, hsol, hyg, hys, fun t ht => ?_⟩
  obtain ⟨-, h2⟩ := hx (t - 3 / 2 * b) ⟨by linarith [ht.1], by linarith [ht.2]⟩
  refine ⟨@hneg0 (t - 3 / 2 * b) ?_, h2.low, h2.high⟩
  rw [Real.dist_eq, sub_zero, abs_lt]
  constructor <;> linarith [ht.1, ht.2]

/-- C107 (finding): at Mars, in the shipped atmosphere, there are a flight `y` of a ballistic vehicle at about 50 km altitude
and exact solvers for it such that `propogateEntry` reports three points and `propogateEntry2`, called with the same arguments,
reports only the first two. -/
theorem C107_flights_differ : ∃ (P : Planet) (atm : Atmosphere) (y : ℝ → FState) (I I' : Integrator) (b : ℝ)
    (out out' : PropOut),
    Planet.init "MARS" = .ok P ∧ LoadedCubic P mars.km (fileRows mars) atm ∧ 0 < b ∧
    (let V := Vehicle.mk' 1000 100 0 10 0 1 P atm false demoCurve (startAt P (y 0))
    V.planet.nonDimState (Vehicle.entryState V.planet V.init) = y 0 ∧ V.init.heatLoad0 = 0 ∧
    (∀ t ∈ Set.Icc 0 (2 * b), SolvesAt (fun x => V.EOM x t (0 * π / 180.0)) y t ∧ 0 < (y t).v ∧ 0 < cos (y t).gamma ∧
      P.hTrap < (y t).r * P.RP - P.RP ∧ (y t).r * P.RP - P.RP < P.hSkip) ∧
    I (fun t s => V.EOM s t (0 * π / 180.0)) (y 0) (Vehicle.tGrid P (2 * (b * P.tau)) (b * P.tau)) =
      (Vehicle.tGrid P (2 * (b * P.tau)) (b * P.tau)).map (fun t => (t, y t)) ∧
    StopsAtEvent hitEFPA90 I' (fun t s => V.EOM2 t s (0 * π / 180.0)) (y 0)
      (Vehicle.tGrid P (2 * (b * P.tau)) (b * P.tau)) y (2 * b) ∧
    V.propogateEntry .strict I (2 * (b * P.tau)) (b * P.tau) 0 = .ok out ∧
    V.propogateEntry2 .strict I' (2 * (b * P.tau)) (b * P.tau) 0 = .ok out' ∧
    out.exitflag = 0 ∧ out'.exitflag = 0 ∧ out.c.t.length = 3 ∧ out'.c.t.length = 2 ∧
    (∀ t ∈ Set.Ico 0 (3 / 2 * b), -(88 * (π / 180)) < (y t).gamma) ∧ (y (3 / 2 * b)).gamma = -(88 * (π / 180)) ∧
    ∀ᶠ t in nhdsWithin (3 / 2 * b) (Set.Ioi (3 / 2 * b)), (y t).gamma < -(88 * (π / 180))) := by
  obtain ⟨P, atm, y, b, hP, hatm, hb, hsol, hyg, hys, -⟩ := mars_dive_flight
  obtain ⟨_, hR, _, _, _, _, _, _, hV, htau, -⟩ := C01_planet_consistent "MARS" P hP
  have hSk : P.hSkip = 120000 := by simp [Planet.init] at hP; subst hP; norm_num [Planet.withScales]
  have hTr : P.hTrap = 10000 := by simp [Planet.init] at hP; subst hP; norm_num [Planet.withScales]
  have hgv : ∀ t, hitEFPA90 (y t) = (y t).gamma - -(88 * (π / 180)) := fun t => by unfold hitEFPA90; ring
  have hbt : 0 < b * P.tau := by positivity
  have hceil : ⌈2 * (b * P.tau) / (b * P.tau)⌉₊ = 2 := by
    rw [mul_div_cancel_right₀ _ hbt.ne']
    exact Nat.ceil_ofNat 2
  obtain ⟨t1, t2⟩ := tGrid_get "MARS" P hP (2 * (b * P.tau)) (b * P.tau) (by positivity) hbt
  rw [hceil] at t1 t2
  have hgrid : Vehicle.tGrid P (2 * (b * P.tau)) (b * P.tau) = [0, b, 2 * b] := by
    apply List.ext_getElem?
    intro i
    by_cases hi : i < 3
    · rw [t2 i hi]
      have e : ∀ k : ℝ, k * (b * P.tau) / P.tau = k * b := fun k => by
        rw [← mul_assoc, mul_div_cancel_right₀ _ htau.ne']
      rw [e]
      interval_cases i <;> simp
    · rw [List.getElem?_eq_none (by omega), List.getElem?_eq_none (by simp; omega)]
  have hfil : ([0, b, 2 * b] : List ℝ).filter (fun t => decide (t ≤ 3 / 2 * b)) = [0, b] := by
    rw [List.filter_cons_of_pos (by simpa using hb.le), List.filter_cons_of_pos (by simp; linarith),
      List.filter_cons_of_neg (by simp; linarith), List.filter_nil]
  set V := Vehicle.mk' 1000 100 0 10 0 1 P atm false demoCurve (startAt P (y 0)) with hVd
  have hstart : P.nonDimState (Vehicle.entryState P (startAt P (y 0))) = y 0 := startAt_ok hR hV (y 0)
  set I : Integrator := fun _ _ grid => grid.map fun t => (t, y t) with hI
  set I' : Integrator := fun _ _ grid => (grid.filter fun t => t ≤ 3 / 2 * b).map fun t => (t, y t) with hI'
  have hSI : samples V I (2 * (b * P.tau)) (b * P.tau) 0 = [(0, y 0), (b, y b), (2 * b, y (2 * b))] := by
    change (Vehicle.tGrid P (2 * (b * P.tau)) (b * P.tau)).map (fun t => (t, y t)) = _
    rw [hgrid]; rfl
  have hSI' : samples V I' (2 * (b * P.tau)) (b * P.tau) 0 = [(0, y 0), (b, y b)] := by
    change ((Vehicle.tGrid P (2 * (b * P.tau)) (b * P.tau)).filter fun t => t ≤ 3 / 2 * b).map (fun t => (t, y t)) = _
    rw [hgrid, hfil]; rfl
  have hin : ∀ t ∈ Set.Icc 0 (2 * b), P.hTrap < (y t).r * P.RP - P.RP ∧ (y t).r * P.RP - P.RP < P.hSkip := by
    intro t ht
    obtain ⟨-, h2⟩ := hsol t ht (startAt P (y 0))
    rw [hTr, hSk]
    exact ⟨h2.low, h2.high⟩
  have m0 : (0:ℝ) ∈ Set.Icc 0 (2 * b) := ⟨le_rfl, by positivity⟩
  have m1 : b ∈ Set.Icc 0 (2 * b) := ⟨hb.le, by linarith⟩
  have m2 : 2 * b ∈ Set.Icc 0 (2 * b) := ⟨by positivity, le_rfl⟩
  obtain ⟨out, ho⟩ := C24_returns_inside "MARS" V hP .strict I (2 * (b * P.tau)) (b * P.tau) 0 _ _ hSI (hin 0 m0).1.le
    (hin 0 m0).2.le (by
      rintro ⟨⟨q, hq, hq1⟩, -⟩
      simp only [List.mem_cons, List.not_mem_nil, or_false] at hq
      rcases hq with rfl | rfl | rfl
      exacts [(hin 0 m0).1.ne' hq1, (hin b m1).1.ne' hq1, (hin _ m2).1.ne' hq1])
  obtain ⟨out', ho'⟩ := C24_returns_inside "MARS" V hP .strict I' (2 * (b * P.tau)) (b * P.tau) 0 _ _ hSI' (hin 0 m0).1.le
    (hin 0 m0).2.le (by
      rintro ⟨⟨q, hq, hq1⟩, -⟩
      simp only [List.mem_cons, List.not_mem_nil, or_false] at hq
      rcases hq with rfl | rfl
      exacts [(hin 0 m0).1.ne' hq1, (hin b m1).1.ne' hq1])
  have ho2 : V.propogateEntry2 .strict I' (2 * (b * P.tau)) (b * P.tau) 0 = .ok out' := ho'
  obtain ⟨f1, f2⟩ := inside_flag (S := samples V I (2 * (b * P.tau)) (b * P.tau) 0) ho (by
    rw [hSI]
    intro p hp
    simp only [List.mem_cons, List.not_mem_nil, or_false] at hp
    rcases hp with rfl | rfl | rfl
    exacts [hin 0 m0, hin b m1, hin _ m2])
  obtain ⟨f1', f2'⟩ := inside_flag (S := samples V I' (2 * (b * P.tau)) (b * P.tau) 0) ho' (by
    rw [hSI']
    intro p hp
    simp only [List.mem_cons, List.not_mem_nil, or_false] at hp
    rcases hp with rfl | rfl
    exacts [hin 0 m0, hin b m1])
  obtain ⟨-, -, a1, -⟩ := C24_arrays_aligned V .strict I _ _ 0 out ho
  obtain ⟨-, -, a1', -⟩ := C24_arrays_aligned V .strict I' _ _ 0 out' ho'
  refine ⟨P, atm, y, I, I', b, out, out', hP, hatm, hb, hstart, rfl, fun t ht => ?_, rfl, ⟨fun h => ?_, ?_⟩, ho, ho2, f1,
    f1', ?_, ?_, fun t ht => (hyg t ⟨ht.1, by linarith [ht.2]⟩).1 ht.2, hys, ?_⟩
  · obtain ⟨h1, h2⟩ := hsol t ht (startAt P (y 0))
    exact ⟨h1, h2.v, h2.gamma, hin t ht⟩
  · have := h (3 / 2 * b) ⟨by positivity, by linarith⟩
    rw [hgv, hys] at this
    linarith
  · intro ts hts _ p2 _
    have : ts = 3 / 2 * b := by
      obtain ⟨q1, q2⟩ := hyg ts hts
      rw [hgv] at p2
      rcases lt_trichotomy ts (3 / 2 * b) with h | h | h
      · linarith [q1 h]
      · exact h
      · linarith [q2 h]
    rw [this]
  · rw [a1, List.length_map, f2, List.take_length, hSI]; rfl
  · rw [a1', List.length_map, f2', List.take_length, hSI']; rfl
  · filter_upwards [Ioo_mem_nhdsGT (show 3 / 2 * b < 2 * b by linarith)] with t ht
    exact (hyg t ⟨by linarith [ht.1], ht.2.le⟩).2 ht.1

/-- Case for `C107_same_flight_partial`: the first part of the flight of `mars_dive_flight`, up to two thirds of the time at
which the event happens, with solvers that sample it. -/
example : ∃ (P : Planet) (atm : Atmosphere) (y : ℝ → FState) (I : Integrator) (b : ℝ), 0 < b ∧
    (let V := Vehicle.mk' 1000 100 0 10 0 1 P atm false demoCurve (startAt P (y 0))
    (∀ t ∈ Set.Icc 0 b, SolvesAt (fun x => V.EOM x t (0 * π / 180.0)) y t) ∧
    V.propogateEntry2 .strict I (b * P.tau) (b * P.tau) 0 = V.propogateEntry .strict I (b * P.tau) (b * P.tau) 0) := by
  obtain ⟨P, atm, y, b, hP, hatm, hb, hsol, hyg, hys, -⟩ := mars_dive_flight
  refine ⟨P, atm, y, fun _ _ grid => grid.map fun t => (t, y t), b, hb, fun t ht => (hsol t ⟨ht.1, by linarith [ht.2]⟩ _).1,
    ?_⟩
  have hγ : ∀ t ∈ Set.Icc 0 b, -(88 * (π / 180)) < (y t).gamma := fun t ht =>
    (hyg t ⟨ht.1, by linarith [ht.2]⟩).1 (by linarith [ht.2])
  refine C107_same_flight_partial _ .strict _ _ (b * P.tau) (b * P.tau) 0 b y rfl rfl ⟨fun _ => rfl, ?_⟩ hγ
  intro ts hts _ h2 _
  have := hγ ts hts
  unfold hitEFPA90 at h2
  linarith

/-- Case for `C107_cut_off`: the flight of `mars_dive_flight`; the event happens at `3/2 b`. -/
example : ∃ (P : Planet) (atm : Atmosphere) (y : ℝ → FState) (I' : Integrator) (b : ℝ) (out : PropOut), 0 < b ∧ 0 < P.tau ∧
    (let V := Vehicle.mk' 1000 100 0 10 0 1 P atm false demoCurve (startAt P (y 0))
    V.propogateEntry2 .strict I' (2 * (b * P.tau)) (b * P.tau) 0 = .ok out ∧ (∀ t ∈ out.c.t, t ≤ 3 / 2 * b * P.tau) ∧
    out.exitflag = 0 ∧ out.index = 2) := by
  obtain ⟨P, atm, y, I, I', b, out, out', hP, hatm, hb, hst, -, hsol, -, hI', -, ho', -, hfl, -, hlen, h1, h2, h3⟩ :=
    C107_flights_differ
  obtain ⟨_, hR, _, _, _, _, _, _, _, htau, -⟩ := C01_planet_consistent "MARS" P hP
  refine ⟨P, atm, y, I', b, out', hb, htau, ho', ?_, hfl, ?_⟩
  · exact (C107_cut_off "MARS" (Vehicle.mk' 1000 100 0 10 0 1 P atm false demoCurve (startAt P (y 0))) hP .strict I' _ _ 0
      (2 * b) (3 / 2 * b) y (by positivity) (by rw [hst]; exact hI') ⟨by positivity, by linarith⟩ h1 h2 h3 out' ho').1
  · obtain ⟨-, i2, a1, -⟩ := (C24_arrays_aligned_variants _ .strict I' _ _ 0 out' (startAt P (y 0)) atm.densityInt).1 ho'
    rw [a1, List.length_map, List.length_take, min_eq_left i2] at hlen
    exact hlen

end AMAT.Props
