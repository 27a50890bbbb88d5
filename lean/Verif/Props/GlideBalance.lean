import Verif.Props.Dynamics
import Verif.Props.GuidanceProps
import Verif.Model.Trajectory

/-
C106: what the bank angle commanded in the equilibrium-glide phase does to the altitude.
-/

noncomputable section

namespace AMAT.Props

open AMAT Real AMAT.Lits AMAT.Spec

/-- The glide command of a level vehicle at its reference dynamic pressure: whatever the gains, the cosine of the bank angle
is -3/4, that is, three quarters of the lift point down. -/
theorem C106_reference_bank (V : Vehicle) (G : GuideParams) (x : InitState) (hCL : V.CL ≠ 0) (hA : V.A ≠ 0)
    (hx : x.gamma0Deg = 0) (q : ℝ) (hq : q = V.planet.density V.atm (1000 * x.h0Km) * (1000 * x.v0Kms) ^ 2 / 2)
    (hq0 : q ≠ 0) (cmd : ℝ) (hc : V.glideCommand G x = .ok (cmd, q)) : cos (cmd * (π / 180)) = -(3 / 4) := by
  obtain ⟨c, h1, -, -, h2, -⟩ := C40_glide_command V G x hCL hA (by rw [← hq]; exact hq0)
  rw [h1] at hc
  simp only [Except.ok.injEq, Prod.mk.injEq] at hc
  obtain ⟨rfl, hu⟩ := hc
  rw [h2, ← hq, hx, zero_mul, sin_zero, mul_zero, mul_zero, zero_div, sub_zero]
  set u := V.mass * (V.planet.GM / V.planet.RP ^ 2) *
    (1 - (1000 * x.v0Kms) ^ 2 / (V.planet.GM / V.planet.RP ^ 2 * (V.planet.RP + 1000 * x.h0Km))) with hudef
  have e : u = -(3 / 4) * (V.CL * q * V.A) := by
    rw [← hu]
    field_simp
  have e1 : u / (V.CL * q * V.A) = -(3 / 4) := by
    rw [e]
    field_simp
  have e2 : u / (3 / 4 * V.CL * V.A * q) = -1 := by
    rw [e]
    field_simp
  rw [e1, e2]
  norm_num

/-- C106: how altitude accelerates at the commanded bank angle.  At a state of the glide phase at which the command is not
clipped, every flight at that bank angle has the climb rate `v·sin γ` with the derivative (m/s²) shown: the command replaces
gravity by its surface value, and the rotation of the body and the flight-path angle are left out of the balance. -/
theorem C106_climb_acceleration (name : String) (P : Planet) (hP : Planet.init name = .ok P)
    (m beta LD A alpha RN : ℝ) (atm : Atmosphere) (w : Bool) (f : ℝ → ℝ) (st x : InitState) (G : GuideParams)
    (hm : 0 < m) (hb : 0 < beta) (hA : 0 < A) (hLD : LD ≠ 0) (hh : 0 ≤ x.h0Km) (hv : 0 < x.v0Kms) :
    let V := Vehicle.mk' m beta LD A alpha RN P atm w f st
    let r := P.RP + 1000 * x.h0Km
    let v := 1000 * x.v0Kms
    let q := P.density atm (1000 * x.h0Km) * v ^ 2 / 2
    let g := P.GM / P.RP ^ 2
    let qref := -(m * g * (1 - v ^ 2 / (g * r)) / (3 / 4 * V.CL * A))
    let γ := x.gamma0Deg * (π / 180)
    let φ := x.phi0Deg * (π / 180)
    let law := m * g * (1 - v ^ 2 / (g * r)) / (V.CL * q * A) - G.Ghdot * (v * sin γ) / q + G.Gq * ((q - qref) / q)
    ∀ (Ur : ℝ), HasDerivAt (fun ρ => potential P.J2 P.J3 ρ φ) Ur (r / P.RP) →
    q ≠ 0 → -1 ≤ law → law ≤ 1 → ∃ cmd, V.glideCommand G x = .ok (cmd, qref) ∧
      ∀ (y : ℝ → FState) (t : ℝ), y t = P.nonDimState (Vehicle.entryState P x) →
        SolvesAt (fun s => V.EOM s t (cmd * (π / 180))) y t →
        HasDerivAt (fun s => (y (s / P.tau)).v * P.Vref * sin (y (s / P.tau)).gamma)
          (cos γ * (g - v ^ 2 / r - V.CL * A / m * (G.Ghdot * (v * sin γ) - G.Gq * (q - qref)))
            - sin γ * (q * A * V.CD1 r v / m) + g * Ur + v ^ 2 * cos γ ^ 2 / r + P.OMEGA ^ 2 * r * cos φ ^ 2
            + 2 * P.OMEGA * v * cos γ * cos φ * cos (x.psi0Deg * (π / 180))) (t * P.tau) := by
  intro V r v q g qref γ φ law Ur hUr hq hl1 hl2
  obtain ⟨-, hR, hGM, hrho0, -, -, -, -, hVr, htau, hVV, htV, hΩ, -⟩ := C01_planet_consistent name P hP
  have hCLe : V.CL = LD * (m / (beta * A)) := rfl
  have hCL : V.CL ≠ 0 := by rw [hCLe]; positivity
  have hr0 : 0 < r := by simp only [r]; positivity
  have hv0 : 0 < v := by simp only [v]; positivity
  have hg0 : 0 < g := by simp only [g]; positivity
  obtain ⟨cmd, h1, -, -, h2, -⟩ := C40_glide_command V G x hCL hA.ne' hq
  refine ⟨cmd, h1, fun y t hyt hy => ?_⟩
  -- the lift at the commanded bank angle
  have hlift : q * A * V.CL * cos (cmd * (π / 180)) / m =
      g - v ^ 2 / r - V.CL * A / m * (G.Ghdot * (v * sin γ) - G.Gq * (q - qref)) := by
    have h3 : cos (cmd * (π / 180)) = law := by
      rw [h2]
      have e : ∀ z : ℝ, z = law → max (-1) (min 1 z) = law := fun z hz => by
        rw [hz, min_eq_right hl2, max_eq_right hl1]
      apply e
      simp only [law, qref]
      change m * g * (1 - v ^ 2 / (g * r)) / (V.CL * q * A) - G.Ghdot * (v * sin γ) / q +
        G.Gq * (1 + m * g * (1 - v ^ 2 / (g * r)) / (3 / 4 * V.CL * A * q)) = _
      congr 2
      field_simp
      ring
    rw [h3]
    simp only [law]
    generalize qref = qq
    field_simp
    ring
  -- dimensionless quantities
  have er : (y t).r = r / P.RP := by
    rw [hyt]; simp only [Planet.nonDimState, Vehicle.entryState, Planet.computeR, r]; norm_num; ring
  have ev : (y t).v = v / P.Vref := by
    rw [hyt]; simp only [Planet.nonDimState, Vehicle.entryState, v]; norm_num; ring
  have eγ : (y t).gamma = γ := by
    rw [hyt]; simp only [Planet.nonDimState, Vehicle.entryState, γ]; norm_num; ring
  have eφ : (y t).phi = φ := by
    rw [hyt]; simp only [Planet.nonDimState, Vehicle.entryState, φ]; norm_num; ring
  have eψ : (y t).psi = x.psi0Deg * (π / 180) := by
    rw [hyt]; simp only [Planet.nonDimState, Vehicle.entryState]; norm_num; ring
  set ψ := x.psi0Deg * (π / 180) with hψ
  set δ := cmd * (π / 180) with hδ
  have hdiv : HasDerivAt (fun s : ℝ => s / P.tau) (1 / P.tau) (t * P.tau) := (hasDerivAt_id _).div_const _
  have et : t * P.tau / P.tau = t := by field_simp
  have dv : HasDerivAt (fun s => (y (s / P.tau)).v) ((V.EOM (y t) t δ).v * (1 / P.tau)) (t * P.tau) := by
    have := hy.v
    rw [← et] at this
    have := HasDerivAt.comp (t * P.tau) this hdiv
    rw [et] at this
    exact this
  have dγ : HasDerivAt (fun s => (y (s / P.tau)).gamma) ((V.EOM (y t) t δ).gamma * (1 / P.tau)) (t * P.tau) := by
    have := hy.gamma
    rw [← et] at this
    have := HasDerivAt.comp (t * P.tau) this hdiv
    rw [et] at this
    exact this
  refine ((dv.mul_const P.Vref).mul dγ.sin).congr_deriv ?_
  rw [et]
  obtain ⟨as, an, -, hc, hcg⟩ := C15_dimensionless_aero name P hP m beta LD A alpha RN atm w f st hm (y t).r (y t).theta
    (y t).phi (y t).v δ
  have erR : (y t).r * P.RP = r := by rw [er]; field_simp
  have evV : (y t).v * P.Vref = v := by rw [ev]; field_simp
  have hden : P.rho atm r (y t).theta (y t).phi = P.density atm (1000 * x.h0Km) := by
    simp only [Planet.rho, r]
    congr 1
    ring
  rw [erR, evV] at as an
  have as' : V.a_sbar (y t).r (y t).theta (y t).phi (y t).v δ = P.RP / P.Vref ^ 2 * -(q * A * V.CD1 r v / m) := by
    refine as.trans ?_
    simp only [Vehicle.a_s, Vehicle.D, l00, l05]
    change P.RP / P.Vref ^ 2 * (0 * cos alpha - 1 / 2 * P.rho atm r (y t).theta (y t).phi * v ^ 2 * A * V.CD1 r v / m) = _
    rw [hden]
    simp only [q]
    ring
  have an' : V.a_nbar (y t).r (y t).theta (y t).phi (y t).v δ = P.RP / P.Vref ^ 2 * (q * A * V.CL * cos δ / m) := by
    refine an.trans ?_
    simp only [Vehicle.a_n, Vehicle.L, l00, l05]
    change P.RP / P.Vref ^ 2 * ((1 / 2 * P.rho atm r (y t).theta (y t).phi * v ^ 2 * A * V.CL + 0 * sin alpha) * cos δ / m) = _
    rw [hden]
    simp only [q]
    ring
  have hGr : V.grbar (y t).r (y t).phi = Ur := by
    rw [er, eφ]
    exact ((C17_gravity_is_gradient V (r / P.RP) φ (by positivity)).1).unique hUr
  rw [hlift] at an'
  have hVt : P.Vref / P.tau = g := by
    simp only [g]
    rw [← hVV, ← htV]
    field_simp
  simp only [Vehicle.EOM, Vehicle.gsbar, Vehicle.gnbar, Vehicle.cfvbar, Vehicle.cfgammabar, Vehicle.cogammabar,
    Vehicle.gthetabar, as', an', hGr, l00, l10, l20]
  generalize V.gphibar (y t).r (y t).phi = Up
  rw [er, ev, eγ, eφ, eψ]
  change _ = _
  have hΩ' : V.planet.OMEGAbar = P.OMEGA * P.tau := hΩ
  rw [hΩ']
  generalize g - v ^ 2 / r - V.CL * A / m * (G.Ghdot * (v * sin γ) - G.Gq * (q - qref)) = Lf
  generalize q * A * V.CD1 r v / m = Dr
  have hc' : P.RP = P.tau * P.Vref := htV.symm
  rw [← hVt, hc']
  have s2 : sin γ ^ 2 + cos γ ^ 2 - 1 = 0 := by rw [sin_sq_add_cos_sq, sub_self]
  rw [← sub_eq_zero]
  refine Eq.trans ?_ (mul_eq_zero_of_right (P.Vref / P.tau * (Ur + P.OMEGA ^ 2 * P.tau * r / P.Vref * cos φ ^ 2)) s2)
  field_simp
  ring

/-- C106 (partial): the altitude of a vehicle in level flight, flown at the commanded bank angle without feedback on the
dynamic pressure, accelerates only by what the balance of the command leaves out: the decrease of gravity with altitude, the
oblateness and the rotation of the body.  Missing: that it does not accelerate at all, which is false of the code
(`C106_not_level`). -/
theorem C106_level_partial (name : String) (P : Planet) (hP : Planet.init name = .ok P)
    (m beta LD A alpha RN : ℝ) (atm : Atmosphere) (w : Bool) (f : ℝ → ℝ) (st x : InitState) (G : GuideParams)
    (hm : 0 < m) (hb : 0 < beta) (hA : 0 < A) (hLD : LD ≠ 0) (hh : 0 ≤ x.h0Km) (hv : 0 < x.v0Kms)
    (hx : x.gamma0Deg = 0) (hGq : G.Gq = 0) :
    let V := Vehicle.mk' m beta LD A alpha RN P atm w f st
    let r := P.RP + 1000 * x.h0Km
    let v := 1000 * x.v0Kms
    let q := P.density atm (1000 * x.h0Km) * v ^ 2 / 2
    let g := P.GM / P.RP ^ 2
    let φ := x.phi0Deg * (π / 180)
    0 < q → |m * (g - v ^ 2 / r)| ≤ |V.CL| * q * A → ∃ cmd qref, V.glideCommand G x = .ok (cmd, qref) ∧
      ∀ (y : ℝ → FState) (t : ℝ), y t = P.nonDimState (Vehicle.entryState P x) →
        SolvesAt (fun s => V.EOM s t (cmd * (π / 180))) y t →
        ∃ a, HasDerivAt (fun s => (y (s / P.tau)).v * P.Vref * sin (y (s / P.tau)).gamma) a (t * P.tau) ∧
          (∀ Ur, HasDerivAt (fun ρ => potential P.J2 P.J3 ρ φ) Ur (r / P.RP) →
            a = g + g * Ur + P.OMEGA ^ 2 * r * cos φ ^ 2 + 2 * P.OMEGA * v * cos φ * cos (x.psi0Deg * (π / 180))) ∧
          |a| ≤ g * (1 - (P.RP / r) ^ 2 + 3 * |P.J2| + 4 * |P.J3|) + P.OMEGA ^ 2 * r + 2 * |P.OMEGA| * v := by
  intro V r v q g φ hq hlaw
  obtain ⟨-, hR, hGM, -, -, -, -, -, hVr, htau, -⟩ := C01_planet_consistent name P hP
  have hCLe : V.CL = LD * (m / (beta * A)) := rfl
  have hCL : V.CL ≠ 0 := by rw [hCLe]; positivity
  have hr0 : 0 < r := by simp only [r]; positivity
  have hv0 : 0 < v := by simp only [v]; positivity
  have hg0 : 0 < g := by simp only [g]; positivity
  have hρ : 1 ≤ r / P.RP := by
    rw [one_le_div hR]
    simp only [r]
    linarith
  have hU := (C17_gravity_is_gradient V (r / P.RP) φ (by positivity)).1
  have hlaw' : |m * g * (1 - v ^ 2 / (g * r)) / (V.CL * q * A)| ≤ 1 := by
    have e : m * g * (1 - v ^ 2 / (g * r)) = m * (g - v ^ 2 / r) := by field_simp
    have e2 : |V.CL * q * A| = |V.CL| * q * A := by rw [abs_mul, abs_mul, abs_of_pos hq, abs_of_pos hA]
    rw [e, abs_div, e2, div_le_one (by positivity)]
    exact hlaw
  obtain ⟨cmd, h1, h2⟩ := C106_climb_acceleration name P hP m beta LD A alpha RN atm w f st x G hm hb hA hLD hh hv _ hU
    hq.ne' (by simp only [hx, hGq, zero_mul, sin_zero, mul_zero, zero_div, sub_zero, add_zero]; exact (abs_le.mp hlaw').1)
    (by simp only [hx, hGq, zero_mul, sin_zero, mul_zero, zero_div, sub_zero, add_zero]; exact (abs_le.mp hlaw').2)
  refine ⟨cmd, _, h1, fun y t hyt hy => ⟨_, h2 y t hyt hy, fun Ur hUr => ?_, ?_⟩⟩
  · rw [hUr.unique hU, hx, hGq]
    simp only [zero_mul, sin_zero, cos_zero, mul_zero, sub_zero, one_mul, one_pow, mul_one]
    ring
  · rw [hx, hGq]
    simp only [zero_mul, sin_zero, cos_zero, mul_zero, sub_zero, one_mul, one_pow, mul_one]
    change |g - v ^ 2 / r + g * V.grbar (r / P.RP) φ + v ^ 2 / r + P.OMEGA ^ 2 * r * cos φ ^ 2 +
      2 * P.OMEGA * v * cos φ * cos (x.psi0Deg * (π / 180))| ≤ _
    have hs : |sin φ| ≤ 1 := abs_sin_le_one φ
    obtain ⟨s1, s2⟩ := abs_le.mp hs
    have hc : |cos φ| ≤ 1 := abs_cos_le_one φ
    have hc2 : cos φ ^ 2 ≤ 1 := cos_sq_le_one φ
    have hcp : |cos (x.psi0Deg * (π / 180))| ≤ 1 := abs_cos_le_one _
    have hJ2 : |1.5 * P.J2 / (r / P.RP) ^ 4 * (3.0 * sin φ * sin φ - 1.0)| ≤ 3 * |P.J2| := by
      have h4 : 1 ≤ (r / P.RP) ^ 4 := one_le_pow₀ hρ
      have a1 : |3 * sin φ * sin φ - 1| ≤ 2 := by rw [abs_le]; constructor <;> nlinarith [mul_self_nonneg (sin φ)]
      rw [l15, l30, l10, abs_mul, abs_div, abs_mul, abs_of_pos (by norm_num : (0:ℝ) < 3 / 2),
        abs_of_pos (by positivity : 0 < (r / P.RP) ^ 4)]
      calc 3 / 2 * |P.J2| / (r / P.RP) ^ 4 * |3 * sin φ * sin φ - 1| ≤ 3 / 2 * |P.J2| / 1 * 2 := by gcongr
        _ = 3 * |P.J2| := by ring
    have hJ3 : |2.0 * P.J3 / (r / P.RP) ^ 5 * (5.0 * sin φ ^ 3 - 3.0 * sin φ)| ≤ 4 * |P.J3| := by
      have h4 : 1 ≤ (r / P.RP) ^ 5 := one_le_pow₀ hρ
      have a1 : |5 * sin φ ^ 3 - 3 * sin φ| ≤ 2 := by
        rw [abs_le]
        constructor
        · nlinarith [mul_nonneg (by linarith : 0 ≤ 1 + sin φ) (by positivity : 0 ≤ (sin φ - 1 / 2) ^ 2 + 3 / 20),
            mul_nonneg (by linarith : 0 ≤ 1 + sin φ) (sq_nonneg (sin φ - 1 / 2))]
        · nlinarith [mul_nonneg (by linarith : 0 ≤ 1 - sin φ) (by positivity : 0 ≤ (sin φ + 1 / 2) ^ 2 + 3 / 20),
            mul_nonneg (by linarith : 0 ≤ 1 - sin φ) (sq_nonneg (sin φ + 1 / 2))]
      rw [l20, l50, l30, abs_mul, abs_div, abs_mul, abs_of_pos (by norm_num : (0:ℝ) < 2),
        abs_of_pos (by positivity : 0 < (r / P.RP) ^ 5)]
      calc 2 * |P.J3| / (r / P.RP) ^ 5 * |5 * sin φ ^ 3 - 3 * sin φ| ≤ 2 * |P.J3| / 1 * 2 := by gcongr
        _ = 4 * |P.J3| := by ring
    have h0 : 0 ≤ 1 - (P.RP / r) ^ 2 := by
      have : P.RP / r ≤ 1 := by rw [div_le_one hr0]; simp only [r]; linarith
      have : (P.RP / r) ^ 2 ≤ 1 := pow_le_one₀ (by positivity) this
      linarith
    have hgr : |1 + V.grbar (r / P.RP) φ| ≤ 1 - (P.RP / r) ^ 2 + 3 * |P.J2| + 4 * |P.J3| := by
      have e : 1 + V.grbar (r / P.RP) φ = (1 - (P.RP / r) ^ 2) +
          1.5 * P.J2 / (r / P.RP) ^ 4 * (3.0 * sin φ * sin φ - 1.0) +
          2.0 * P.J3 / (r / P.RP) ^ 5 * (5.0 * sin φ ^ 3 - 3.0 * sin φ) := by
        have e1 : (-1.0 : ℝ) / (r / P.RP) ^ 2 = -(P.RP / r) ^ 2 := by
          rw [l10]
          field_simp
        change 1 + (-1.0 / (r / P.RP) ^ 2 + 1.5 * P.J2 / (r / P.RP) ^ 4 * (3.0 * sin φ * sin φ - 1.0) +
          2.0 * P.J3 / (r / P.RP) ^ 5 * (5.0 * sin φ ^ 3 - 3.0 * sin φ)) = _
        rw [e1]
        generalize 1.5 * P.J2 / (r / P.RP) ^ 4 * (3.0 * sin φ * sin φ - 1.0) = T2
        generalize 2.0 * P.J3 / (r / P.RP) ^ 5 * (5.0 * sin φ ^ 3 - 3.0 * sin φ) = T3
        ring
      rw [e]
      refine (abs_add_three _ _ _).trans ?_
      rw [abs_of_nonneg h0]
      linarith
    have eA : g - v ^ 2 / r + g * V.grbar (r / P.RP) φ + v ^ 2 / r + P.OMEGA ^ 2 * r * cos φ ^ 2 +
        2 * P.OMEGA * v * cos φ * cos (x.psi0Deg * (π / 180)) = g * (1 + V.grbar (r / P.RP) φ) +
        P.OMEGA ^ 2 * r * cos φ ^ 2 + 2 * P.OMEGA * v * (cos φ * cos (x.psi0Deg * (π / 180))) := by ring
    rw [eA]
    refine (abs_add_three _ _ _).trans (add_le_add_three ?_ ?_ ?_)
    · rw [abs_mul, abs_of_pos hg0]
      gcongr
    · rw [abs_of_nonneg (by positivity)]
      calc P.OMEGA ^ 2 * r * cos φ ^ 2 ≤ P.OMEGA ^ 2 * r * 1 := by gcongr
        _ = _ := mul_one _
    · rw [abs_mul, abs_mul, abs_mul, abs_of_pos hv0, abs_of_pos (by norm_num : (0:ℝ) < 2), abs_mul (cos φ)]
      calc 2 * |P.OMEGA| * v * (|cos φ| * |cos (x.psi0Deg * (π / 180))|) ≤ 2 * |P.OMEGA| * v * (1 * 1) := by gcongr
        _ = _ := by ring

/-- C106 is false of the code: a vehicle in level flight 50 km above the equator of Mars, heading east at 3 km/s, whose
command is not clipped and without feedback, is accelerated upwards by more than 0.5 m/s², a seventh of gravity. -/
theorem C106_not_level : ∃ (P : Planet) (atm : Atmosphere) (V : Vehicle) (x : InitState) (G : GuideParams) (cmd qref : ℝ),
    Planet.init "MARS" = .ok P ∧ V = Vehicle.mk' 500 100 0.2 10 0 1 P atm false (fun _ => 1) x ∧
    x = ⟨50, 0, 0, 3, 0, 0, 0, 0⟩ ∧ P.density atm (1000 * x.h0Km) = 0.001 ∧ G.Ghdot = 0 ∧ G.Gq = 0 ∧
    V.glideCommand G x = .ok (cmd, qref) ∧ 0 < cmd ∧ cmd < 180 ∧
    ∀ (y : ℝ → FState) (t : ℝ), y t = P.nonDimState (Vehicle.entryState P x) →
      SolvesAt (fun s => V.EOM s t (cmd * (π / 180))) y t →
      ∃ a > 0.5, HasDerivAt (fun s => (y (s / P.tau)).v * P.Vref * sin (y (s / P.tau)).gamma) a (t * P.tau) := by
  obtain ⟨P, hP, hR, hTh, -, -, hGM, -, hVr, htau⟩ := demo_mars
  have hΩ : P.OMEGA = 7.088253e-5 := by simp [Planet.init] at hP; subst hP; rfl
  have hJ2 : P.J2 = 1960.45e-6 := by simp [Planet.init] at hP; subst hP; rfl
  have hJ3 : P.J3 = 31.5e-6 := by simp [Planet.init] at hP; subst hP; rfl
  have hR' : P.RP = 3389500 := by rw [hR]; norm_num
  have hGM' : P.GM = 42828370000000 := by rw [hGM]; norm_num
  have hΩ' : P.OMEGA = 7088253 / 100000000000 := by rw [hΩ]; norm_num
  have hJ2' : P.J2 = 196045 / 100000000 := by rw [hJ2]; norm_num
  have hJ3' : P.J3 = 315 / 10000000 := by rw [hJ3]; norm_num
  set atm : Atmosphere := ⟨fun _ => 0.001, fun _ => 1, fun _ => 1, fun _ => 1⟩ with hatm
  set x : InitState := ⟨50, 0, 0, 3, 0, 0, 0, 0⟩ with hx
  set G : GuideParams := ⟨30, 0, 0, 1, 10, 20, 0, 250, 2000, 10, 50, 10⟩ with hG
  have hden : P.density atm (1000 * x.h0Km) = 0.001 := by
    simp only [Planet.density, hTh, hx, hatm]
    norm_num
  have hCL : (Vehicle.mk' 500 100 0.2 10 0 1 P atm false (fun _ => 1) x).CL = 1 / 10 := by norm_num [Vehicle.mk']
  have hU := (C17_gravity_is_gradient (Vehicle.mk' 500 100 0.2 10 0 1 P atm false (fun _ => 1) x)
    ((P.RP + 1000 * x.h0Km) / P.RP) (x.phi0Deg * (π / 180)) (by rw [hR', hx]; norm_num)).1
  obtain ⟨cmd, qref, h1, h2⟩ := C106_level_partial "MARS" P hP 500 100 0.2 10 0 1 atm false (fun _ => 1) x x G
    (by norm_num) (by norm_num) (by norm_num) (by norm_num) (by norm_num [hx]) (by norm_num [hx]) rfl rfl
    (by rw [hden]; norm_num [hx])
    (by
      rw [hden, hCL, hR', hGM']
      simp only [hx]
      rw [abs_le]
      constructor <;> norm_num)
  obtain ⟨c, h1', c0, c1, h3, -⟩ := C40_glide_command (Vehicle.mk' 500 100 0.2 10 0 1 P atm false (fun _ => 1) x) G x
    (by rw [hCL]; norm_num) (by norm_num [Vehicle.mk']) (by
      change P.density atm (1000 * x.h0Km) * (1000 * x.v0Kms) ^ 2 / 2 ≠ 0
      rw [hden]; norm_num [hx])
  have hcc : c = cmd := by
    rw [h1] at h1'
    exact (Prod.mk.inj (Except.ok.inj h1')).1.symm
  subst hcc
  have hlaw : cos (c * (π / 180)) = max (-1) (min 1 (500 * (P.GM / P.RP ^ 2) *
      (1 - (1000 * x.v0Kms) ^ 2 / (P.GM / P.RP ^ 2 * (P.RP + 1000 * x.h0Km))) / (1 / 10 *
      (P.density atm (1000 * x.h0Km) * (1000 * x.v0Kms) ^ 2 / 2) * 10))) := by
    rw [h3, hCL]
    simp only [hG, zero_mul, zero_div, sub_zero, add_zero]
    rfl
  rw [hden, hR', hGM'] at hlaw
  simp only [hx] at hlaw
  norm_num at hlaw
  refine ⟨P, atm, _, x, G, c, qref, hP, rfl, rfl, hden, rfl, rfl, h1, ?_, ?_, fun y t hyt hy => ?_⟩
  · refine lt_of_le_of_ne c0 fun h => ?_
    rw [← h, zero_mul, cos_zero] at hlaw
    norm_num at hlaw
  · refine lt_of_le_of_ne c1 fun h => ?_
    rw [h, mul_div_cancel₀ _ (by norm_num : (180:ℝ) ≠ 0), cos_pi] at hlaw
    norm_num at hlaw
  · obtain ⟨a, ha, hae, -⟩ := h2 y t hyt hy
    refine ⟨a, ?_, ha⟩
    rw [hae _ hU]
    change (0.5:ℝ) < _
    simp only [Vehicle.grbar]
    change (0.5:ℝ) < P.GM / P.RP ^ 2 + P.GM / P.RP ^ 2 * (-1.0 / ((P.RP + 1000 * x.h0Km) / P.RP) ^ 2 +
      1.5 * P.J2 / ((P.RP + 1000 * x.h0Km) / P.RP) ^ 4 * (3.0 * sin (x.phi0Deg * (π / 180)) * sin (x.phi0Deg * (π / 180)) - 1.0) +
      2.0 * P.J3 / ((P.RP + 1000 * x.h0Km) / P.RP) ^ 5 * (5.0 * sin (x.phi0Deg * (π / 180)) ^ 3 -
        3.0 * sin (x.phi0Deg * (π / 180)))) + P.OMEGA ^ 2 * (P.RP + 1000 * x.h0Km) * cos (x.phi0Deg * (π / 180)) ^ 2 +
      2 * P.OMEGA * (1000 * x.v0Kms) * cos (x.phi0Deg * (π / 180)) * cos (x.psi0Deg * (π / 180))
    simp only [hx, zero_mul, sin_zero, cos_zero]
    rw [hR', hGM', hΩ', hJ2', hJ3', l10, l15, l20, l30, l50]
    norm_num

/-- Case for `C106_climb_acceleration`, `C106_level_partial` and `C106_not_level`: there is a curve through that state that obeys
the equations of motion there, and it climbs faster and faster. -/
example : ∃ (P : Planet) (V : Vehicle) (x : InitState) (cmd : ℝ) (y : ℝ → FState), Planet.init "MARS" = .ok P ∧
    SolvesAt (fun s => V.EOM s 0 (cmd * (π / 180))) y 0 ∧ y 0 = P.nonDimState (Vehicle.entryState P x) ∧
    x.gamma0Deg = 0 ∧
    ∃ a > 0.5, HasDerivAt (fun s => (y (s / P.tau)).v * P.Vref * sin (y (s / P.tau)).gamma) a 0 := by
  obtain ⟨P, atm, V, x, G, cmd, qref, hP, -, hx, -, -, -, -, -, -, h⟩ := C106_not_level
  obtain ⟨hy, hy0⟩ := tangentCurve_solves (fun s => V.EOM s 0 (cmd * (π / 180))) (P.nonDimState (Vehicle.entryState P x))
  refine ⟨P, V, x, cmd, _, hP, hy, hy0, by rw [hx], ?_⟩
  have := h _ 0 hy0 hy
  rwa [zero_mul] at this

/-- Case for `C106_reference_bank`: 6 km/s (faster than a circular orbit) 50 km above Mars in air of the density at which the
dynamic pressure is the reference value. -/
example : ∃ (V : Vehicle) (G : GuideParams) (x : InitState) (cmd q : ℝ), Planet.init "MARS" = .ok V.planet ∧ 0 < q ∧
    V.glideCommand G x = .ok (cmd, q) ∧ cos (cmd * (π / 180)) = -(3 / 4) := by
  obtain ⟨P, hP, hR, hTh, -, -, hGM, -, -, -⟩ := demo_mars
  set q : ℝ := -(500 * (P.GM / P.RP ^ 2) * (1 - (1000 * 6) ^ 2 / (P.GM / P.RP ^ 2 * (P.RP + 1000 * 50))) /
    (3 / 4 * (1 / 10) * 10)) with hq
  have hqp : 0 < q := by
    rw [hq, hR, hGM]
    norm_num
  set atm : Atmosphere := ⟨fun _ => 2 * q / (1000 * 6) ^ 2, fun _ => 1, fun _ => 1, fun _ => 1⟩ with hatm
  set x : InitState := ⟨50, 0, 0, 6, 0, 0, 0, 0⟩ with hx
  have hCL : (Vehicle.mk' 500 100 0.2 10 0 1 P atm false (fun _ => 1) x).CL = 1 / 10 := by norm_num [Vehicle.mk']
  have hA : (Vehicle.mk' 500 100 0.2 10 0 1 P atm false (fun _ => 1) x).A = 10 := rfl
  have hden : q = P.density atm (1000 * x.h0Km) * (1000 * x.v0Kms) ^ 2 / 2 := by
    simp only [Planet.density, hTh, hx, hatm]
    norm_num
  obtain ⟨cmd, h1, -⟩ := C40_glide_command (Vehicle.mk' 500 100 0.2 10 0 1 P atm false (fun _ => 1) x)
    ⟨30, 75, 1, 1, 10, 20, 0, 250, 2000, 10, 50, 10⟩ x (by rw [hCL]; norm_num) (by rw [hA]; norm_num)
    (by
      change P.density atm (1000 * x.h0Km) * (1000 * x.v0Kms) ^ 2 / 2 ≠ 0
      rw [← hden]
      exact hqp.ne')
  rw [hCL, hA] at h1
  exact ⟨_, _, x, cmd, q, hP, hqp, h1, C106_reference_bank _ _ x (by rw [hCL]; norm_num) (by rw [hA]; norm_num) rfl q hden
    hqp.ne' cmd h1⟩

end AMAT.Props
