import Verif.Props.EdgeCrossing
import Verif.Props.OrbitProps

/-
Property C141: the orbit reported for a vehicle that has left the atmosphere, and where its flight was cut.
-/

noncomputable section

namespace AMAT.Props

open Real AMAT.Spec

/-- The values read by the orbit functions when a flight is cut in the integrator's state `s` (planet.py:767-814 the dimensional
columns, vehicle.py:2488-2496 their truncation, 3150-3156 the reads). -/
def cutAt (P : Planet) (s : FState) : Terminal :=
  { r := s.r * P.RP, v := s.v * P.Vref, g := s.gamma, theta := s.theta, phi := s.phi, psi := s.psi }

/-- Energy of the orbit through a flight state: the conserved energy of the rotating frame, plus the spin times the axial angular
momentum, plus the part of the potential that the orbit functions leave out. -/
theorem cut_energy {name : String} {P : Planet} (hP : Planet.init name = .ok P) {s : FState} (hr : 0 < s.r) :
    energy P.GM (cutAt P s).rVec ((cutAt P s).vIe P) =
      P.GM / P.RP * (jacobi P.J2 P.J3 P.OMEGAbar s.r s.phi s.v + P.OMEGAbar * stateMomentum P.OMEGAbar s +
        (potential P.J2 P.J3 s.r s.phi - 1 / s.r)) := by
  obtain ⟨_, hRP, hGM, _, _, _, _, _, hV, hτ, hV2, hτV, hΩ, _⟩ := C01_planet_consistent name P hP
  have hO : P.OMEGA * P.RP = P.OMEGAbar * P.Vref := by rw [hΩ, ← hτV]; ring
  have hk : P.GM / P.RP = P.Vref ^ 2 := by rw [← hV2]; field_simp
  have hn : V3.norm (cutAt P s).rVec = s.r * P.RP := by
    rw [rVec_eq]; exact norm_pos_r (by simp only [cutAt]; positivity)
  have hv : V3.norm ((cutAt P s).vIe P) ^ 2 = P.Vref ^ 2 * (s.v ^ 2 + 2 * P.OMEGAbar * (s.r * cos s.phi) * (s.v * cos s.gamma * cos s.psi) +
      P.OMEGAbar ^ 2 * (s.r * cos s.phi) ^ 2) := by
    have h1 := sin_sq_add_cos_sq s.theta
    have h2 := sin_sq_add_cos_sq s.phi
    have h3 := sin_sq_add_cos_sq s.gamma
    have h4 := sin_sq_add_cos_sq s.psi
    have hw : (cutAt P s).vIe P = P.Vref • (vel s.theta s.phi s.v s.psi s.gamma +
        (P.OMEGAbar * (s.r * cos s.phi)) • east s.theta) := by
      rw [vIe_eq]
      ext <;> simp only [cutAt, vel, along, horiz, up, east, north, spin, pos, V3.cross, V3.add_x, V3.add_y, V3.add_z, V3.smul_x,
        V3.smul_y, V3.smul_z]
      · linear_combination (-s.r * cos s.phi * sin s.theta) * hO
      · linear_combination (s.r * cos s.phi * cos s.theta) * hO
      · ring
    rw [hw, V3.norm_smul, mul_pow, sq_abs, V3.norm_sq]
    congr 1
    have e : V3.dot (vel s.theta s.phi s.v s.psi s.gamma) (vel s.theta s.phi s.v s.psi s.gamma) = s.v ^ 2 := by
      simp only [vel, along, horiz, up, east, north, V3.dot, V3.add_x, V3.add_y, V3.add_z, V3.smul_x, V3.smul_y, V3.smul_z]
      grind
    have e2 : V3.dot (vel s.theta s.phi s.v s.psi s.gamma) (east s.theta) = s.v * cos s.gamma * cos s.psi := by
      simp only [vel, along, horiz, up, east, north, V3.dot, V3.add_x, V3.add_y, V3.add_z, V3.smul_x, V3.smul_y, V3.smul_z]
      linear_combination (s.v * cos s.gamma * cos s.psi) * h1
    have e3 : V3.dot (east s.theta) (east s.theta) = 1 := by
      simp only [east, V3.dot]; linear_combination h1
    have e4 : ∀ (a b : V3) (k : ℝ), V3.dot (a + k • b) (a + k • b) = V3.dot a a + 2 * k * V3.dot a b + k ^ 2 * V3.dot b b := by
      intro a b k
      simp only [V3.dot, V3.add_x, V3.add_y, V3.add_z, V3.smul_x, V3.smul_y, V3.smul_z]; ring
    rw [e4, e, e2, e3]; ring
  unfold energy
  rw [hn, hv, stateMomentum_eq]
  unfold jacobi
  have hg : P.GM / (s.r * P.RP) = P.Vref ^ 2 * (1 / s.r) := by rw [← hk]; field_simp
  rw [hg, hk]
  ring

/-- Angular momentum of the orbit through an equatorial flight state. -/
theorem cut_angMom {name : String} {P : Planet} (hP : Planet.init name = .ok P) {s : FState} (hphi : s.phi = 0)
    (hpsi : sin s.psi = 0) :
    angMom (cutAt P s).rVec ((cutAt P s).vIe P) = P.RP * P.Vref * |stateMomentum P.OMEGAbar s| := by
  obtain ⟨_, hRP, hGM, _, _, _, _, _, hV, hτ, hV2, hτV, hΩ, _⟩ := C01_planet_consistent name P hP
  have hO : P.OMEGA * P.RP = P.OMEGAbar * P.Vref := by rw [hΩ, ← hτV]; ring
  have h1 := sin_sq_add_cos_sq s.theta
  unfold angMom
  rw [stateMomentum_eq, hphi]
  have hc : V3.cross (cutAt P s).rVec ((cutAt P s).vIe P) =
      (P.RP * P.Vref * (s.r * cos 0 * (s.v * cos s.gamma * cos s.psi + P.OMEGAbar * (s.r * cos 0)))) • (⟨0, 0, 1⟩ : V3) := by
    rw [vIe_eq, rVec_eq]
    ext <;> simp only [cutAt, hphi, hpsi, vel, along, horiz, up, east, north, spin, pos, V3.cross, V3.add_x, V3.add_y, V3.add_z,
      V3.smul_x, V3.smul_y, V3.smul_z, sin_zero, cos_zero]
    · ring
    · ring
    · linear_combination (s.r * P.RP * s.v * P.Vref * cos s.gamma * cos s.psi + P.OMEGA * s.r ^ 2 * P.RP ^ 2) * h1 +
        (s.r ^ 2 * P.RP) * hO
  rw [hc, V3.norm_smul, abs_mul, abs_of_pos (by positivity : 0 < P.RP * P.Vref)]
  have : V3.norm (⟨0, 0, 1⟩ : V3) = 1 := V3.norm_eq_of_sq zero_le_one (by simp [V3.dot])
  rw [this, mul_one]

/-- Reported apsides from energy and angular momentum. -/
theorem cut_apsides {name : String} {P : Planet} (hP : Planet.init name = .ok P) {s : FState} (hr : 0 < s.r)
    (hU : (cutAt P s).vIe P ≠ 0) (hE : energy P.GM (cutAt P s).rVec ((cutAt P s).vIe P) < 0) :
    ∃ A B e, (cutAt P s).apoapsisAltitudeKm P = some A ∧ (cutAt P s).periapsisAltitudeKm P = some B ∧ 0 ≤ e ∧
      e ^ 2 = 1 + 2 * energy P.GM (cutAt P s).rVec ((cutAt P s).vIe P) * angMom (cutAt P s).rVec ((cutAt P s).vIe P) ^ 2 / P.GM ^ 2 ∧
      P.RP + 1000 * A = -P.GM / (2 * energy P.GM (cutAt P s).rVec ((cutAt P s).vIe P)) * (1 + e) ∧
      P.RP + 1000 * B = -P.GM / (2 * energy P.GM (cutAt P s).rVec ((cutAt P s).vIe P)) * (1 - e) := by
  obtain ⟨_, hRP, hGM, _⟩ := C01_planet_consistent name P hP
  obtain ⟨g, e, -, he0, he2, -, -, -, hel⟩ := elements_eq P (cutAt P s) hGM (by simp only [cutAt]; positivity) hU
  have ha : P.semiMajorAxisScalar (energy P.GM (cutAt P s).rVec ((cutAt P s).vIe P)) =
      some (-P.GM / (2 * energy P.GM (cutAt P s).rVec ((cutAt P s).vIe P))) := by
    unfold Planet.semiMajorAxisScalar
    rw [if_neg hE.ne, Lits.l10]
    congr 2; ring
  rw [ha] at hel
  have hA : (cutAt P s).apoapsisAltitudeKm P = some ((-P.GM / (2 * energy P.GM (cutAt P s).rVec ((cutAt P s).vIe P)) * (1 + e) - P.RP) / 1000) := by
    unfold Terminal.apoapsisAltitudeKm
    rw [hel]
    simp only [Option.map, bind, Option.bind, pure]
    norm_num
  have hB : (cutAt P s).periapsisAltitudeKm P = some ((-P.GM / (2 * energy P.GM (cutAt P s).rVec ((cutAt P s).vIe P)) * (1 - e) - P.RP) / 1000) := by
    unfold Terminal.periapsisAltitudeKm
    rw [hel]
    simp only [Option.map, bind, Option.bind, pure]
    norm_num
  exact ⟨_, _, e, hA, hB, he0, he2, by ring, by ring⟩

/-! ### C141 -/

/-- C141: the orbit reported for an equatorial flight above the atmosphere, on a body without `J3`.  Between any two cuts the
angular momentum is the same and the energy differs by `J2` and the two radii alone. -/
theorem C141_reported_energy (name : String) (P : Planet)
    (hP : Planet.init name = .ok P) (hJ : P.J3 = 0) (m beta LD A alpha RN : ℝ) (atm : Atmosphere) (f : ℝ → ℝ)
    (st : InitState) (hm : 0 < m) (hb : 0 < beta) (hA : 0 < A) (delta : ℝ → ℝ) (y : ℝ → FState) (a b : ℝ) (S : Finset ℝ)
    (hy : SwitchedFlight (fun t s => (Vehicle.mk' m beta LD A alpha RN P atm false f st).EOM s t (delta t)) y a b S)
    (hd : ∀ t ∈ Set.Icc a b, sin (delta t) = 0)
    (hr : ∀ t ∈ Set.Icc a b, P.hThres < P.computeH ((y t).r * P.RP))
    (hp : ∀ t ∈ Set.Icc a b, cos (y t).phi ≠ 0) (hv : ∀ t ∈ Set.Icc a b, (y t).v ≠ 0)
    (hg : ∀ t ∈ Set.Icc a b, cos (y t).gamma + 1e-2 ≠ 0)
    (h0 : (y a).phi = 0) (h1 : sin (y a).psi = 0) (t₁ t₂ : ℝ) (ht₁ : t₁ ∈ Set.Icc a b) (ht₂ : t₂ ∈ Set.Icc a b) :
    angMom (cutAt P (y t₁)).rVec ((cutAt P (y t₁)).vIe P) = angMom (cutAt P (y t₂)).rVec ((cutAt P (y t₂)).vIe P) ∧
    energy P.GM (cutAt P (y t₁)).rVec ((cutAt P (y t₁)).vIe P) - energy P.GM (cutAt P (y t₂)).rVec ((cutAt P (y t₂)).vIe P) =
      P.GM / P.RP * (P.J2 / 2) * (1 / (y t₁).r ^ 3 - 1 / (y t₂).r ^ 3) := by
  obtain ⟨_, hR, _, _, _, hTr, hTS, hST, _⟩ := C01_planet_consistent name P hP
  have hr0 : ∀ t ∈ Set.Icc a b, 0 < (y t).r := by
    intro t ht
    have := hr t ht
    simp only [Planet.computeH] at this
    have h3 : 0 < (y t).r * P.RP := by linarith
    exact pos_of_mul_pos_left h3 hR.le
  have heq := C61_switched_stays_equatorial (Vehicle.mk' m beta LD A alpha RN P atm false f st) hJ delta y a b S hy hd
    (fun t ht => (hr0 t ht).ne') hv hp hg h0 h1
  have hL := C97_switched_conserves name P hP hJ m beta LD A alpha RN atm f st hm hb hA delta y a b S hy hd hr hp hv hg h0 h1
  have hC := C18_switched_constant name P hP m beta LD A alpha RN atm false f st hm delta y a b S hy hr
  have hpsi : ∀ t ∈ Set.Icc a b, sin (y t).psi = 0 := fun t ht => by rw [(heq t ht).2]; exact h1
  have hpot : ∀ t ∈ Set.Icc a b, potential P.J2 P.J3 (y t).r (y t).phi - 1 / (y t).r = P.J2 / 2 * (1 / (y t).r ^ 3) := by
    intro t ht
    have := (hr0 t ht).ne'
    unfold potential
    rw [(heq t ht).1, hJ, sin_zero]
    field_simp
    ring
  refine ⟨?_, ?_⟩
  · rw [cut_angMom hP (heq t₁ ht₁).1 (hpsi t₁ ht₁), cut_angMom hP (heq t₂ ht₂).1 (hpsi t₂ ht₂), hL t₁ ht₁, hL t₂ ht₂]
  · rw [cut_energy hP (hr0 t₁ ht₁), cut_energy hP (hr0 t₂ ht₂), hL t₁ ht₁, hL t₂ ht₂, hC t₁ ht₁, hC t₂ ht₂, hpot t₁ ht₁,
      hpot t₂ ht₂]
    ring

theorem J2_pos {name : String} {P : Planet} (hP : Planet.init name = .ok P) : 0 < P.J2 := by
  have hs := (C01_planet_names name).1.mp ⟨P, hP⟩
  simp only [Spec.bodies, List.mem_cons, List.not_mem_nil, or_false] at hs
  rcases hs with rfl | rfl | rfl | rfl | rfl | rfl | rfl | rfl <;>
    · simp [Planet.init] at hP
      subst hP
      norm_num [Planet.withScales]

/-- C141: cutting such a flight higher up reports a lower apoapsis and a higher periapsis.  The reciprocal semi-major axes differ
by `J2 RP² (1/r₁³ - 1/r₂³)`. -/
theorem C141_higher_cut (name : String) (P : Planet)
    (hP : Planet.init name = .ok P) (hJ : P.J3 = 0) (m beta LD A alpha RN : ℝ) (atm : Atmosphere) (f : ℝ → ℝ)
    (st : InitState) (hm : 0 < m) (hb : 0 < beta) (hA : 0 < A) (delta : ℝ → ℝ) (y : ℝ → FState) (a b : ℝ) (S : Finset ℝ)
    (hy : SwitchedFlight (fun t s => (Vehicle.mk' m beta LD A alpha RN P atm false f st).EOM s t (delta t)) y a b S)
    (hd : ∀ t ∈ Set.Icc a b, sin (delta t) = 0)
    (hr : ∀ t ∈ Set.Icc a b, P.hThres < P.computeH ((y t).r * P.RP))
    (hp : ∀ t ∈ Set.Icc a b, cos (y t).phi ≠ 0) (hv : ∀ t ∈ Set.Icc a b, (y t).v ≠ 0)
    (hg : ∀ t ∈ Set.Icc a b, cos (y t).gamma + 1e-2 ≠ 0)
    (h0 : (y a).phi = 0) (h1 : sin (y a).psi = 0) (t₁ t₂ : ℝ) (ht₁ : t₁ ∈ Set.Icc a b) (ht₂ : t₂ ∈ Set.Icc a b)
    (h12 : (y t₁).r ≤ (y t₂).r) (hU₁ : (cutAt P (y t₁)).vIe P ≠ 0) (hU₂ : (cutAt P (y t₂)).vIe P ≠ 0)
    (hE : energy P.GM (cutAt P (y t₁)).rVec ((cutAt P (y t₁)).vIe P) < 0) :
    ∃ A₁ A₂ B₁ B₂, (cutAt P (y t₁)).apoapsisAltitudeKm P = some A₁ ∧ (cutAt P (y t₂)).apoapsisAltitudeKm P = some A₂ ∧
      (cutAt P (y t₁)).periapsisAltitudeKm P = some B₁ ∧ (cutAt P (y t₂)).periapsisAltitudeKm P = some B₂ ∧
      A₂ ≤ A₁ ∧ B₁ ≤ B₂ ∧
      1 / (P.RP + 500 * (A₂ + B₂)) - 1 / (P.RP + 500 * (A₁ + B₁)) =
        P.J2 / P.RP * (1 / (y t₁).r ^ 3 - 1 / (y t₂).r ^ 3) := by
  obtain ⟨_, hR, hGM, _, _, hTr, hTS, hST, _⟩ := C01_planet_consistent name P hP
  have hr0 : ∀ t ∈ Set.Icc a b, 0 < (y t).r := by
    intro t ht
    have := hr t ht
    simp only [Planet.computeH] at this
    have h3 : 0 < (y t).r * P.RP := by linarith
    exact pos_of_mul_pos_left h3 hR.le
  obtain ⟨hh, hEE⟩ := C141_reported_energy name P hP hJ m beta LD A alpha RN atm f st hm hb hA delta y a b S hy hd hr hp hv hg
    h0 h1 t₁ t₂ ht₁ ht₂
  have hJ2 := J2_pos hP
  have hr1 := hr0 t₁ ht₁
  have hr2 := hr0 t₂ ht₂
  have hq : 0 ≤ 1 / (y t₁).r ^ 3 - 1 / (y t₂).r ^ 3 :=
    sub_nonneg.mpr (one_div_le_one_div_of_le (by positivity) (pow_le_pow_left₀ hr1.le h12 3))
  have hle : energy P.GM (cutAt P (y t₂)).rVec ((cutAt P (y t₂)).vIe P) ≤ energy P.GM (cutAt P (y t₁)).rVec ((cutAt P (y t₁)).vIe P) := by
    have : 0 ≤ P.GM / P.RP * (P.J2 / 2) * (1 / (y t₁).r ^ 3 - 1 / (y t₂).r ^ 3) := by positivity
    linarith
  obtain ⟨A₁, B₁, e₁, a1, a2, a3, a4, a5, a6⟩ := cut_apsides hP hr1 hU₁ hE
  obtain ⟨A₂, B₂, e₂, b1, b2, b3, b4, b5, b6⟩ := cut_apsides hP hr2 hU₂ (hle.trans_lt hE)
  rw [← hh] at b4
  set E₁ := energy P.GM (cutAt P (y t₁)).rVec ((cutAt P (y t₁)).vIe P)
  set E₂ := energy P.GM (cutAt P (y t₂)).rVec ((cutAt P (y t₂)).vIe P)
  set h := angMom (cutAt P (y t₁)).rVec ((cutAt P (y t₁)).vIe P)
  have hE2 : E₂ < 0 := hle.trans_lt hE
  have hk : 0 ≤ h ^ 2 / P.GM ^ 2 := by positivity
  have a4' : e₁ ^ 2 = 1 + 2 * E₁ * (h ^ 2 / P.GM ^ 2) := by rw [a4]; ring
  have b4' : e₂ ^ 2 = 1 + 2 * E₂ * (h ^ 2 / P.GM ^ 2) := by rw [b4]; ring
  have hee : e₂ ≤ e₁ := by
    refine (sq_le_sq₀ b3 a3).mp ?_
    rw [a4', b4']
    nlinarith
  have hax : ∀ E : ℝ, E < 0 → -P.GM / (2 * E) = P.GM / (2 * -E) := fun E hE => by
    rw [mul_neg, div_neg, neg_div]
  rw [hax E₁ hE] at a5 a6
  rw [hax E₂ hE2] at b5 b6
  have hE1' : E₁ ≠ 0 := hE.ne
  have hE2' : E₂ ≠ 0 := hE2.ne
  have hn1 : 0 < -E₁ := by linarith
  have hn2 : 0 < -E₂ := by linarith
  have haa : P.GM / (2 * -E₂) ≤ P.GM / (2 * -E₁) := by
    apply div_le_div_of_nonneg_left hGM.le (by positivity); linarith
  refine ⟨A₁, A₂, B₁, B₂, a1, b1, a2, b2, ?_, ?_, ?_⟩
  · have : P.GM / (2 * -E₂) * (1 + e₂) ≤ P.GM / (2 * -E₁) * (1 + e₁) :=
      mul_le_mul haa (by linarith) (by linarith) (by positivity)
    linarith
  · -- periapsis is h²/GM/(1+e)
    have p1 : P.GM / (2 * -E₁) * (1 - e₁) = h ^ 2 / P.GM / (1 + e₁) := by
      rw [eq_div_iff (by linarith)]
      have : P.GM / (2 * -E₁) * (1 - e₁) * (1 + e₁) = P.GM / (2 * -E₁) * (1 - e₁ ^ 2) := by ring
      rw [this, a4']; field_simp; ring
    have p2 : P.GM / (2 * -E₂) * (1 - e₂) = h ^ 2 / P.GM / (1 + e₂) := by
      rw [eq_div_iff (by linarith)]
      have : P.GM / (2 * -E₂) * (1 - e₂) * (1 + e₂) = P.GM / (2 * -E₂) * (1 - e₂ ^ 2) := by ring
      rw [this, b4']; field_simp; ring
    have : h ^ 2 / P.GM / (1 + e₁) ≤ h ^ 2 / P.GM / (1 + e₂) :=
      div_le_div_of_nonneg_left (by positivity) (by linarith) (by linarith)
    linarith
  · have s1 : P.RP + 500 * (A₁ + B₁) = P.GM / (2 * -E₁) := by linarith
    have s2 : P.RP + 500 * (A₂ + B₂) = P.GM / (2 * -E₂) := by linarith
    rw [s1, s2, one_div_div, one_div_div]
    have : 2 * -E₂ / P.GM - 2 * -E₁ / P.GM = 2 * (E₁ - E₂) / P.GM := by ring
    rw [this, hEE]
    field_simp

/-- The transverse part of the kinetic energy is at most the kinetic energy. -/
theorem angMom_le_energy {GM : ℝ} {R U : V3} (hR : 0 < V3.norm R) :
    angMom R U ^ 2 / (2 * V3.norm R ^ 2) - GM / V3.norm R ≤ energy GM R U := by
  unfold energy angMom
  have h : V3.norm (V3.cross R U) ^ 2 ≤ V3.norm R ^ 2 * V3.norm U ^ 2 := by
    rw [V3.norm_sq, V3.norm_sq, V3.norm_sq]
    simp only [V3.cross, V3.dot]
    nlinarith [sq_nonneg (R.x * U.x + R.y * U.y + R.z * U.z)]
  have : V3.norm (V3.cross R U) ^ 2 / (2 * V3.norm R ^ 2) ≤ V3.norm U ^ 2 / 2 := by
    rw [div_le_div_iff₀ (by positivity) (by norm_num)]; nlinarith
  linarith

/-- C141: the flight never rises above the apoapsis reported for any cut below it. -/
theorem C141_below_apoapsis (name : String) (P : Planet)
    (hP : Planet.init name = .ok P) (hJ : P.J3 = 0) (m beta LD A alpha RN : ℝ) (atm : Atmosphere) (f : ℝ → ℝ)
    (st : InitState) (hm : 0 < m) (hb : 0 < beta) (hA : 0 < A) (delta : ℝ → ℝ) (y : ℝ → FState) (a b : ℝ) (S : Finset ℝ)
    (hy : SwitchedFlight (fun t s => (Vehicle.mk' m beta LD A alpha RN P atm false f st).EOM s t (delta t)) y a b S)
    (hd : ∀ t ∈ Set.Icc a b, sin (delta t) = 0)
    (hr : ∀ t ∈ Set.Icc a b, P.hThres < P.computeH ((y t).r * P.RP))
    (hp : ∀ t ∈ Set.Icc a b, cos (y t).phi ≠ 0) (hv : ∀ t ∈ Set.Icc a b, (y t).v ≠ 0)
    (hg : ∀ t ∈ Set.Icc a b, cos (y t).gamma + 1e-2 ≠ 0)
    (h0 : (y a).phi = 0) (h1 : sin (y a).psi = 0) (t₁ : ℝ) (ht₁ : t₁ ∈ Set.Icc a b)
    (hU₁ : (cutAt P (y t₁)).vIe P ≠ 0) (hE : energy P.GM (cutAt P (y t₁)).rVec ((cutAt P (y t₁)).vIe P) < 0) :
    ∃ A₁, (cutAt P (y t₁)).apoapsisAltitudeKm P = some A₁ ∧
      ∀ t ∈ Set.Icc a b, P.computeH ((y t).r * P.RP) ≤ 1000 * A₁ := by
  obtain ⟨_, hR, hGM, _, _, hTr, hTS, hST, _⟩ := C01_planet_consistent name P hP
  have hr0 : ∀ t ∈ Set.Icc a b, 0 < (y t).r := by
    intro t ht
    have := hr t ht
    simp only [Planet.computeH] at this
    have h3 : 0 < (y t).r * P.RP := by linarith
    exact pos_of_mul_pos_left h3 hR.le
  have hr1 := hr0 t₁ ht₁
  obtain ⟨A₁, B₁, e₁, a1, a2, a3, a4, a5, a6⟩ := cut_apsides hP hr1 hU₁ hE
  refine ⟨A₁, a1, fun t ht => ?_⟩
  have hrt := hr0 t ht
  have hn : ∀ s : FState, 0 < s.r → V3.norm (cutAt P s).rVec = s.r * P.RP := fun s hs => by
    rw [rVec_eq]; exact norm_pos_r (by simp only [cutAt]; positivity)
  simp only [Planet.computeH]
  suffices h : (y t).r * P.RP ≤ P.RP + 1000 * A₁ by linarith
  obtain ⟨hh, hEE⟩ := C141_reported_energy name P hP hJ m beta LD A alpha RN atm f st hm hb hA delta y a b S hy hd hr hp hv hg
    h0 h1 t₁ t ht₁ ht
  have hJ2 := J2_pos hP
  -- energy does not decrease on the way down to t₁
  have hcmp : (y t₁).r ≤ (y t).r → energy P.GM (cutAt P (y t)).rVec ((cutAt P (y t)).vIe P) ≤
      energy P.GM (cutAt P (y t₁)).rVec ((cutAt P (y t₁)).vIe P) := by
    intro h12
    have hq : 0 ≤ 1 / (y t₁).r ^ 3 - 1 / (y t).r ^ 3 :=
      sub_nonneg.mpr (one_div_le_one_div_of_le (by positivity) (pow_le_pow_left₀ hr1.le h12 3))
    have : 0 ≤ P.GM / P.RP * (P.J2 / 2) * (1 / (y t₁).r ^ 3 - 1 / (y t).r ^ 3) := by positivity
    linarith
  -- bound from the energy at t₁
  have key : ∀ s : FState, 0 < s.r → angMom (cutAt P (y t₁)).rVec ((cutAt P (y t₁)).vIe P) = angMom (cutAt P s).rVec ((cutAt P s).vIe P) →
      energy P.GM (cutAt P s).rVec ((cutAt P s).vIe P) ≤ energy P.GM (cutAt P (y t₁)).rVec ((cutAt P (y t₁)).vIe P) →
      s.r * P.RP ≤ P.RP + 1000 * A₁ := by
    intro s hs hhs hle
    have hpos : 0 < s.r * P.RP := by positivity
    have hb := angMom_le_energy (GM := P.GM) (U := (cutAt P s).vIe P) (by rw [hn s hs]; exact hpos)
    rw [hn s hs, ← hhs] at hb
    have hb2 := hb.trans hle
    rw [a5]
    set E₁ := energy P.GM (cutAt P (y t₁)).rVec ((cutAt P (y t₁)).vIe P)
    set h := angMom (cutAt P (y t₁)).rVec ((cutAt P (y t₁)).vIe P)
    set x := s.r * P.RP
    have hq : h ^ 2 / 2 - P.GM * x - E₁ * x ^ 2 ≤ 0 := by
      have e : h ^ 2 / (2 * x ^ 2) - P.GM / x - E₁ = (h ^ 2 / 2 - P.GM * x - E₁ * x ^ 2) / x ^ 2 := by field_simp
      have : (h ^ 2 / 2 - P.GM * x - E₁ * x ^ 2) / x ^ 2 ≤ 0 := by rw [← e]; linarith
      by_contra hc
      push Not at hc
      exact absurd this (not_le.mpr (by positivity))
    have a4' : (P.GM * e₁) ^ 2 = P.GM ^ 2 + 2 * E₁ * h ^ 2 := by
      rw [mul_pow, a4]; field_simp
    have hsq : (-2 * E₁ * x - P.GM) ^ 2 ≤ (P.GM * e₁) ^ 2 := by
      rw [a4']
      nlinarith
    have habs := abs_le_of_sq_le_sq hsq (by positivity)
    have e2 : -P.GM / (2 * E₁) * (1 + e₁) = P.GM * (1 + e₁) / (2 * -E₁) := by
      have := hE.ne
      rw [mul_neg, div_neg, neg_div]; ring
    rw [e2, le_div_iff₀ (by linarith)]
    linarith [(abs_le.mp habs).2]
  rcases le_total (y t₁).r (y t).r with h12 | h12
  · exact key _ hrt hh (hcmp h12)
  · exact (mul_le_mul_of_nonneg_right h12 hR.le).trans (key _ hr1 rfl le_rfl)

/-- C141: the values read after every completed propagation are those of a flight cut in one of the integrator's samples. -/
theorem C141_cut_is_sample (V : Vehicle) (mode : ScipyMode) (I : Integrator) (tSec dt deltaDeg : ℝ) (out : PropOut)
    (h : V.propogateEntry mode I tSec dt deltaDeg = .ok out) :
    ∃ p, (I (fun t y => V.EOM y t (deltaDeg * π / 180)) (V.planet.nonDimState (Vehicle.entryState V.planet V.init))
        (Vehicle.tGrid V.planet tSec dt))[out.index - 1]? = some p ∧ 1 ≤ out.index ∧ out.terminal = .ok (cutAt V.planet p.2) := by
  obtain ⟨s, hs, -⟩ := terminal_isLast (C24_arrays_aligned V mode I tSec dt deltaDeg out h)
  have hpi : (180.0 : ℝ) = 180 := by norm_num
  unfold Vehicle.propogateEntry Vehicle.solveTrajectory at h
  rw [hpi] at h
  obtain ⟨idx, flag, qc, qr, heat, hc, hq, hq2, hh, rfl⟩ := postProcess_inv h
  set l := I (fun t y => V.EOM y t (deltaDeg * π / 180)) (V.planet.nonDimState (Vehicle.entryState V.planet V.init))
        (Vehicle.tGrid V.planet tSec dt) with hl
  have h1 : 1 ≤ idx := by
    rcases Nat.eq_zero_or_pos idx with h0 | h0
    · subst h0
      simp [PropOut.terminal, TrajArrays.truncate, pyIndex, bind, Except.bind] at hs
    · exact h0
  have hlt : idx - 1 < idx := by omega
  cases hp : l[idx - 1]? with
  | none =>
    simp [PropOut.terminal, TrajArrays.truncate, TrajArrays.ofSamples, Planet.dimensionalizeArr, pyIndex, bind, Except.bind,
      hlt, hp] at hs
  | some p =>
    refine ⟨p, rfl, h1, ?_⟩
    simp [PropOut.terminal, TrajArrays.truncate, TrajArrays.ofSamples, Planet.dimensionalizeArr, pyIndex, bind, Except.bind,
      hlt, hp, pure, Except.pure, cutAt]

/-! A flight that climbs away from Venus above its atmosphere, cut at two radii. -/

/-- The start of the case: 200 km above Venus, climbing at half the reference speed. -/
def venusClimb (P : Planet) : FState :=
  { r := 1 + 200e3 / P.RP, theta := 0, phi := 0, v := 0.5, psi := 0, gamma := 0.1, drange := 0 }

theorem venus_climb {P : Planet} (hP : Planet.init "VENUS" = .ok P) :
    Departure P (venusClimb P) ∧ P.hThres < P.computeH ((venusClimb P).r * P.RP) ∧ 0 < (venusClimb P).v * sin (venusClimb P).gamma ∧
      energy P.GM (cutAt P (venusClimb P)).rVec ((cutAt P (venusClimb P)).vIe P) < 0 ∧
      0 < angMom (cutAt P (venusClimb P)).rVec ((cutAt P (venusClimb P)).vIe P) := by
  obtain ⟨_, hRP, hGM, _, _, _, _, _, hV, hτ, hV2, hτV, hΩ, _⟩ := C01_planet_consistent "VENUS" P hP
  have hJ : P.J3 = 0 := (C61_bodies "VENUS" P hP).mpr (by simp)
  have hc : P.RP = 6051800 ∧ P.OMEGA = -299237e-12 ∧ P.hThres = 180000 ∧ P.GM = 3248599e8 := by
    simp [Planet.init] at hP
    subst hP
    norm_num [Planet.withScales]
  obtain ⟨c1, c2, c3, c4⟩ := hc
  have hs : 0 < sin (0.1 : ℝ) := sin_pos_of_pos_of_lt_pi (by norm_num) (by linarith [two_le_pi])
  have hco : (0.9 : ℝ) ≤ cos 0.1 := by
    have := one_sub_sq_div_two_le_cos (x := 0.1); norm_num at this ⊢; linarith
  have hcl := cos_le_one (0.1 : ℝ)
  have hVb : 1000 ≤ P.Vref := by
    by_contra hlt
    push Not at hlt
    have : P.Vref ^ 2 < 1000 ^ 2 := by gcongr
    rw [c1, c4] at hV2
    norm_num at hV2 this
    linarith
  have hτb : P.tau ≤ 6052 := by
    by_contra hlt
    push Not at hlt
    have : 6052 * 1000 < P.tau * P.Vref := by nlinarith
    rw [hτV, c1] at this
    norm_num at this
  have hO1 : P.OMEGAbar ≤ 0 := by rw [hΩ, c2]; norm_num; linarith
  have hO2 : -0.01 ≤ P.OMEGAbar := by rw [hΩ, c2]; norm_num; linarith
  have hr1 : 1 < (venusClimb P).r := by simp only [venusClimb]; rw [c1]; norm_num
  have hr2 : (venusClimb P).r < 1.1 := by simp only [venusClimb]; rw [c1]; norm_num
  have hh : P.computeH ((venusClimb P).r * P.RP) = 200000 := by
    simp only [Planet.computeH, venusClimb]; field_simp; norm_num
  have hm : 0 < stateMomentum P.OMEGAbar (venusClimb P) := by
    rw [stateMomentum_eq]
    have : (venusClimb P).phi = 0 ∧ (venusClimb P).psi = 0 ∧ (venusClimb P).v = 0.5 ∧ (venusClimb P).gamma = 0.1 := ⟨rfl, rfl, rfl, rfl⟩
    rw [this.1, this.2.1, this.2.2.1, this.2.2.2, cos_zero]
    have : -0.011 ≤ P.OMEGAbar * (venusClimb P).r := by norm_num at *; nlinarith
    have h2 : 0.45 ≤ 0.5 * cos 0.1 := by norm_num at *; linarith
    have : 0 < 0.5 * cos 0.1 * 1 + P.OMEGAbar * ((venusClimb P).r * 1) := by norm_num at *; linarith
    have : 0 < (venusClimb P).r := by linarith
    positivity
  refine ⟨⟨?_, ?_, ?_, ?_, ?_⟩, ?_, ?_, ?_, ?_⟩
  · simp only [venusClimb]; norm_num
  · simp [venusClimb]
  · simp only [venusClimb]; intro hx; rw [hx] at hco; norm_num at hco
  · have := hh; simp only [Planet.computeH] at this; rw [this]; norm_num
  · intro hx; have := hh; simp only [Planet.computeH] at this; rw [this, c3] at hx; norm_num at hx
  · rw [hh, c3]; norm_num
  · simp only [venusClimb]; positivity
  · rw [cut_energy hP (by linarith), stateMomentum_eq]
    refine mul_neg_of_pos_of_neg (by positivity) ?_
    have e : (venusClimb P).phi = 0 ∧ (venusClimb P).psi = 0 ∧ (venusClimb P).v = 0.5 ∧ (venusClimb P).gamma = 0.1 := ⟨rfl, rfl, rfl, rfl⟩
    unfold jacobi
    rw [e.1, e.2.1, e.2.2.1, e.2.2.2, cos_zero]
    have h1 : 0.9 < 1 / (venusClimb P).r := by
      rw [lt_div_iff₀ (by linarith)]; norm_num at *; linarith
    have h2 : P.OMEGAbar * ((venusClimb P).r * 1 * (0.5 * cos 0.1 * 1)) ≤ 0 :=
      mul_nonpos_of_nonpos_of_nonneg hO1 (by positivity)
    have h3 : (P.OMEGAbar * (venusClimb P).r) ^ 2 ≤ 1 := by
      have : -1 ≤ P.OMEGAbar * (venusClimb P).r := by norm_num at *; nlinarith
      have : P.OMEGAbar * (venusClimb P).r ≤ 0 := mul_nonpos_of_nonpos_of_nonneg hO1 (by linarith)
      nlinarith
    have h4 : (0.5 : ℝ) ^ 2 / 2 = 0.125 := by norm_num
    have h5 : (0.125 : ℝ) + 0.5 - 0.9 < 0 := by norm_num
    have h6 : (0.5 : ℝ) = 1 / 2 := by norm_num
    nlinarith
  · rw [cut_angMom hP rfl (by simp [venusClimb]), abs_of_pos hm]
    positivity

/-- Hypotheses of `C141_higher_cut` and `C141_below_apoapsis` met, with the second cut strictly higher. -/
example : ∃ (P : Planet) (atm : Atmosphere) (y : ℝ → FState) (b : ℝ), Planet.init "VENUS" = .ok P ∧ 0 < b ∧
    y 0 = venusClimb P ∧ (y 0).r < (y b).r ∧
    SwitchedFlight (fun t s => (Vehicle.mk' 1000 100 0.2 10 0 1 P atm false demoCurve ⟨0, 0, 0, 0, 0, 0, 0, 0⟩).EOM s t 0) y 0 b ∅ ∧
    (∃ A₁, (cutAt P (y 0)).apoapsisAltitudeKm P = some A₁ ∧ ∀ t ∈ Set.Icc 0 b, P.computeH ((y t).r * P.RP) ≤ 1000 * A₁) ∧
    ∃ A₁ A₂ B₁ B₂, (cutAt P (y 0)).apoapsisAltitudeKm P = some A₁ ∧ (cutAt P (y b)).apoapsisAltitudeKm P = some A₂ ∧
      (cutAt P (y 0)).periapsisAltitudeKm P = some B₁ ∧ (cutAt P (y b)).periapsisAltitudeKm P = some B₂ ∧ A₂ ≤ A₁ ∧ B₁ ≤ B₂ ∧
      1 / (P.RP + 500 * (A₂ + B₂)) - 1 / (P.RP + 500 * (A₁ + B₁)) =
        P.J2 / P.RP * (1 / (y 0).r ^ 3 - 1 / (y b).r ^ 3) := by
  obtain ⟨P, hP⟩ := (C01_planet_names "VENUS").1.mpr (by simp [Spec.bodies])
  have hF : ("VENUS", Data.venus) ∈ shippedFiles := by simp [shippedFiles]
  obtain ⟨atm, hatm⟩ := (C85_loads "VENUS" Data.venus hF P hP).1
  have hJ : P.J3 = 0 := (C61_bodies "VENUS" P hP).mpr (by simp)
  have hRP : 0 < P.RP := (C01_planet_consistent "VENUS" P hP).2.1
  obtain ⟨hd, hh, hup, hE, hM⟩ := venus_climb hP
  obtain ⟨y, b, hb, hy0, hdep, hy⟩ := (C88_forward_flight "VENUS" Data.venus hF P hP atm hatm 1000 100 0.2 10 0 1 false demoCurve
    ⟨0, 0, 0, 0, 0, 0, 0, 0⟩ (by simp) 0 0 _ hd).1
  have h0m : (0 : ℝ) ∈ Set.Icc 0 b := ⟨le_rfl, hb.le⟩
  have ev : ∀ᶠ t in nhdsWithin 0 (Set.Icc 0 b), P.hThres < P.computeH ((y t).r * P.RP) ∧ 0 < (y t).v * sin (y t).gamma := by
    have k1 : ContinuousWithinAt (fun t => P.computeH ((y t).r * P.RP)) (Set.Icc 0 b) 0 := by
      simp only [Planet.computeH]
      exact ((hy.r 0 h0m).mul continuousWithinAt_const).sub continuousWithinAt_const
    have k2 : ContinuousWithinAt (fun t => (y t).v * sin (y t).gamma) (Set.Icc 0 b) 0 :=
      (hy.v 0 h0m).mul (continuous_sin.continuousAt.comp_continuousWithinAt (hy.gamma 0 h0m))
    exact (k1.eventually (lt_mem_nhds (show P.hThres < P.computeH ((y 0).r * P.RP) by rw [hy0]; exact hh))).and (k2.eventually (lt_mem_nhds (show 0 < (y 0).v * sin (y 0).gamma by rw [hy0]; exact hup)))
  obtain ⟨c, hc, hall⟩ : ∃ c, 0 < c ∧ ∀ t ∈ Set.Icc 0 c, t ∈ Set.Icc 0 b ∧ P.hThres < P.computeH ((y t).r * P.RP) ∧
      0 < (y t).v * sin (y t).gamma := by
    obtain ⟨ε, hε, hsub⟩ := Metric.mem_nhdsWithin_iff.mp ev
    refine ⟨min (ε / 2) b, lt_min (by linarith) hb, fun t ht => ?_⟩
    have ht2 : t ≤ ε / 2 := ht.2.trans (min_le_left _ _)
    have ht3 : t ∈ Set.Icc 0 b := ⟨ht.1, ht.2.trans (min_le_right _ _)⟩
    refine ⟨ht3, hsub ⟨?_, ht3⟩⟩
    rw [Metric.mem_ball, Real.dist_eq, sub_zero, abs_of_nonneg ht.1]
    linarith
  have hcb : c ≤ b := (hall c ⟨hc.le, le_rfl⟩).1.2
  have hyc := flight_mono hy le_rfl hcb
  have hmono : StrictMonoOn (fun t => (y t).r) (Set.Icc 0 c) := by
    refine strictMonoOn_of_deriv_pos (convex_Icc 0 c) hyc.r fun t ht => ?_
    rw [interior_Icc] at ht
    rw [(hyc.solves t ht (by simp)).r.deriv]
    exact (hall t ⟨ht.1.le, ht.2.le⟩).2.2
  have hlt : (y 0).r < (y c).r := hmono ⟨le_rfl, hc.le⟩ ⟨hc.le, le_rfl⟩ hc
  have hdc : ∀ t ∈ Set.Icc 0 c, Departure P (y t) := fun t ht => hdep t (hall t ht).1
  have hang := (C141_reported_energy "VENUS" P hP hJ 1000 100 0.2 10 0 1 atm demoCurve ⟨0, 0, 0, 0, 0, 0, 0, 0⟩ (by norm_num)
    (by norm_num) (by norm_num) (fun _ => 0) y 0 c ∅ hyc (by simp) (fun t ht => (hall t ht).2.1) (fun t ht => (hdc t ht).phi)
    (fun t ht => (hdc t ht).v) (fun t ht => by have := (hdc t ht).gamma; norm_num at this ⊢; intro hx; exact this (by linarith))
    (by rw [hy0]; rfl) (by rw [hy0]; simp [venusClimb]) 0 c ⟨le_rfl, hc.le⟩ ⟨hc.le, le_rfl⟩).1
  rw [← hy0] at hM hE
  have hU : ∀ s : FState, 0 < angMom (cutAt P s).rVec ((cutAt P s).vIe P) → (cutAt P s).vIe P ≠ 0 := by
    intro s h hz
    rw [hz] at h
    simp [angMom, V3.cross, V3.norm, V3.dot] at h
  exact ⟨P, atm, y, c, hP, hc, hy0, hlt, hyc,
    C141_below_apoapsis "VENUS" P hP hJ 1000 100 0.2 10 0 1 atm demoCurve ⟨0, 0, 0, 0, 0, 0, 0, 0⟩ (by norm_num)
    (by norm_num) (by norm_num) (fun _ => 0) y 0 c ∅ hyc (by simp) (fun t ht => (hall t ht).2.1) (fun t ht => (hdc t ht).phi)
    (fun t ht => (hdc t ht).v) (fun t ht => by have := (hdc t ht).gamma; norm_num at this ⊢; intro hx; exact this (by linarith))
    (by rw [hy0]; rfl) (by rw [hy0]; simp [venusClimb]) 0 ⟨le_rfl, hc.le⟩ (hU _ hM) hE,
    C141_higher_cut "VENUS" P hP hJ 1000 100 0.2 10 0 1 atm demoCurve ⟨0, 0, 0, 0, 0, 0, 0, 0⟩ (by norm_num)
    (by norm_num) (by norm_num) (fun _ => 0) y 0 c ∅ hyc (by simp) (fun t ht => (hall t ht).2.1) (fun t ht => (hdc t ht).phi)
    (fun t ht => (hdc t ht).v) (fun t ht => by have := (hdc t ht).gamma; norm_num at this ⊢; intro hx; exact this (by linarith))
    (by rw [hy0]; rfl) (by rw [hy0]; simp [venusClimb]) 0 c ⟨le_rfl, hc.le⟩ ⟨hc.le, le_rfl⟩ hlt.le (hU _ hM)
    (hU _ (hang ▸ hM)) hE⟩

end AMAT.Props
