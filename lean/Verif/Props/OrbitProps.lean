import Verif.Lemmas.Kepler
import Verif.Props.TrajectoryProps

/-
Properties C28, C29, C30, C31, C45: orbital elements of the exit state, capture and target-apoapsis verdicts,
manoeuvre costs.
-/

noncomputable section

namespace AMAT.Props

open Real AMAT.Spec

/-! ### C28 -/

/-- C28: the eccentricity is never the root of a negative number, and (for non-zero angular momentum) it is below one
exactly for negative energy. -/
theorem C28_eccentricity (name : String) (P : Planet) (hP : Planet.init name = .ok P) (r v g : ℝ) (hr : 0 < r) :
    ∃ e, P.eccScalar (Planet.angMomScalar r v g) (P.energyScalar r v) = some e ∧ 0 ≤ e ∧
      (Planet.angMomScalar r v g ≠ 0 → (v ^ 2 / 2 < P.GM / r ↔ e < 1)) := by
  obtain ⟨_, _, hGM, _⟩ := C01_planet_consistent name P hP
  obtain ⟨e, h1, h2, h3⟩ := eccScalar_some P (v := v) (g := g) hGM hr
  refine ⟨e, h1, h2, fun hh => ?_⟩
  rw [energyScalar_eq] at h3
  have hpos : 0 < (Planet.angMomScalar r v g) ^ 2 / P.GM ^ 2 := by positivity
  have h4 : e ^ 2 = 1 + 2 * (v ^ 2 / 2 - P.GM / r) * ((Planet.angMomScalar r v g) ^ 2 / P.GM ^ 2) := by
    rw [h3]; ring
  constructor
  · intro hE
    have : (v ^ 2 / 2 - P.GM / r) * ((Planet.angMomScalar r v g) ^ 2 / P.GM ^ 2) < 0 :=
      mul_neg_of_neg_of_pos (by linarith) hpos
    nlinarith
  · intro he
    by_contra hc
    push Not at hc
    have : 0 ≤ (v ^ 2 / 2 - P.GM / r) * ((Planet.angMomScalar r v g) ^ 2 / P.GM ^ 2) :=
      mul_nonneg (by linarith) hpos.le
    nlinarith

/-- Non-vacuity: a circular-speed state at Venus has non-zero angular momentum. -/
example : Planet.angMomScalar 7000000 7000 0 ≠ 0 := by simp [Planet.angMomScalar]

/-- The elements of a terminal state with non-zero inertial velocity. -/
theorem elements_eq (P : Planet) (s : Terminal) (hGM : 0 < P.GM) (hr : 0 < s.r) (hU : s.vIe P ≠ 0) :
    ∃ g e, s.fpaIe P = some g ∧ 0 ≤ e ∧
      e ^ 2 = 1 + 2 * energy P.GM s.rVec (s.vIe P) * (angMom s.rVec (s.vIe P)) ^ 2 / P.GM ^ 2 ∧
      energy P.GM s.rVec (s.vIe P) = (s.vIeMag P) ^ 2 / 2 - P.GM / s.r ∧
      angMom s.rVec (s.vIe P) = Planet.angMomScalar s.r (s.vIeMag P) g ∧
      P.eccScalar (Planet.angMomScalar s.r (s.vIeMag P) g) (P.energyScalar s.r (s.vIeMag P)) = some e ∧
      s.elements P = (P.semiMajorAxisScalar (energy P.GM s.rVec (s.vIe P))).map (fun a => (a, e)) := by
  obtain ⟨g, hg, _, _, _, hh⟩ := fpaIe_spec P s hr hU
  obtain ⟨e, h1, h2, h3⟩ := eccScalar_some P (v := s.vIeMag P) (g := g) hGM hr
  have hE : energy P.GM s.rVec (s.vIe P) = (s.vIeMag P) ^ 2 / 2 - P.GM / s.r := by
    unfold energy; rw [vIeMag_eq, rVec_eq, norm_pos_r hr]
  refine ⟨g, e, hg, h2, ?_, hE, hh.symm, h1, ?_⟩
  · rw [hE, ← energyScalar_eq]
    unfold angMom; rw [← hh]; exact h3
  · unfold Terminal.elements
    rw [hg, hE, ← energyScalar_eq]
    simp only [bind, Option.bind, h1, pure]
    cases P.semiMajorAxisScalar (P.energyScalar s.r (s.vIeMag P)) <;> rfl

/-- C28: for a captured exit state (position `R`, inertial velocity `U`, negative energy) the reported apoapsis and
periapsis altitudes exist, bracket the current altitude, and the corresponding radii are exactly those at which an
orbit with this energy and angular momentum has zero radial speed. -/
theorem C28_apsides (name : String) (P : Planet) (hP : Planet.init name = .ok P) (s : Terminal) (hr : 0 < s.r)
    (R U : V3) (hR : R = pos s.r s.theta s.phi)
    (hUd : U = vel s.theta s.phi s.v s.psi s.g + V3.cross (spin P.OMEGA) R) (hU : U ≠ 0)
    (hE : energy P.GM R U < 0) :
    ∃ A B, s.apoapsisAltitudeKm P = some A ∧ s.periapsisAltitudeKm P = some B ∧
      P.RP + 1000 * B ≤ s.r ∧ s.r ≤ P.RP + 1000 * A ∧ 0 ≤ P.RP + 1000 * B ∧
      ∀ rho, 0 < rho → (radialSq P.GM (energy P.GM R U) (angMom R U) rho = 0 ↔
        rho = P.RP + 1000 * A ∨ rho = P.RP + 1000 * B) := by
  obtain ⟨_, _, hGM, _⟩ := C01_planet_consistent name P hP
  have hR' : R = s.rVec := hR
  have hU' : U = s.vIe P := by rw [hUd, hR, vIe_eq]
  clear hUd hR
  subst hU' hR'
  obtain ⟨g, e, hg, he0, he2, hEe, hh, _, hel⟩ := elements_eq P s hGM hr hU
  set E := energy P.GM s.rVec (s.vIe P) with hEd
  set h := angMom s.rVec (s.vIe P) with hhd
  have hsm : P.semiMajorAxisScalar E = some (-P.GM / (2 * E)) := by
    unfold Planet.semiMajorAxisScalar; rw [if_neg hE.ne, Lits.l10]; congr 1; ring
  rw [hsm] at hel
  set a := -P.GM / (2 * E) with ha
  have ha0 : 0 < a := div_pos_of_neg_of_neg (by linarith) (by linarith)
  have l3 : (1.0E3:ℝ) = 1000 := by norm_num
  have hb := apsides_bracket (v := s.vIeMag P) (g := g) (a := a) hGM hr (by rw [← hEe]; exact hE)
    (by rw [← hEe]) he0 (by rw [← hEe, ← hh]; exact he2)
  have he1 : e ≤ 1 := by
    have : 2 * E * h ^ 2 / P.GM ^ 2 ≤ 0 :=
      div_nonpos_of_nonpos_of_nonneg (mul_nonpos_of_nonpos_of_nonneg (by linarith) (sq_nonneg _)) (sq_nonneg _)
    nlinarith
  refine ⟨(a * (1 + e) - P.RP) / 1000, (a * (1 - e) - P.RP) / 1000, ?_, ?_, ?_, ?_, ?_, ?_⟩
  · unfold Terminal.apoapsisAltitudeKm
    rw [hel, l3, Lits.l10]; rfl
  · unfold Terminal.periapsisAltitudeKm
    rw [hel, l3, Lits.l10]; rfl
  · linarith [hb.1]
  · linarith [hb.2]
  · have : 0 ≤ a * (1 - e) := mul_nonneg ha0.le (by linarith)
    linarith
  · intro rho hrho
    have hf := radialSq_factor hGM hE.ne ha he2 hrho.ne'
    have e1 : P.RP + 1000 * ((a * (1 + e) - P.RP) / 1000) = a * (1 + e) := by ring
    have e2 : P.RP + 1000 * ((a * (1 - e) - P.RP) / 1000) = a * (1 - e) := by ring
    rw [e1, e2]
    have h2 : 0 < rho ^ 2 := by positivity
    constructor
    · intro h0
      rw [h0, mul_zero] at hf
      have : (rho - a * (1 - e)) * (rho - a * (1 + e)) = 0 := by
        rcases mul_eq_zero.mp hf.symm with h | h
        · exfalso; linarith
        · exact h
      rcases mul_eq_zero.mp this with h | h
      · right; linarith
      · left; linarith
    · intro h0
      have : rho ^ 2 * radialSq P.GM E h rho = 0 := by
        rw [hf]; rcases h0 with h | h <;> rw [h] <;> ring
      rcases mul_eq_zero.mp this with h | h
      · exact absurd h h2.ne'
      · exact h

/-- C28: on an unbound exit state the reported apoapsis altitude is below the planet centre (or not a finite number at
exactly zero energy); so a positive reported apoapsis altitude proves capture. -/
theorem C28_positive_apoapsis_means_bound (name : String) (P : Planet) (hP : Planet.init name = .ok P) (s : Terminal)
    (hr : 0 < s.r) (A : ℝ) (hA : s.apoapsisAltitudeKm P = some A) :
    (energy P.GM s.rVec (s.vIe P) < 0 ↔ 0 ≤ P.RP + 1000 * A) := by
  obtain ⟨_, hRP, hGM, _⟩ := C01_planet_consistent name P hP
  have hU : s.vIe P ≠ 0 := by
    intro h
    unfold Terminal.apoapsisAltitudeKm Terminal.elements Terminal.fpaIe at hA
    have : npUnit (s.vIe P) = none := by
      unfold npUnit; rw [if_pos (V3.norm_eq_zero.mpr h)]
    rw [this] at hA
    cases h2 : npUnit s.rVec <;> simp [h2] at hA
  obtain ⟨g, e, hg, he0, he2, hEe, hh, _, hel⟩ := elements_eq P s hGM hr hU
  set E := energy P.GM s.rVec (s.vIe P) with hEd
  have l3 : (1.0E3:ℝ) = 1000 := by norm_num
  unfold Terminal.apoapsisAltitudeKm at hA
  rw [hel] at hA
  by_cases hE0 : E = 0
  · simp [Planet.semiMajorAxisScalar, hE0] at hA
  · have hsm : P.semiMajorAxisScalar E = some (-P.GM / (2 * E)) := by
      unfold Planet.semiMajorAxisScalar; rw [if_neg hE0, Lits.l10]; congr 1; ring
    rw [hsm] at hA
    simp only [Option.map_some, bind, Option.bind, pure, Option.some.injEq, l3, Lits.l10] at hA
    have e1 : P.RP + 1000 * A = -P.GM / (2 * E) * (1 + e) := by rw [← hA]; ring
    rw [e1]
    constructor
    · intro hE
      have : 0 < -P.GM / (2 * E) := div_pos_of_neg_of_neg (by linarith) (by linarith)
      positivity
    · intro h0
      by_contra hc
      have : -P.GM / (2 * E) < 0 := div_neg_of_neg_of_pos (by linarith) (by
        rcases lt_or_gt_of_ne hE0 with h | h
        · exact absurd h hc
        · linarith)
      nlinarith

/-! ### C29 -/

/-- C29: the inertial velocity used at exit is the planet-relative velocity plus `Ω × r`; the flight-path angle is the
angle of that velocity above the local horizontal plane; the angular momentum equals `|r × v|` and the speed used in the
energy is `|v|`. -/
theorem C29_inertial_exit_velocity (P : Planet) (s : Terminal) (hr : 0 < s.r) :
    let R := pos s.r s.theta s.phi
    let U := vel s.theta s.phi s.v s.psi s.g + V3.cross (spin P.OMEGA) R
    s.rVec = R ∧ s.vIe P = U ∧ s.vIeMag P = V3.norm U ∧
    (U ≠ 0 → ∃ g, s.fpaIe P = some g ∧ -(π / 2) ≤ g ∧ g ≤ π / 2 ∧ sin g = V3.dot R U / (V3.norm R * V3.norm U) ∧
      Planet.angMomScalar s.r (s.vIeMag P) g = V3.norm (V3.cross R U)) := by
  intro R U
  have hU' : U = s.vIe P := (vIe_eq P s).symm
  refine ⟨rfl, hU'.symm, by rw [vIeMag_eq, hU'], fun hU => ?_⟩
  rw [hU'] at hU ⊢
  obtain ⟨g, h1, h2, h3, h4, h5⟩ := fpaIe_spec P s hr hU
  refine ⟨g, h1, h2, h3, ?_, h5⟩
  have hRp : 0 < V3.norm R := by rw [norm_pos_r hr]; exact hr
  have hUp : 0 < V3.norm (s.vIe P) := lt_of_le_of_ne (V3.norm_nonneg _) (fun h => hU (V3.norm_eq_zero.mp h.symm))
  rw [eq_div_iff (by positivity)]
  have h4' : V3.norm R * V3.norm (s.vIe P) * sin g = V3.dot R (s.vIe P) := h4
  rw [← h4']; ring

/-- Non-vacuity of C28/C29 and a sanity check of the frame: at the equator of any rotating planet, flying east
horizontally, the inertial speed is the relative speed plus `Ω r`. -/
example (P : Planet) (r v : ℝ) (h : 0 < v + P.OMEGA * r) :
    (⟨r, v, 0, 0, 0, 0⟩ : Terminal).vIeMag P = v + P.OMEGA * r := by
  rw [vIeMag_eq]
  apply V3.norm_eq_of_sq h.le
  simp [Terminal.vIe, Terminal.vPr, V3.dot]
  ring

/-! ### C30 -/

/-- Retained points are above the ground. -/
theorem retained_above_ground (name : String) (P : Planet) (hP : Planet.init name = .ok P) {r : List ℝ} {idx : ℕ}
    {flag : ℤ} (h : P.classifyTrajectory r = .ok (idx, flag)) : ∀ x ∈ r.take idx, P.RP ≤ x := by
  obtain ⟨_, _, _, _, _, hT, _⟩ := C01_planet_consistent name P hP
  obtain ⟨i, f, h1, h2, h3, h4, h5, h6, h7⟩ := C22_classification name P hP r (classify_nonempty h)
  rw [h1] at h
  simp only [Except.ok.injEq, Prod.mk.injEq] at h
  obtain ⟨rfl, rfl⟩ := h
  intro x hx
  rcases h3 with rfl | rfl | rfl
  · have := (h4.mp rfl).1 x (List.mem_of_mem_take hx); linarith
  · have := ((h7 rfl).2 x (List.mem_of_mem_take hx)).1; linarith
  · have := (h6 rfl).2 x hx; linarith

/-- Specification: `s` is the last retained point of the stored arrays. -/
def Spec.IsLast (out : PropOut) (s : Terminal) : Prop :=
  out.c.r.getLast? = some s.r ∧ out.c.v.getLast? = some s.v ∧ out.c.gamma.getLast? = some s.g ∧
  out.c.theta.getLast? = some s.theta ∧ out.c.phi.getLast? = some s.phi ∧ out.c.psi.getLast? = some s.psi

theorem terminal_isLast {P : Planet} {S : List (ℝ × FState)} {out : PropOut} (h : Spec.Aligned P S out) :
    ∃ s, out.terminal = .ok s ∧ Spec.IsLast out s := by
  obtain ⟨h1, _, _, _, _, _, _, _, _, _, hl, _⟩ := h
  have key : ∀ l : List ℝ, l.length = out.index → ∃ x, pyIndex l (out.index - 1) = .ok x ∧ l.getLast? = some x := by
    intro l hl
    have hlt : out.index - 1 < l.length := by omega
    refine ⟨l[out.index - 1], ?_, ?_⟩
    · unfold pyIndex; rw [List.getElem?_eq_getElem hlt]
    · rw [List.getLast?_eq_getElem?, hl, List.getElem?_eq_getElem hlt]
  obtain ⟨r, r1, r2⟩ := key out.c.r (hl _ (by simp))
  obtain ⟨v, v1, v2⟩ := key out.c.v (hl _ (by simp))
  obtain ⟨g, g1, g2⟩ := key out.c.gamma (hl _ (by simp))
  obtain ⟨th, t1, t2⟩ := key out.c.theta (hl _ (by simp))
  obtain ⟨ph, p1, p2⟩ := key out.c.phi (hl _ (by simp))
  obtain ⟨ps, s1, s2⟩ := key out.c.psi (hl _ (by simp))
  refine ⟨⟨r, v, g, th, ph, ps⟩, ?_, r2, v2, g2, t2, p2, s2⟩
  unfold PropOut.terminal
  simp only [bind, Except.bind, r1, v1, g1, t1, p1, s1, pure, Except.pure]

theorem last_above_ground (name : String) (V : Vehicle) (hP : Planet.init name = .ok V.planet) {mode : ScipyMode}
    {bar : TrajArrays} {delta hi : ℝ} {out : PropOut} (h : V.postProcess mode bar delta hi = .ok out) (s : Terminal)
    (hs : Spec.IsLast out s) : 0 < s.r := by
  obtain ⟨_, hRP, _⟩ := C01_planet_consistent name _ hP
  obtain ⟨idx, flag, qc, qr, heat, hc, hq, hq2, hh, rfl⟩ := postProcess_inv h
  have := retained_above_ground name _ hP hc s.r (List.mem_of_getLast? hs.1)
  linarith

/-- C30: after a successful propagation `isCaptured` returns `-1` exactly when the specific energy (with the stored,
planet-relative speed) at the last retained point is negative, and `1` otherwise; if the propagation raises, so does
`isCaptured`. -/
theorem C30_capture_verdict (V : Vehicle) (mode : ScipyMode) (I : Integrator) (tSec dt deltaDeg : ℝ) :
    (∀ out, V.propogateEntry mode I tSec dt deltaDeg = .ok out →
      ∃ r v, out.c.r.getLast? = some r ∧ out.c.v.getLast? = some v ∧
        (v ^ 2 / 2 - V.planet.GM / r < 0 → V.isCaptured mode I tSec dt deltaDeg = .ok (-1)) ∧
        (0 ≤ v ^ 2 / 2 - V.planet.GM / r → V.isCaptured mode I tSec dt deltaDeg = .ok 1)) ∧
    (∀ err, V.propogateEntry mode I tSec dt deltaDeg = .error err →
      V.isCaptured mode I tSec dt deltaDeg = .error err) := by
  constructor
  · intro out h
    have hal := C24_arrays_aligned V mode I tSec dt deltaDeg out h
    obtain ⟨s, _, hs⟩ := terminal_isLast hal
    obtain ⟨h1, _, _, _, _, _, _, _, _, _, hl, _⟩ := hal
    refine ⟨s.r, s.v, hs.1, hs.2.1, ?_⟩
    have lr := hl out.c.r (by simp)
    have lv := hl out.c.v (by simp)
    have gr : out.c.r[out.index - 1]? = some s.r := by rw [← lr, ← List.getLast?_eq_getElem?]; exact hs.1
    have gv : out.c.v[out.index - 1]? = some s.v := by rw [← lv, ← List.getLast?_eq_getElem?]; exact hs.2.1
    have he : pyIndex (V.computeEnergy out.c.r out.c.v) (out.index - 1) = .ok (s.v ^ 2 / 2 - V.planet.GM / s.r) := by
      unfold pyIndex Vehicle.computeEnergy
      rw [List.getElem?_zipWith, gr, gv]
      simp only [Except.ok.injEq]
      rw [Lits.l10, Lits.l05]; ring
    have : V.isCaptured mode I tSec dt deltaDeg
        = .ok (if s.v ^ 2 / 2 - V.planet.GM / s.r < 0 then -1 else 1) := by
      unfold Vehicle.isCaptured
      simp only [h, bind, Except.bind, he, pure, Except.pure]
    rw [this]
    exact ⟨fun h => by rw [if_pos h], fun h => by rw [if_neg (by linarith)]⟩
  · intro err h
    unfold Vehicle.isCaptured
    simp only [h, bind, Except.bind]

/-! ### C31 -/

theorem vel_norm (theta phi v psi g : ℝ) : V3.norm (vel theta phi v psi g) = |v| := by
  unfold vel
  rw [V3.norm_smul]
  have : V3.norm (along theta phi psi g) = 1 := by
    apply V3.norm_eq_of_sq zero_le_one
    rw [(Frames.triad_orthonormal theta phi psi g).1]; norm_num
  rw [this, mul_one]

theorem relative_elements (P : Planet) (s : Terminal) (hr : 0 < s.r) (rho : ℝ) :
    radialSq P.GM (energy P.GM (pos s.r s.theta s.phi) (vel s.theta s.phi s.v s.psi s.g))
      (angMom (pos s.r s.theta s.phi) (vel s.theta s.phi s.v s.psi s.g)) rho
    = radialSq P.GM (s.v ^ 2 / 2 - P.GM / s.r) (Planet.angMomScalar s.r s.v s.g) rho := by
  unfold radialSq energy
  rw [vel_norm, norm_pos_r hr, sq_abs]
  have : (angMom (pos s.r s.theta s.phi) (vel s.theta s.phi s.v s.psi s.g)) ^ 2
      = (Planet.angMomScalar s.r s.v s.g) ^ 2 := by
    unfold angMom Planet.angMomScalar
    rw [V3.norm_sq]
    have h1 := sin_sq_add_cos_sq s.theta; have h2 := sin_sq_add_cos_sq s.phi
    have h3 := sin_sq_add_cos_sq s.psi; have h4 := sin_sq_add_cos_sq s.g
    rw [V3.dot_cross_self, ← V3.norm_sq, ← V3.norm_sq, norm_pos_r hr, vel_norm, sq_abs]
    have : V3.dot (pos s.r s.theta s.phi) (vel s.theta s.phi s.v s.psi s.g) = s.r * s.v * sin s.g := by
      simp only [V3.dot, pos, vel, along, horiz, up, east, north, V3.add_x, V3.add_y, V3.add_z, V3.smul_x,
        V3.smul_y, V3.smul_z]
      grind
    rw [this]
    linear_combination (-(s.r * s.v) ^ 2) * h4
  rw [div_pow, div_pow, this]

/-- C31 for `hitsTargetApoapsis`: the verdict is `-1` exactly when the vehicle ends at or above the low-altitude
threshold *and* the orbit through the last retained point, taken with the planet-relative velocity, reaches the target
radius (in particular when it is unbound); otherwise it is `1`.  Bodies without the threshold are excluded here. -/
theorem C31_verdict_partial (name : String) (V : Vehicle) (hP : Planet.init name = .ok V.planet) (mode : ScipyMode)
    (I : Integrator) (tSec dt deltaDeg targetKm L : ℝ) (hL : V.planet.hLow = some L) (out : PropOut)
    (h : V.propogateEntry mode I tSec dt deltaDeg = .ok out) :
    ∃ s ans, Spec.IsLast out s ∧ V.hitsTargetApoapsis mode I tSec dt deltaDeg targetKm = .ok ans ∧
      (ans = -1 ∨ ans = 1) ∧
      (ans = -1 ↔ L ≤ s.r - V.planet.RP ∧
        Reaches V.planet.GM (pos s.r s.theta s.phi) (vel s.theta s.phi s.v s.psi s.g)
          (V.planet.RP + 1000 * targetKm)) := by
  obtain ⟨_, hRP, hGM, _⟩ := C01_planet_consistent name _ hP
  obtain ⟨s, ht, hs⟩ := terminal_isLast (C24_arrays_aligned V mode I tSec dt deltaDeg out h)
  have hr := last_above_ground name V hP h s hs
  have hcore := verdict_core V.planet (v := s.v) (g := s.g) (rho := V.planet.RP + 1000 * targetKm) hGM hr
  have e1 : (V.planet.RP + 1000 * targetKm - V.planet.RP) / 1000 = targetKm := by ring
  rw [e1] at hcore
  have l3 : (1000.0:ℝ) = 1000 := by norm_num
  rw [← relative_elements V.planet s hr] at hcore
  unfold Vehicle.hitsTargetApoapsis Planet.apoapsisVerdict
  simp only [h, bind, Except.bind, ht, getAttr, hL, pure, Except.pure, l3] at hcore ⊢
  refine ⟨s, _, hs, rfl, ?_, ?_⟩
  · split_ifs <;> simp
  · unfold Reaches
    rw [norm_pos_r hr, ← hcore]
    by_cases ha : (s.r - V.planet.RP) / 1000 < L / 1000
    · have : ¬ L ≤ s.r - V.planet.RP := by
        rw [div_lt_div_iff_of_pos_right (by norm_num)] at ha; linarith
      rw [if_pos ha]; simp [this]
    · have : L ≤ s.r - V.planet.RP := by
        rw [div_lt_div_iff_of_pos_right (by norm_num)] at ha; linarith
      rw [if_neg ha]
      simp only [this, true_and]
      split_ifs with hc
      · simpa using hc
      · simpa using hc

/-- C31 for `hitsTargetApoapsis2`: as above, with the inertial velocity. -/
theorem C31_verdict2_partial (name : String) (V : Vehicle) (hP : Planet.init name = .ok V.planet) (mode : ScipyMode)
    (I : Integrator) (tSec dt deltaDeg targetKm L : ℝ) (hL : V.planet.hLow = some L) (out : PropOut)
    (h : V.propogateEntry2 mode I tSec dt deltaDeg = .ok out) :
    ∃ s ans, Spec.IsLast out s ∧ V.hitsTargetApoapsis2 mode I tSec dt deltaDeg targetKm = .ok ans ∧
      (ans = -1 ∨ ans = 1) ∧
      (vel s.theta s.phi s.v s.psi s.g + V3.cross (spin V.planet.OMEGA) (pos s.r s.theta s.phi) ≠ 0 →
        (ans = -1 ↔ L ≤ s.r - V.planet.RP ∧
          Reaches V.planet.GM (pos s.r s.theta s.phi)
            (vel s.theta s.phi s.v s.psi s.g + V3.cross (spin V.planet.OMEGA) (pos s.r s.theta s.phi))
            (V.planet.RP + 1000 * targetKm))) := by
  obtain ⟨_, hRP, hGM, _⟩ := C01_planet_consistent name _ hP
  obtain ⟨s, ht, hs⟩ := terminal_isLast ((C24_arrays_aligned_variants V mode I tSec dt deltaDeg out V.init
    (fun _ => 0)).1 h)
  have hr := last_above_ground name V hP h s hs
  have e1 : (V.planet.RP + 1000 * targetKm - V.planet.RP) / 1000 = targetKm := by ring
  have l3 : (1000.0:ℝ) = 1000 := by norm_num
  unfold Vehicle.hitsTargetApoapsis2 Planet.apoapsisVerdict2
  simp only [h, bind, Except.bind, ht, getAttr, hL, pure, Except.pure, l3]
  refine ⟨s, _, hs, rfl, ?_, ?_⟩
  · split_ifs <;> simp
  · rw [← vIe_eq]
    intro hU
    obtain ⟨g, e, hg, he0, he2, hEe, hh, hecc, hel⟩ := elements_eq V.planet s hGM hr hU
    have hcore := verdict_core V.planet (v := s.vIeMag V.planet) (g := g) (rho := V.planet.RP + 1000 * targetKm)
      hGM hr
    rw [e1] at hcore
    have hapo : s.apoapsisAltitudeKm V.planet = (do
        let a ← V.planet.semiMajorAxisScalar (V.planet.energyScalar s.r (s.vIeMag V.planet))
        let e ← V.planet.eccScalar (Planet.angMomScalar s.r (s.vIeMag V.planet) g)
          (V.planet.energyScalar s.r (s.vIeMag V.planet))
        return (a * (1.0 + e) - V.planet.RP) / 1.0E3) := by
      unfold Terminal.apoapsisAltitudeKm
      rw [hel, hecc, hEe, ← energyScalar_eq]
      cases V.planet.semiMajorAxisScalar (V.planet.energyScalar s.r (s.vIeMag V.planet)) <;> rfl
    unfold Reaches
    rw [norm_pos_r hr]
    change _ ↔ _ ∧ (_ ∨ 0 ≤ radialSq _ (energy V.planet.GM s.rVec (s.vIe V.planet))
      (angMom s.rVec (s.vIe V.planet)) _)
    rw [hEe, hh, ← hcore, ← hapo]
    by_cases ha : (s.r - V.planet.RP) / 1000 < L / 1000
    · have : ¬ L ≤ s.r - V.planet.RP := by
        rw [div_lt_div_iff_of_pos_right (by norm_num)] at ha; linarith
      rw [if_pos ha]; simp [this]
    · have : L ≤ s.r - V.planet.RP := by
        rw [div_lt_div_iff_of_pos_right (by norm_num)] at ha; linarith
      rw [if_neg ha]
      simp only [this, true_and]
      split_ifs with hc
      · simpa using hc
      · simpa using hc

/-- C31 (finding): for Jupiter and Saturn the low-altitude threshold is never assigned, so both tests raise
`AttributeError` after every successful propagation; for the other six bodies the attribute exists. -/
theorem C31_missing_threshold (name : String) (V : Vehicle) (hP : Planet.init name = .ok V.planet) (mode : ScipyMode)
    (I : Integrator) (tSec dt deltaDeg targetKm : ℝ) :
    (V.planet.hLow = none ↔ name = "JUPITER" ∨ name = "SATURN") ∧
    (V.planet.hLow = none → ∀ out,
      (V.propogateEntry mode I tSec dt deltaDeg = .ok out →
        V.hitsTargetApoapsis mode I tSec dt deltaDeg targetKm = .error .attributeError) ∧
      (V.propogateEntry2 mode I tSec dt deltaDeg = .ok out →
        V.hitsTargetApoapsis2 mode I tSec dt deltaDeg targetKm = .error .attributeError)) := by
  constructor
  · unfold Planet.init at hP
    split_ifs at hP with h1 h2 h3 h4 h5 h6 h7 h8 <;>
      (injection hP with hP; rw [← hP]; clear hP; simp_all [Planet.withScales])
  · intro hL out
    constructor
    · intro h
      obtain ⟨s, ht, hs⟩ := terminal_isLast (C24_arrays_aligned V mode I tSec dt deltaDeg out h)
      unfold Vehicle.hitsTargetApoapsis Planet.apoapsisVerdict
      simp only [h, bind, Except.bind, ht, getAttr, hL]
    · intro h
      obtain ⟨s, ht, hs⟩ := terminal_isLast ((C24_arrays_aligned_variants V mode I tSec dt deltaDeg out V.init
        (fun _ => 0)).1 h)
      unfold Vehicle.hitsTargetApoapsis2 Planet.apoapsisVerdict2
      simp only [h, bind, Except.bind, ht, getAttr, hL]

/-- Cases for `C31_verdict_partial`, `C31_verdict2_partial` and `C31_missing_threshold`: flights at Mars and at Jupiter. -/
example : (∃ (V : Vehicle) (out : PropOut) (L : ℝ), Planet.init "MARS" = .ok V.planet ∧ V.planet.hLow = some L ∧
      V.propogateEntry .strict constIntegrator 1200 0.1 0 = .ok out ∧
      V.propogateEntry2 .strict constIntegrator 1200 0.1 0 = .ok out) ∧
    ∃ V : Vehicle, Planet.init "JUPITER" = .ok V.planet ∧
      V.hitsTargetApoapsis .strict constIntegrator 1200 0.1 0 1000 = .error .attributeError := by
  constructor
  · obtain ⟨P, hP, -, -, hS, hT, -⟩ := demo_mars
    obtain ⟨out, h1, h2, -⟩ := demo_flight hP (h := 100) (v := 6) .strict 0 (by rw [hT]; norm_num) (by rw [hS]; norm_num)
    have hL : ∃ L, P.hLow = some L := by simp [Planet.init] at hP; subst hP; exact ⟨_, rfl⟩
    obtain ⟨L, hL⟩ := hL
    exact ⟨_, out, L, hP, hL, h1, h2⟩
  · obtain ⟨P, hP⟩ := (C01_planet_names "JUPITER").1.mpr (by simp [Spec.bodies])
    have hT : P.hTrap = 50e3 := by simp [Planet.init] at hP; subst hP; rfl
    have hS : P.hSkip = 1000e3 := by simp [Planet.init] at hP; subst hP; rfl
    obtain ⟨out, h1, -⟩ := demo_flight hP (h := 500) (v := 60) .strict 0 (by rw [hT]; norm_num) (by rw [hS]; norm_num)
    obtain ⟨i1, i2⟩ := C31_missing_threshold "JUPITER" (demoEntry P 500 60) hP .strict constIntegrator 1200 0.1 0 1000
    exact ⟨_, hP, (i2 (i1.mpr (Or.inl rfl)) out).1 h1⟩

/-- C31/C30 (finding): the planet-relative verdict can contradict the inertial orbit.  At Earth, leaving eastward over
the equator at 120 km with 10.8 km/s relative speed, the first test says "does not reach" any target of 10⁶ km and the
relative energy is negative ("captured"), while the inertial orbit is unbound and the second test says "overshoots". -/
theorem C31_relative_verdict_wrong : ∃ (P : Planet) (s : Terminal), Planet.init "EARTH" = .ok P ∧ s.r - P.RP = 120000 ∧
    P.apoapsisVerdict s.r s.v s.g 1000000 = .ok 1 ∧ P.apoapsisVerdict2 s 1000000 = .ok (-1) ∧
    s.v ^ 2 / 2 - P.GM / s.r < 0 ∧ 0 < energy P.GM s.rVec (s.vIe P) := by
  obtain ⟨P, hP⟩ := (C01_planet_names "EARTH").1.mpr (by simp [Spec.bodies])
  have hR : P.RP = 6371e3 := by simp [Planet.init] at hP; subst hP; rfl
  have hG : P.GM = 3.986004e14 := by simp [Planet.init] at hP; subst hP; rfl
  have hO : P.OMEGA = 7.272205e-5 := by simp [Planet.init] at hP; subst hP; rfl
  have hL : P.hLow = some 50e3 := by simp [Planet.init] at hP; subst hP; rfl
  have hGM : 0 < P.GM := by rw [hG]; norm_num
  have hmag : (⟨6491000, 10800, 0, 0, 0, 0⟩ : Terminal).vIeMag P = 10800 + P.OMEGA * 6491000 := by
    rw [vIeMag_eq]
    apply V3.norm_eq_of_sq (by rw [hO]; norm_num)
    simp [Terminal.vIe, Terminal.vPr, V3.dot]
    ring
  have l3 : (1000.0:ℝ) = 1000 := by norm_num
  have e1 : (P.RP + 1000000000 - P.RP) / 1000 = 1000000 := by norm_num
  refine ⟨P, ⟨6491000, 10800, 0, 0, 0, 0⟩, hP, by rw [hR]; norm_num, ?_, ?_, by rw [hG]; norm_num, ?_⟩
  · have hcore := verdict_core P (r := 6491000) (v := 10800) (g := 0) (rho := P.RP + 1000000000) hGM (by norm_num)
    rw [e1] at hcore
    have hneg : ¬ (P.RP + 1000000000 ≤ 6491000 ∨ 0 ≤ radialSq P.GM (10800 ^ 2 / 2 - P.GM / 6491000)
        (Planet.angMomScalar 6491000 10800 0) (P.RP + 1000000000)) := by
      rw [hR, hG]
      unfold radialSq Planet.angMomScalar
      norm_num
    rw [← hcore] at hneg
    unfold Planet.apoapsisVerdict
    simp only [bind, Except.bind, getAttr, hL, pure, Except.pure] at hneg ⊢
    rw [if_neg hneg, hR]
    norm_num
  · have hna : negAxis (P.semiMajorAxisScalar
        (P.energyScalar 6491000 ((⟨6491000, 10800, 0, 0, 0, 0⟩ : Terminal).vIeMag P))) := by
      rw [hmag, energyScalar_eq, hG, hO]
      right
      unfold Planet.semiMajorAxisScalar
      rw [if_neg (by norm_num), hG]
      exact ⟨_, rfl, by norm_num⟩
    unfold Planet.apoapsisVerdict2
    simp only [bind, Except.bind, getAttr, hL, pure, Except.pure, hna, or_true, if_true]
    rw [hR]
    norm_num
  · unfold energy
    rw [← vIeMag_eq, hmag, rVec_eq, norm_pos_r (by norm_num), hG, hO]
    norm_num

/-! ### C45 -/

theorem visViva_lt {GM r rp ra rp' : ℝ} (hGM : 0 < GM) (h : 0 < rp + ra) (h2 : rp + ra < rp' + ra)
    (h0 : 0 ≤ GM * (2 / r - 2 / (rp + ra))) : visViva GM r rp ra < visViva GM r rp' ra := by
  unfold visViva
  apply Real.sqrt_lt_sqrt h0
  apply mul_lt_mul_of_pos_left _ hGM
  have : 2 / (rp' + ra) < 2 / (rp + ra) := div_lt_div_of_pos_left (by norm_num) h h2
  linarith

theorem visViva_symm (GM r rp ra : ℝ) : visViva GM r rp ra = visViva GM r ra rp := by
  unfold visViva; rw [add_comm rp ra]

theorem visViva_radicand {GM r x : ℝ} (hGM : 0 < GM) (hr : 0 < r) (hx : 0 ≤ x) :
    0 ≤ GM * (2 / r - 2 / (x + r)) := by
  apply mul_nonneg hGM.le
  have : 2 / (x + r) ≤ 2 / r := div_le_div_of_nonneg_left (by norm_num) hr (by linarith)
  linarith

theorem periapsisRaise_eq (P : Planet) (hGM : 0 < P.GM) (peri apo target : ℝ) (h0 : 0 < P.RP + 1000 * apo)
    (h1 : 0 ≤ P.RP + 1000 * peri) (h2 : 0 ≤ P.RP + 1000 * target) :
    P.periapsisRaiseDV peri apo target = some
      (visViva P.GM (P.RP + 1000 * apo) (P.RP + 1000 * target) (P.RP + 1000 * apo) -
        visViva P.GM (P.RP + 1000 * apo) (P.RP + 1000 * peri) (P.RP + 1000 * apo)) := by
  have l3 : (1E3:ℝ) = 1000 := by norm_num
  have key : ∀ x, 0 ≤ P.RP + 1000 * x → npSqrt (2 * (-P.GM / (P.RP + apo * 1E3 + x * 1E3 + P.RP)) +
      2 * P.GM / (P.RP + apo * 1E3)) = some (visViva P.GM (P.RP + 1000 * apo) (P.RP + 1000 * x)
      (P.RP + 1000 * apo)) := by
    intro x hx
    have e : 2 * (-P.GM / (P.RP + apo * 1E3 + x * 1E3 + P.RP)) + 2 * P.GM / (P.RP + apo * 1E3)
        = P.GM * (2 / (P.RP + 1000 * apo) - 2 / (P.RP + 1000 * x + (P.RP + 1000 * apo))) := by
      rw [l3]
      have e1 : P.RP + apo * 1000 + x * 1000 + P.RP = P.RP + 1000 * x + (P.RP + 1000 * apo) := by ring
      have e2 : P.RP + apo * 1000 = P.RP + 1000 * apo := by ring
      rw [e1, e2]; ring
    unfold npSqrt
    rw [e, if_pos (visViva_radicand hGM h0 hx)]; rfl
  unfold Planet.periapsisRaiseDV
  simp only [bind, Option.bind, key peri h1, key target h2, pure]

theorem apoapsisRaise_eq (P : Planet) (hGM : 0 < P.GM) (peri apo target : ℝ) (h0 : 0 < P.RP + 1000 * peri)
    (h1 : 0 ≤ P.RP + 1000 * apo) (h2 : 0 ≤ P.RP + 1000 * target) :
    P.apoapsisRaiseDV peri apo target = some
      (visViva P.GM (P.RP + 1000 * peri) (P.RP + 1000 * peri) (P.RP + 1000 * target) -
        visViva P.GM (P.RP + 1000 * peri) (P.RP + 1000 * peri) (P.RP + 1000 * apo)) := by
  have l3 : (1E3:ℝ) = 1000 := by norm_num
  have key : ∀ x, 0 ≤ P.RP + 1000 * x →
      (0 ≤ P.GM * (2 / (P.RP + 1000 * peri) - 2 / (P.RP + 1000 * peri + (P.RP + 1000 * x)))) := by
    intro x hx
    rw [add_comm (P.RP + 1000 * peri) (P.RP + 1000 * x)]
    exact visViva_radicand hGM h0 hx
  have e : ∀ D x, D = P.RP + 1000 * peri + (P.RP + 1000 * x) → 2 * (-P.GM / D) + 2 * P.GM / (peri * 1E3 + P.RP)
        = P.GM * (2 / (P.RP + 1000 * peri) - 2 / (P.RP + 1000 * peri + (P.RP + 1000 * x))) := by
    intro D x hD
    rw [l3, hD]
    have e2 : peri * 1000 + P.RP = P.RP + 1000 * peri := by ring
    rw [e2]; ring
  unfold Planet.apoapsisRaiseDV npSqrt
  dsimp only
  rw [e _ apo (by rw [l3]; ring), e _ target (by rw [l3]; ring), if_pos (key _ h1), if_pos (key _ h2)]
  rfl

/-- C45: the periapsis-raise cost is the difference of vis-viva speeds at apoapsis between the target and the current
ellipse; it is a real number for all orbits above the planet centre and has the sign of the requested change. -/
theorem C45_periapsis_raise (name : String) (P : Planet) (hP : Planet.init name = .ok P) (peri apo target : ℝ)
    (h0 : 0 < P.RP + 1000 * apo) (h1 : 0 ≤ P.RP + 1000 * peri) (h2 : 0 ≤ P.RP + 1000 * target) :
    ∃ dV, P.periapsisRaiseDV peri apo target = some dV ∧
      dV = visViva P.GM (P.RP + 1000 * apo) (P.RP + 1000 * target) (P.RP + 1000 * apo) -
        visViva P.GM (P.RP + 1000 * apo) (P.RP + 1000 * peri) (P.RP + 1000 * apo) ∧
      (0 < dV ↔ peri < target) ∧ (dV = 0 ↔ peri = target) ∧ (dV < 0 ↔ target < peri) := by
  obtain ⟨_, _, hGM, _⟩ := C01_planet_consistent name P hP
  refine ⟨_, periapsisRaise_eq P hGM peri apo target h0 h1 h2, rfl, ?_⟩
  have mono : ∀ x y, 0 ≤ P.RP + 1000 * x → x < y →
      visViva P.GM (P.RP + 1000 * apo) (P.RP + 1000 * x) (P.RP + 1000 * apo) <
      visViva P.GM (P.RP + 1000 * apo) (P.RP + 1000 * y) (P.RP + 1000 * apo) := fun x y hx hxy =>
    visViva_lt hGM (by linarith) (by linarith) (visViva_radicand hGM h0 hx)
  rcases lt_trichotomy peri target with h | h | h
  · have := mono _ _ h1 h
    refine ⟨⟨fun _ => h, fun _ => by linarith⟩, ⟨fun h' => by linarith, fun h' => by linarith⟩,
      ⟨fun h' => by linarith, fun h' => by linarith⟩⟩
  · subst h; simp
  · have := mono _ _ h2 h
    refine ⟨⟨fun h' => by linarith, fun h' => by linarith⟩, ⟨fun h' => by linarith, fun h' => by linarith⟩,
      ⟨fun _ => h, fun _ => by linarith⟩⟩

/-- C45: the apoapsis-raise cost, likewise at periapsis. -/
theorem C45_apoapsis_raise (name : String) (P : Planet) (hP : Planet.init name = .ok P) (peri apo target : ℝ)
    (h0 : 0 < P.RP + 1000 * peri) (h1 : 0 ≤ P.RP + 1000 * apo) (h2 : 0 ≤ P.RP + 1000 * target) :
    ∃ dV, P.apoapsisRaiseDV peri apo target = some dV ∧
      dV = visViva P.GM (P.RP + 1000 * peri) (P.RP + 1000 * peri) (P.RP + 1000 * target) -
        visViva P.GM (P.RP + 1000 * peri) (P.RP + 1000 * peri) (P.RP + 1000 * apo) ∧
      (0 < dV ↔ apo < target) ∧ (dV = 0 ↔ apo = target) ∧ (dV < 0 ↔ target < apo) := by
  obtain ⟨_, _, hGM, _⟩ := C01_planet_consistent name P hP
  refine ⟨_, apoapsisRaise_eq P hGM peri apo target h0 h1 h2, rfl, ?_⟩
  have mono : ∀ x y, 0 ≤ P.RP + 1000 * x → x < y →
      visViva P.GM (P.RP + 1000 * peri) (P.RP + 1000 * peri) (P.RP + 1000 * x) <
      visViva P.GM (P.RP + 1000 * peri) (P.RP + 1000 * peri) (P.RP + 1000 * y) := fun x y hx hxy => by
    rw [visViva_symm, visViva_symm P.GM _ (P.RP + 1000 * peri) (P.RP + 1000 * y)]
    exact visViva_lt hGM (by linarith) (by linarith) (visViva_radicand hGM h0 hx)
  rcases lt_trichotomy apo target with h | h | h
  · have := mono _ _ h1 h
    refine ⟨⟨fun _ => h, fun _ => by linarith⟩, ⟨fun h' => by linarith, fun h' => by linarith⟩,
      ⟨fun h' => by linarith, fun h' => by linarith⟩⟩
  · subst h; simp
  · have := mono _ _ h2 h
    refine ⟨⟨fun h' => by linarith, fun h' => by linarith⟩, ⟨fun h' => by linarith, fun h' => by linarith⟩,
      ⟨fun _ => h, fun _ => by linarith⟩⟩

/-- The vis-viva speed is the one whose kinetic plus potential energy is that of the ellipse (so the specification is
the physical one): `v²/2 - GM/r = -GM/(rp+ra)`. -/
theorem C45_visViva_energy (GM r x : ℝ) (hGM : 0 < GM) (hr : 0 < r) (hx : 0 ≤ x) :
    visViva GM r x r ^ 2 / 2 - GM / r = -GM / (x + r) := by
  unfold visViva
  rw [Real.sq_sqrt (visViva_radicand hGM hr hx)]; ring

/-- Case for `C45_periapsis_raise` and (with the numbers exchanged) `C45_apoapsis_raise`: raising periapsis from -200 km to 400 km at Venus with apoapsis 2000 km. -/
example (P : Planet) (hP : Planet.init "VENUS" = .ok P) :
    0 < P.RP + 1000 * 2000 ∧ 0 ≤ P.RP + 1000 * (-200) ∧ 0 ≤ P.RP + 1000 * 400 := by
  have hR : P.RP = 6051.8e3 := by simp [Planet.init] at hP; subst hP; rfl
  rw [hR]; norm_num

end AMAT.Props
