import Mathlib.Analysis.SpecialFunctions.Trigonometric.Inverse
import Mathlib.Tactic.FieldSimp
import Verif.Model.Orbit
import Verif.Spec.Kepler
import Verif.Spec.Frames
import Verif.Lemmas.Lits
import Verif.Lemmas.Frames

/-
Algebra of the apsides (helper lemmas for the orbit properties).
-/

noncomputable section

namespace AMAT

open Real AMAT.Spec

theorem energyScalar_eq (P : Planet) (r v : ℝ) : P.energyScalar r v = v ^ 2 / 2 - P.GM / r := by
  unfold Planet.energyScalar; rw [Lits.l10, Lits.l05]; ring

/-- The radial speed at the state itself. -/
theorem radialSq_self {GM r v g : ℝ} (hr : 0 < r) :
    radialSq GM (v ^ 2 / 2 - GM / r) (Planet.angMomScalar r v g) r = (v * sin g) ^ 2 := by
  unfold radialSq Planet.angMomScalar
  have h := sin_sq_add_cos_sq g
  have : r * v * cos g / r = v * cos g := by field_simp
  rw [this]
  linear_combination -v ^ 2 * h

theorem ecc_radicand {GM r v g : ℝ} (hGM : 0 < GM) (hr : 0 < r) :
    1 + 2 * (v ^ 2 / 2 - GM / r) * (Planet.angMomScalar r v g) ^ 2 / GM ^ 2
      = sin g ^ 2 + cos g ^ 2 * (r * v ^ 2 / GM - 1) ^ 2 := by
  unfold Planet.angMomScalar
  have h : sin g ^ 2 = 1 - cos g ^ 2 := by rw [← sin_sq_add_cos_sq g]; ring
  rw [h]
  field_simp
  ring

theorem eccScalar_some (P : Planet) {r v g : ℝ} (hGM : 0 < P.GM) (hr : 0 < r) :
    ∃ e, P.eccScalar (Planet.angMomScalar r v g) (P.energyScalar r v) = some e ∧ 0 ≤ e ∧
      e ^ 2 = 1 + 2 * P.energyScalar r v * (Planet.angMomScalar r v g) ^ 2 / P.GM ^ 2 := by
  have h0 : 0 ≤ 1.0 + 2 * P.energyScalar r v * (Planet.angMomScalar r v g) ^ 2 / P.GM ^ 2 := by
    rw [Lits.l10, energyScalar_eq, ecc_radicand hGM hr]; positivity
  refine ⟨_, by unfold Planet.eccScalar npSqrt; rw [if_pos h0], Real.sqrt_nonneg _, ?_⟩
  rw [Real.sq_sqrt h0, Lits.l10]

/-- Factorisation of the radial speed through the apsides. -/
theorem radialSq_factor {GM E h a e rho : ℝ} (hGM : 0 < GM) (hE : E ≠ 0) (ha : a = -GM / (2 * E))
    (he : e ^ 2 = 1 + 2 * E * h ^ 2 / GM ^ 2) (hrho : rho ≠ 0) :
    rho ^ 2 * radialSq GM E h rho = 2 * E * ((rho - a * (1 - e)) * (rho - a * (1 + e))) := by
  have h1 : rho ^ 2 * radialSq GM E h rho = 2 * E * rho ^ 2 + 2 * GM * rho - h ^ 2 := by
    unfold radialSq; field_simp
  have h2 : h ^ 2 = GM ^ 2 * (e ^ 2 - 1) / (2 * E) := by
    rw [he]; field_simp; ring
  rw [h1, h2, ha]
  field_simp
  ring

/-- For a bound orbit the radial speed is real exactly between the apsides. -/
theorem radialSq_nonneg_iff {GM E h a e rho : ℝ} (hGM : 0 < GM) (hE : E < 0) (ha : a = -GM / (2 * E))
    (he0 : 0 ≤ e) (he : e ^ 2 = 1 + 2 * E * h ^ 2 / GM ^ 2) (hrho : 0 < rho) :
    0 ≤ radialSq GM E h rho ↔ a * (1 - e) ≤ rho ∧ rho ≤ a * (1 + e) := by
  have hf := radialSq_factor hGM hE.ne ha he hrho.ne'
  have ha0 : 0 < a := by rw [ha]; exact div_pos_of_neg_of_neg (by linarith) (by linarith)
  have hae : 0 ≤ a * e := by positivity
  have h2 : 0 < rho ^ 2 := by positivity
  constructor
  · intro h0
    have : 0 ≤ rho ^ 2 * radialSq GM E h rho := mul_nonneg h2.le h0
    rw [hf] at this
    have h3 : (rho - a * (1 - e)) * (rho - a * (1 + e)) ≤ 0 := by nlinarith
    constructor
    · by_contra hc
      push Not at hc
      nlinarith
    · by_contra hc
      push Not at hc
      nlinarith
  · rintro ⟨h3, h4⟩
    have h5 : (rho - a * (1 - e)) * (rho - a * (1 + e)) ≤ 0 :=
      mul_nonpos_of_nonneg_of_nonpos (by linarith) (by linarith)
    have : 0 ≤ rho ^ 2 * radialSq GM E h rho := by rw [hf]; nlinarith
    exact nonneg_of_mul_nonneg_right this h2

/-- The current radius lies between the apsides. -/
theorem apsides_bracket {GM r v g a e : ℝ} (hGM : 0 < GM) (hr : 0 < r)
    (hE : v ^ 2 / 2 - GM / r < 0) (ha : a = -GM / (2 * (v ^ 2 / 2 - GM / r))) (he0 : 0 ≤ e)
    (he : e ^ 2 = 1 + 2 * (v ^ 2 / 2 - GM / r) * (Planet.angMomScalar r v g) ^ 2 / GM ^ 2) :
    a * (1 - e) ≤ r ∧ r ≤ a * (1 + e) := by
  rw [← radialSq_nonneg_iff hGM hE ha he0 he hr, radialSq_self hr]
  positivity

/-- On an unbound orbit every larger radius is reached. -/
theorem unbound_reaches {GM r v g rho : ℝ} (hGM : 0 < GM) (hr : 0 < r)
    (hE : 0 ≤ v ^ 2 / 2 - GM / r) (hrho : r ≤ rho) :
    0 ≤ radialSq GM (v ^ 2 / 2 - GM / r) (Planet.angMomScalar r v g) rho := by
  set E := v ^ 2 / 2 - GM / r
  set h := Planet.angMomScalar r v g
  have h0 : 0 ≤ radialSq GM E h r := by rw [radialSq_self hr]; positivity
  have hrho0 : 0 < rho := hr.trans_le hrho
  have e1 : ∀ x, 0 < x → x ^ 2 * radialSq GM E h x = 2 * E * x ^ 2 + 2 * GM * x - h ^ 2 := by
    intro x hx; unfold radialSq; field_simp
  have h1 : 0 ≤ r ^ 2 * radialSq GM E h r := by positivity
  rw [e1 r hr] at h1
  have h2 : 0 ≤ rho ^ 2 * radialSq GM E h rho := by
    rw [e1 rho hrho0]
    have : r ^ 2 ≤ rho ^ 2 := by nlinarith
    nlinarith
  exact nonneg_of_mul_nonneg_right h2 (by positivity)

/-- The combined statement used by the verdicts: apoapsis at or above `rho`, or unbound, is "reaches `rho`". -/
theorem verdict_core (P : Planet) {r v g rho : ℝ} (hGM : 0 < P.GM) (hr : 0 < r) :
    (geOpt (do
        let a ← P.semiMajorAxisScalar (P.energyScalar r v)
        let e ← P.eccScalar (Planet.angMomScalar r v g) (P.energyScalar r v)
        return (a * (1.0 + e) - P.RP) / 1.0E3) ((rho - P.RP) / 1000)
      ∨ negAxis (P.semiMajorAxisScalar (P.energyScalar r v))) ↔
    (rho ≤ r ∨ 0 ≤ radialSq P.GM (v ^ 2 / 2 - P.GM / r) (Planet.angMomScalar r v g) rho) := by
  obtain ⟨e, h1, h2, h3⟩ := eccScalar_some P (v := v) (g := g) hGM hr
  rw [h1]
  rw [energyScalar_eq] at *
  set E := v ^ 2 / 2 - P.GM / r with hEdef
  by_cases hE0 : E = 0
  · have : P.semiMajorAxisScalar E = none := by simp [Planet.semiMajorAxisScalar, hE0]
    rw [this]
    simp only [negAxis, true_or, or_true, true_iff]
    by_cases hc : rho ≤ r
    · exact Or.inl hc
    · exact Or.inr (unbound_reaches hGM hr hE0.ge (by linarith))
  · have hs : P.semiMajorAxisScalar E = some (-1.0 * P.GM / (2 * E)) := by
      simp [Planet.semiMajorAxisScalar, hE0]
    rw [hs]
    have ha : -1.0 * P.GM / (2 * E) = -P.GM / (2 * E) := by rw [Lits.l10]; ring
    rcases lt_or_gt_of_ne hE0 with hE | hE
    · rw [ha]
      have hna : ¬ negAxis (some (-P.GM / (2 * E))) := by
        rintro (h | ⟨z, hz, hz2⟩)
        · cases h
        · cases hz
          have : 0 < -P.GM / (2 * E) := div_pos_of_neg_of_neg (by linarith) (by linarith)
          linarith
      simp only [hna, or_false, geOpt, bind, Option.bind, pure, Option.some.injEq, exists_eq_left']
      have hb := apsides_bracket hGM hr hE rfl h2 h3
      have l3 : (1.0E3:ℝ) = 1000 := by norm_num
      rw [l3, Lits.l10, ge_iff_le, div_le_div_iff_of_pos_right (by norm_num), sub_le_sub_iff_right]
      constructor
      · intro h
        by_cases hc : rho ≤ r
        · exact Or.inl hc
        · right
          rw [radialSq_nonneg_iff hGM hE rfl h2 h3 (by linarith)]
          exact ⟨by linarith [hb.1], h⟩
      · rintro (h | h)
        · linarith [hb.2]
        · by_cases hc : rho ≤ r
          · linarith [hb.2]
          · exact ((radialSq_nonneg_iff hGM hE rfl h2 h3 (by linarith)).mp h).2
    · have hna : negAxis (some (-1.0 * P.GM / (2 * E))) := by
        refine Or.inr ⟨_, rfl, ?_⟩
        rw [ha]
        exact div_neg_of_neg_of_pos (by linarith) (by linarith)
      simp only [hna, or_true, true_iff]
      by_cases hc : rho ≤ r
      · exact Or.inl hc
      · exact Or.inr (unbound_reaches hGM hr hE.le (by linarith))

/-! ### The inertial terminal state -/

theorem vPr_eq (s : Terminal) : s.vPr = vel s.theta s.phi s.v s.psi s.g := by
  ext <;> simp only [Terminal.vPr, vel, along, horiz, up, east, north, V3.add_x, V3.add_y, V3.add_z, V3.smul_x,
    V3.smul_y, V3.smul_z] <;> ring

theorem rVec_eq (s : Terminal) : s.rVec = pos s.r s.theta s.phi := rfl

theorem vIe_eq (P : Planet) (s : Terminal) :
    s.vIe P = vel s.theta s.phi s.v s.psi s.g + V3.cross (spin P.OMEGA) (pos s.r s.theta s.phi) := by
  rw [← vPr_eq]
  ext <;> simp only [Terminal.vIe, V3.cross, spin, pos, up, V3.add_x, V3.add_y, V3.add_z, V3.smul_x,
    V3.smul_y, V3.smul_z, Lits.l10] <;> ring

theorem vIeMag_eq (P : Planet) (s : Terminal) : s.vIeMag P = V3.norm (s.vIe P) := by
  unfold Terminal.vIeMag V3.norm V3.dot
  congr 1; ring

theorem norm_pos_r {r theta phi : ℝ} (hr : 0 < r) : V3.norm (pos r theta phi) = r := by
  unfold pos
  rw [V3.norm_smul, abs_of_pos hr]
  have : V3.norm (up theta phi) = 1 := by
    apply V3.norm_eq_of_sq zero_le_one
    rw [Frames.up_dot_up]; norm_num
  rw [this, mul_one]

/-- The inertial flight-path angle exists and is the angle above the local horizontal. -/
theorem fpaIe_spec (P : Planet) (s : Terminal) (hr : 0 < s.r) (hU : s.vIe P ≠ 0) :
    ∃ g, s.fpaIe P = some g ∧ -(π / 2) ≤ g ∧ g ≤ π / 2 ∧
      V3.norm s.rVec * V3.norm (s.vIe P) * sin g = V3.dot s.rVec (s.vIe P) ∧
      Planet.angMomScalar s.r (s.vIeMag P) g = V3.norm (V3.cross s.rVec (s.vIe P)) := by
  set R := s.rVec with hR
  set U := s.vIe P with hUdef
  have hRn : V3.norm R = s.r := by rw [hR, rVec_eq]; exact norm_pos_r hr
  have hRp : 0 < V3.norm R := by rw [hRn]; exact hr
  have hUp : 0 < V3.norm U := lt_of_le_of_ne (V3.norm_nonneg _) (fun h => hU (V3.norm_eq_zero.mp h.symm))
  have hdot : V3.dot ((1 / V3.norm R) • R) ((1 / V3.norm U) • U) = V3.dot R U / (V3.norm R * V3.norm U) := by
    simp only [V3.dot, V3.smul_x, V3.smul_y, V3.smul_z]; field_simp
  have hcs := V3.abs_dot_le R U
  set c := V3.dot R U / (V3.norm R * V3.norm U) with hc
  have hc1 : -1 ≤ c ∧ c ≤ 1 := by
    have h1 := abs_le.mp hcs
    constructor
    · rw [hc, le_div_iff₀ (by positivity)]; linarith
    · rw [hc, div_le_iff₀ (by positivity)]; linarith
  have hval : s.fpaIe P = some (π / 2 - arccos c) := by
    unfold Terminal.fpaIe npUnit npArccos
    rw [← hR, ← hUdef, if_neg hRp.ne', if_neg hUp.ne']
    simp only [bind, Option.bind, pure, hdot]
    rw [if_pos hc1]
    simp only [Option.some.injEq]
    have l9 : (90.0:ℝ) = 90 := by norm_num
    have l18 : (180.0:ℝ) = 180 := by norm_num
    rw [l9, l18]
    have := Real.pi_ne_zero
    field_simp
    ring
  refine ⟨_, hval, ?_, ?_, ?_, ?_⟩
  · linarith [arccos_le_pi c]
  · linarith [arccos_nonneg c]
  · rw [sin_pi_div_two_sub, cos_arccos hc1.1 hc1.2, hc]; field_simp
  · unfold Planet.angMomScalar
    rw [vIeMag_eq, cos_pi_div_two_sub, sin_arccos, ← hUdef, ← hRn]
    symm
    apply V3.norm_eq_of_sq (by positivity)
    rw [V3.dot_cross_self, mul_pow, mul_pow, Real.sq_sqrt (by nlinarith [hc1.1, hc1.2]), V3.norm_sq, V3.norm_sq]
    have h2 : V3.dot R U = c * (V3.norm R * V3.norm U) := by rw [hc]; field_simp
    rw [h2, mul_pow, mul_pow, V3.norm_sq, V3.norm_sq]
    ring

end AMAT
