import Verif.Spec.TwoBody
import Verif.Spec.Vec3
import Verif.Lemmas.Conic
import Mathlib.Analysis.SpecialFunctions.Trigonometric.DerivHyp
import Mathlib.Analysis.Calculus.Deriv.Inverse
import Mathlib.Analysis.Calculus.Deriv.MeanValue
import Mathlib.Topology.Order.MonotoneContinuity
import Mathlib.Topology.Order.IntermediateValue

/-
Helper lemmas: hyperbolic two-body motion from a position and a velocity, in the universal form.  `r` is the distance and
`σ` the scaled radial speed at the initial point (unit of length: the semi-transverse axis), `x` the difference of
hyperbolic anomaly.
-/

noncomputable section

namespace AMAT

open Real

/-- Scaled time as a function of the anomaly difference. -/
def hK (r σ x : ℝ) : ℝ := -x + σ * (cosh x - 1) + (1 + r) * sinh x

/-- Scaled distance as a function of the anomaly difference. -/
def hR (r σ x : ℝ) : ℝ := -1 + σ * sinh x + (1 + r) * cosh x

theorem hK_deriv (r σ x : ℝ) : HasDerivAt (hK r σ) (hR r σ x) x :=
  ((hasDerivAt_id x).fun_neg.fun_add (((hasDerivAt_cosh x).sub_const 1).const_mul σ)).fun_add
    ((hasDerivAt_sinh x).const_mul (1 + r))

theorem hR_deriv (r σ x : ℝ) : HasDerivAt (hR r σ) (σ * cosh x + (1 + r) * sinh x) x := by
  have := ((hasDerivAt_const x (-1:ℝ)).fun_add ((hasDerivAt_sinh x).const_mul σ)).fun_add ((hasDerivAt_cosh x).const_mul (1 + r))
  exact this.congr_deriv (by ring)

theorem hR_lower {r σ : ℝ} (hr : 0 < r) (h : 1 < (1 + r) ^ 2 - σ ^ 2) (x : ℝ) : sqrt ((1 + r) ^ 2 - σ ^ 2) - 1 ≤ hR r σ x := by
  have c1 := cosh_sq x
  have c0 := one_le_cosh x
  have hpos : 0 ≤ (1 + r) * cosh x + σ * sinh x := by
    by_contra hc
    push Not at hc
    have h1 : ((1 + r) * cosh x) ^ 2 < (σ * sinh x) ^ 2 := by
      have : (1 + r) * cosh x < -(σ * sinh x) := by linarith
      have h0 : 0 ≤ (1 + r) * cosh x := by positivity
      nlinarith
    have h2 : σ ^ 2 * sinh x ^ 2 ≤ (1 + r) ^ 2 * sinh x ^ 2 := mul_le_mul_of_nonneg_right (by linarith) (sq_nonneg _)
    rw [mul_pow, mul_pow, c1] at h1
    nlinarith [sq_nonneg (1 + r)]
  have : sqrt ((1 + r) ^ 2 - σ ^ 2) ≤ (1 + r) * cosh x + σ * sinh x := by
    apply sqrt_le_iff.mpr
    refine ⟨hpos, ?_⟩
    nlinarith [sq_nonneg ((1 + r) * sinh x + σ * cosh x)]
  unfold hR; linarith

theorem hR_eps {r σ : ℝ} (h : 1 < (1 + r) ^ 2 - σ ^ 2) : 0 < sqrt ((1 + r) ^ 2 - σ ^ 2) - 1 := by
  have : 1 < sqrt ((1 + r) ^ 2 - σ ^ 2) := by rw [lt_sqrt (by norm_num)]; linarith
  linarith

theorem hR_pos {r σ : ℝ} (hr : 0 < r) (h : 1 < (1 + r) ^ 2 - σ ^ 2) (x : ℝ) : 0 < hR r σ x :=
  lt_of_lt_of_le (hR_eps h) (hR_lower hr h x)

theorem hK_zero (r σ : ℝ) : hK r σ 0 = 0 := by unfold hK; simp

theorem hK_strictMono {r σ : ℝ} (hr : 0 < r) (h : 1 < (1 + r) ^ 2 - σ ^ 2) : StrictMono (hK r σ) := by
  apply strictMono_of_deriv_pos
  intro x
  rw [(hK_deriv r σ x).deriv]
  exact hR_pos hr h x

theorem hK_cont (r σ : ℝ) : Continuous (hK r σ) :=
  continuous_iff_continuousAt.mpr fun x => (hK_deriv r σ x).continuousAt

theorem hK_surj {r σ : ℝ} (hr : 0 < r) (h : 1 < (1 + r) ^ 2 - σ ^ 2) : Function.Surjective (hK r σ) := by
  set ε := sqrt ((1 + r) ^ 2 - σ ^ 2) - 1 with hε
  have he : 0 < ε := hR_eps h
  have hd : ∀ x, HasDerivAt (fun x => hK r σ x - ε * x) (hR r σ x - ε * 1) x := fun x =>
    (hK_deriv r σ x).fun_sub ((hasDerivAt_id x).const_mul ε)
  have hm : Monotone fun x => hK r σ x - ε * x := by
    apply monotone_of_deriv_nonneg (fun x => (hd x).differentiableAt)
    intro x
    rw [(hd x).deriv]
    have := hR_lower hr h x
    rw [← hε] at this
    linarith
  intro M
  have h0 : hK r σ 0 - ε * 0 = 0 := by rw [hK_zero]; ring
  have hx : ε * (M / ε) = M := by field_simp
  have hmem : M ∈ Set.uIcc (hK r σ 0) (hK r σ (M / ε)) := by
    rw [hK_zero]
    rcases le_total 0 M with hM | hM
    · have := hm (by positivity : (0:ℝ) ≤ M / ε)
      dsimp only at this
      rw [Set.mem_uIcc]; left; constructor <;> linarith
    · have := hm (div_nonpos_of_nonpos_of_nonneg hM he.le : M / ε ≤ 0)
      dsimp only at this
      rw [Set.mem_uIcc]; right; constructor <;> linarith
  obtain ⟨x, -, hx⟩ := intermediate_value_uIcc (hK_cont r σ).continuousOn hmem
  exact ⟨x, hx⟩

section
variable {r σ : ℝ} (hr : 0 < r) (h : 1 < (1 + r) ^ 2 - σ ^ 2)

/-- The anomaly difference at a scaled time. -/
def hX : ℝ → ℝ := (StrictMono.orderIsoOfSurjective (hK r σ) (hK_strictMono hr h) (hK_surj hr h)).symm

theorem hK_hX (M : ℝ) : hK r σ (hX hr h M) = M :=
  (StrictMono.orderIsoOfSurjective (hK r σ) (hK_strictMono hr h) (hK_surj hr h)).apply_symm_apply M

theorem hX_hK (x : ℝ) : hX hr h (hK r σ x) = x := (hK_strictMono hr h).injective (hK_hX hr h _)

theorem hX_cont : Continuous (hX hr h) :=
  (StrictMono.orderIsoOfSurjective (hK r σ) (hK_strictMono hr h) (hK_surj hr h)).symm.continuous

theorem hX_deriv (M : ℝ) : HasDerivAt (hX hr h) (hR r σ (hX hr h M))⁻¹ M :=
  HasDerivAt.of_local_left_inverse (hX_cont hr h).continuousAt (hK_deriv r σ _) (hR_pos hr h _).ne'
    (Filter.Eventually.of_forall fun x => hK_hX hr h x)
end

/-- Position at an anomaly difference. -/
def hPos (n r σ : ℝ) (R V : V3) (x : ℝ) : V3 :=
  (1 - (cosh x - 1) / r) • R + (1 / n * (r * sinh x + σ * (cosh x - 1))) • V

/-- Velocity at an anomaly difference. -/
def hVel (n r σ : ℝ) (R V : V3) (x : ℝ) : V3 :=
  (-(n / r) * (sinh x / hR r σ x)) • R + (1 - (cosh x - 1) / hR r σ x) • V

theorem hPos_norm {a n r σ : ℝ} {R V : V3} (ha : 0 < a) (hn : 0 < n) (hr : 0 < r) (h : 1 < (1 + r) ^ 2 - σ ^ 2)
    (hRR : V3.dot R R = (a * r) ^ 2) (hRV : V3.dot R V = n * a ^ 2 * σ) (hVV : V3.dot V V = n ^ 2 * a ^ 2 * (2 / r + 1))
    (x : ℝ) : V3.norm (hPos n r σ R V x) = a * hR r σ x := by
  have hd := hR_pos hr h x
  apply V3.norm_eq_of_sq (by positivity)
  unfold hPos
  have key : ∀ x y : ℝ, V3.dot (x • R + y • V) (x • R + y • V) = x ^ 2 * V3.dot R R + 2 * x * y * V3.dot R V + y ^ 2 * V3.dot V V := by
    intro x y
    simp only [V3.dot, V3.add_x, V3.add_y, V3.add_z, V3.smul_x, V3.smul_y, V3.smul_z]; ring
  have cs := cosh_sq x
  rw [key, hRR, hRV, hVV]
  unfold hR
  field_simp
  linear_combination (-(r ^ 2 * (2 + r) - r * σ ^ 2)) * cs

theorem hyper_motion {GM a n r σ : ℝ} {R V : V3} (ha : 0 < a) (hn : 0 < n) (hr : 0 < r) (h : 1 < (1 + r) ^ 2 - σ ^ 2)
    (hRR : V3.dot R R = (a * r) ^ 2) (hRV : V3.dot R V = n * a ^ 2 * σ) (hVV : V3.dot V V = n ^ 2 * a ^ 2 * (2 / r + 1))
    (hGM : n ^ 2 * a ^ 3 = GM) :
    Spec.TwoBodyMotion GM (fun t => hPos n r σ R V (hX hr h (n * t))) (fun t => hVel n r σ R V (hX hr h (n * t))) := by
  intro t
  have hx : HasDerivAt (fun t => hX hr h (n * t)) ((hR r σ (hX hr h (n * t)))⁻¹ * n) t :=
    HasDerivAt.comp_of_eq t (hX_deriv hr h (n * t)) (by simpa using (hasDerivAt_id t).const_mul n) rfl
  have hd := hR_pos hr h (hX hr h (n * t))
  have hnorm := hPos_norm ha hn hr h hRR hRV hVV (hX hr h (n * t))
  have cs := cosh_sq (hX hr h (n * t))
  -- the scalar coefficients
  have f1 : HasDerivAt (fun t => 1 - (cosh (hX hr h (n * t)) - 1) / r)
      (-(n / r) * (sinh (hX hr h (n * t)) / hR r σ (hX hr h (n * t)))) t := by
    have := ((HasDerivAt.cosh hx).sub_const 1).div_const r |>.const_sub 1
    exact this.congr_deriv (by ring)
  have g1 : HasDerivAt (fun t => 1 / n * (r * sinh (hX hr h (n * t)) + σ * (cosh (hX hr h (n * t)) - 1)))
      (1 - (cosh (hX hr h (n * t)) - 1) / hR r σ (hX hr h (n * t))) t := by
    have := (((HasDerivAt.sinh hx).const_mul r).fun_add (((HasDerivAt.cosh hx).sub_const 1).const_mul σ)).const_mul (1 / n)
    refine this.congr_deriv ?_
    have hd' := hd.ne'
    field_simp
    unfold hR; ring
  have hR1 : HasDerivAt (fun t => hR r σ (hX hr h (n * t)))
      ((σ * cosh (hX hr h (n * t)) + (1 + r) * sinh (hX hr h (n * t))) * ((hR r σ (hX hr h (n * t)))⁻¹ * n)) t :=
    HasDerivAt.comp_of_eq t (hR_deriv r σ (hX hr h (n * t))) hx rfl
  have f2 : HasDerivAt (fun t => -(n / r) * (sinh (hX hr h (n * t)) / hR r σ (hX hr h (n * t))))
      (-n ^ 2 / hR r σ (hX hr h (n * t)) ^ 3 * (1 - (cosh (hX hr h (n * t)) - 1) / r)) t := by
    have := (((HasDerivAt.sinh hx).fun_div hR1 hd.ne').const_mul (-(n / r)))
    refine this.congr_deriv ?_
    have hd' := hd.ne'
    have e1 : cosh (hX hr h (n * t)) * hR r σ (hX hr h (n * t)) - sinh (hX hr h (n * t)) *
        (σ * cosh (hX hr h (n * t)) + (1 + r) * sinh (hX hr h (n * t))) = 1 + r - cosh (hX hr h (n * t)) := by
      unfold hR; linear_combination (1 + r) * cs
    generalize hR r σ (hX hr h (n * t)) = ρ at *
    generalize sinh (hX hr h (n * t)) = s at *
    generalize cosh (hX hr h (n * t)) = c at *
    field_simp
    linear_combination (-1 : ℝ) * e1
  have g2 : HasDerivAt (fun t => 1 - (cosh (hX hr h (n * t)) - 1) / hR r σ (hX hr h (n * t)))
      (-n ^ 2 / hR r σ (hX hr h (n * t)) ^ 3 * (1 / n * (r * sinh (hX hr h (n * t)) + σ * (cosh (hX hr h (n * t)) - 1)))) t := by
    have := (((HasDerivAt.cosh hx).sub_const 1).fun_div hR1 hd.ne').const_sub 1
    refine this.congr_deriv ?_
    have hd' := hd.ne'
    have e1 : sinh (hX hr h (n * t)) * hR r σ (hX hr h (n * t)) - (cosh (hX hr h (n * t)) - 1) *
        (σ * cosh (hX hr h (n * t)) + (1 + r) * sinh (hX hr h (n * t))) =
        r * sinh (hX hr h (n * t)) + σ * (cosh (hX hr h (n * t)) - 1) := by
      unfold hR; linear_combination (-σ) * cs
    generalize hR r σ (hX hr h (n * t)) = ρ at *
    generalize sinh (hX hr h (n * t)) = s at *
    generalize cosh (hX hr h (n * t)) = c at *
    field_simp
    linear_combination (-1 : ℝ) * e1
  have hk : -GM / V3.norm (hPos n r σ R V (hX hr h (n * t))) ^ 3 = -n ^ 2 / hR r σ (hX hr h (n * t)) ^ 3 := by
    rw [hnorm, ← hGM]; field_simp
  dsimp only
  rw [hk]
  refine ⟨⟨?_, ?_, ?_⟩, ⟨?_, ?_, ?_⟩⟩
  · exact (f1.mul_const R.x).fun_add (g1.mul_const V.x)
  · exact (f1.mul_const R.y).fun_add (g1.mul_const V.y)
  · exact (f1.mul_const R.z).fun_add (g1.mul_const V.z)
  · refine ((f2.mul_const R.x).fun_add (g2.mul_const V.x)).congr_deriv ?_
    simp only [hPos, V3.add_x, V3.smul_x]; ring
  · refine ((f2.mul_const R.y).fun_add (g2.mul_const V.y)).congr_deriv ?_
    simp only [hPos, V3.add_y, V3.smul_y]; ring
  · refine ((f2.mul_const R.z).fun_add (g2.mul_const V.z)).congr_deriv ?_
    simp only [hPos, V3.add_z, V3.smul_z]; ring

/-- A hyperbolic state starts a two-body motion; where it is at a given anomaly difference, and when. -/
theorem hyper_arc {GM a n r σ x : ℝ} {R V : V3} (ha : 0 < a) (hn : 0 < n) (hr : 0 < r) (h : 1 < (1 + r) ^ 2 - σ ^ 2)
    (hRR : V3.dot R R = (a * r) ^ 2) (hRV : V3.dot R V = n * a ^ 2 * σ) (hVV : V3.dot V V = n ^ 2 * a ^ 2 * (2 / r + 1))
    (hGM : n ^ 2 * a ^ 3 = GM) :
    ∃ Rt Ut : ℝ → V3, Spec.TwoBodyMotion GM Rt Ut ∧ Rt 0 = R ∧ Ut 0 = V ∧
      Rt (1 / n * hK r σ x) = (1 - (cosh x - 1) / r) • R + (1 / n * (r * sinh x + σ * (cosh x - 1))) • V ∧
      ∃ fd gd : ℝ, Ut (1 / n * hK r σ x) = fd • R + gd • V ∧
        (1 - (cosh x - 1) / r) * gd - fd * (1 / n * (r * sinh x + σ * (cosh x - 1))) = 1 := by
  have h0 : hX hr h 0 = 0 := by have := hX_hK hr h 0; rwa [hK_zero] at this
  have ht : n * (1 / n * hK r σ x) = hK r σ x := by field_simp
  refine ⟨_, _, hyper_motion ha hn hr h hRR hRV hVV hGM, ?_, ?_, ?_,
    -(n / r) * (sinh x / hR r σ x), 1 - (cosh x - 1) / hR r σ x, ?_, ?_⟩
  · simp only [mul_zero, h0, hPos]; ext <;> simp
  · simp only [mul_zero, h0, hVel]; ext <;> simp
  · simp only [ht, hX_hK, hPos]
  · simp only [ht, hX_hK, hVel]
  · have hd := (hR_pos hr h x).ne'
    have hρ : hR r σ x = -1 + σ * sinh x + (1 + r) * cosh x := rfl
    have cs := cosh_sq x
    generalize hR r σ x = ρ at *
    field_simp
    rw [hρ]
    linear_combination (-r) * cs

end AMAT
