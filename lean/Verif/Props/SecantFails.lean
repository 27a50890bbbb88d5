import Verif.Props.SecantWide

/-
Property C56, eccentricities next to one: the secant method does not stop within its 50 iterations.
-/

noncomputable section

namespace AMAT.Props

open Real AMAT

/-- Points near periapsis, with room for `n` further steps. -/
def NearPeri (n : ℕ) (a : ℝ) : Prop := 0 ≤ a ∧ a ≤ 16 / 10000 - n * (28 / 1000000)

theorem NearPeri.le {n : ℕ} {a : ℝ} (h : NearPeri n a) : a ≤ 16 / 10000 := by
  have : (0:ℝ) ≤ n * (28 / 1000000) := by positivity
  linarith [h.2]

theorem near_slope {e a b : ℝ} (he : 1 - 1 / 1000000 ≤ e) (he1 : e < 1) (ha : 0 ≤ a) (ha' : a ≤ 16 / 10000) (hb : 0 ≤ b)
    (hb' : b ≤ 16 / 10000) : 0 < 1 - e * meanCos a b ∧ 1 - e * meanCos a b ≤ 23 / 10000000 := by
  have hpi := pi_gt_three
  have h1 : meanCos a b ≤ 1 := (abs_le.mp (abs_meanCos_le a b)).2
  have h2 := meanCos_anti ha hb ha' hb' (by linarith) (by linarith)
  have h3 : meanCos (16 / 10000) (16 / 10000) = cos (16 / 10000) := by simp [meanCos]
  have h4 := one_sub_sq_div_two_le_cos (x := 16 / 10000)
  rw [h3] at h2
  have h5 : (1:ℝ) - (16 / 10000) ^ 2 / 2 ≤ meanCos a b := h4.trans h2
  norm_num at h5
  constructor <;> nlinarith

theorem near_value {e a : ℝ} (he : 1 - 1 / 1000000 ≤ e) (he1 : e < 1) (ha : 0 ≤ a) (ha' : a ≤ 16 / 10000) :
    -(2 / 100000) ≤ a - e * sin a - 2 / 100000 ∧ a - e * sin a - 2 / 100000 ≤ -(19 / 1000000) := by
  have h := kepler_diff e (2 / 100000) a 0
  obtain ⟨h1, h2⟩ := near_slope he he1 ha ha' le_rfl (by norm_num)
  rw [sin_zero] at h
  have h3 : 0 ≤ a * (1 - e * meanCos a 0) := mul_nonneg ha h1.le
  have h4 : a * (1 - e * meanCos a 0) ≤ 16 / 10000 * (23 / 10000000) := mul_le_mul ha' h2 h1.le (by norm_num)
  constructor <;> linarith

theorem far_slope {e a J : ℝ} (he : 1 - 1 / 1000000 ≤ e) (he1 : e < 1) (ha : 0 ≤ a) (ha' : a ≤ 16 / 10000) (hJ : 4 ≤ J) :
    73 / 100 ≤ 1 - e * meanCos J a ∧ 1 - e * meanCos J a ≤ 127 / 100 := by
  have h := sin_sub_eq J a
  have h1 := sin_le_one J
  have h2 := neg_one_le_sin J
  have h3 : |sin a| ≤ 16 / 10000 := by
    have := abs_sin_le_abs (x := a)
    rw [abs_of_nonneg ha] at this
    linarith
  obtain ⟨h4, h5⟩ := abs_le.mp h3
  have hd : 399 / 100 ≤ J - a := by linarith
  have m1 : meanCos J a ≤ 26 / 100 := by by_contra hc; push Not at hc; nlinarith
  have m2 : -(26 / 100) ≤ meanCos J a := by by_contra hc; push Not at hc; nlinarith
  constructor <;> nlinarith

/-- The iteration in its three phases: both points near periapsis, the newer one far away, the older one far away. -/
theorem secant_circles {e : ℝ} (he : 1 - 1 / 1000000 ≤ e) (he1 : e < 1) (n : ℕ) :
    (∀ a b, NearPeri n a → NearPeri n b → b ≠ a → secantLoop (fun E => E - e * sin E - 2 / 100000) n a b = none) ∧
    (∀ a J, NearPeri n a → 4 ≤ J → secantLoop (fun E => E - e * sin E - 2 / 100000) n a J = none) ∧
    (∀ a J, NearPeri n a → 4 ≤ J → secantLoop (fun E => E - e * sin E - 2 / 100000) n J a = none) := by
  have hae : |e| < 1 := by rw [abs_of_nonneg (by linarith)]; exact he1
  induction n with
  | zero => exact ⟨fun _ _ _ _ _ => rfl, fun _ _ _ _ => rfl, fun _ _ _ _ => rfl⟩
  | succ n ih =>
    obtain ⟨ihA, ihB, ihC⟩ := ih
    have weaken : ∀ a, NearPeri (n + 1) a → NearPeri n a := by
      intro a h
      refine ⟨h.1, h.2.trans ?_⟩
      push_cast
      linarith
    have move : ∀ a p, NearPeri (n + 1) a → 0 ≤ p - a → p - a ≤ 28 / 1000000 → NearPeri n p := by
      intro a p h h0 h1
      have h2 := h.2
      push_cast at h2
      exact ⟨by linarith [h.1], by linarith⟩
    refine ⟨fun a b ha hb hne => ?_, fun a J ha hJ => ?_, fun a J ha hJ => ?_⟩
    · have hk := kepler_ne hae (2 / 100000) hne
      have hst := kepler_step hae (2 / 100000) hne rfl
      obtain ⟨s0, s1⟩ := near_slope he he1 hb.1 hb.le ha.1 ha.le
      obtain ⟨v0, v1⟩ := near_value he he1 hb.1 hb.le
      unfold secantLoop
      simp only
      rw [if_neg hk]
      set p := secantNext a b (a - e * sin a - 2 / 100000) (b - e * sin b - 2 / 100000)
      have hp : 4 < p - b := by by_contra hc; push Not at hc; nlinarith
      rw [if_neg (by rw [abs_of_pos (by linarith)]; norm_num; linarith)]
      exact ihB b p (weaken b hb) (by linarith [hb.1])
    · have hne : J ≠ a := by have := ha.le; intro h; linarith
      have hk := kepler_ne hae (2 / 100000) hne
      obtain ⟨s0, s1⟩ := far_slope he he1 ha.1 ha.le hJ
      obtain ⟨v0, v1⟩ := near_value he he1 ha.1 ha.le
      have hst := kepler_step hae (2 / 100000) hne rfl
      have hdiff := kepler_diff e (2 / 100000) J a
      unfold secantLoop
      simp only
      rw [if_neg hk]
      set p := secantNext a J (a - e * sin a - 2 / 100000) (J - e * sin J - 2 / 100000)
      have hst' : (p - a) * (1 - e * meanCos J a) = -(a - e * sin a - 2 / 100000) := by
        have : (p - a) * (1 - e * meanCos J a) = (p - J) * (1 - e * meanCos J a) + (J - a) * (1 - e * meanCos J a) := by
          ring
        rw [this, hst, ← hdiff]; ring
      have q0 : 0 ≤ p - a := by by_contra hc; push Not at hc; nlinarith
      have q1 : p - a ≤ 28 / 1000000 := by by_contra hc; push Not at hc; nlinarith
      have hal := ha.le
      rw [if_neg (by rw [abs_of_neg (by linarith)]; norm_num; linarith)]
      exact ihC p J (move a p ha q0 q1) hJ
    · have hne : a ≠ J := by have := ha.le; intro h; linarith
      have hk := kepler_ne hae (2 / 100000) hne
      obtain ⟨s0, s1⟩ := far_slope he he1 ha.1 ha.le hJ
      rw [meanCos_comm] at s0 s1
      obtain ⟨v0, v1⟩ := near_value he he1 ha.1 ha.le
      have hst := kepler_step hae (2 / 100000) hne rfl
      unfold secantLoop
      simp only
      rw [if_neg hk]
      set p := secantNext J a (J - e * sin J - 2 / 100000) (a - e * sin a - 2 / 100000)
      have q0 : 1 / 100000 ≤ p - a := by by_contra hc; push Not at hc; nlinarith
      have q1 : p - a ≤ 28 / 1000000 := by by_contra hc; push Not at hc; nlinarith
      rw [if_neg (by rw [abs_of_pos (by linarith)]; norm_num; linarith)]
      exact ihA a p (weaken a ha) (move a p ha (by linarith) q1) (by intro h; linarith)

/-- C56 (finding): next to eccentricity one `compute_E` raises `RuntimeError`: at mean anomaly 2·10⁻⁵ the secant method does not
stop within its 50 iterations, for any eccentricity from 1 − 10⁻⁶ on. -/
theorem C56_eccentric_anomaly_fails (e : ℝ) (he : 1 - 1e-6 ≤ e) (he1 : e < 1) : computeE e 2e-5 = none := by
  have h6 : (1e-6 : ℝ) = 1 / 1000000 := by norm_num
  have h5 : (2e-5 : ℝ) = 2 / 100000 := by norm_num
  rw [h6] at he
  rw [h5]
  have hae : |e| < 1 := by rw [abs_of_nonneg (by linarith)]; exact he1
  have hs : secantStart (2 / 100000) = 120002 / 1000000000 := by
    unfold secantStart
    norm_num
  have hx : NearPeri 50 (2 / 100000) := by constructor <;> norm_num
  have hp : NearPeri 50 (120002 / 1000000000) := by constructor <;> norm_num
  obtain ⟨a0, a1⟩ := near_value he he1 hx.1 hx.le
  obtain ⟨b0, b1⟩ := near_value he he1 hp.1 hp.le
  unfold computeE scipyNewton
  simp only
  rw [hs]
  split_ifs
  · exact (secant_circles he he1 50).1 _ _ hp hx (by norm_num)
  · exact (secant_circles he he1 50).1 _ _ hx hp (by norm_num)

/-- Case for `C56_eccentric_anomaly_fails`; Kepler's equation itself has exactly one solution there. -/
example : computeE 0.9999995 2e-5 = none ∧ ∃! E : ℝ, E - 0.9999995 * sin E = 2e-5 := by
  refine ⟨C56_eccentric_anomaly_fails _ (by norm_num) (by norm_num), ?_⟩
  have h0 : -1 < (0.9999995:ℝ) := by norm_num
  have h1 : (0.9999995:ℝ) < 1 := by norm_num
  have hk : ecc h0 h1 2e-5 - 0.9999995 * sin (ecc h0 h1 2e-5) = 2e-5 := kep_ecc h0 h1 _
  refine ⟨ecc h0 h1 2e-5, hk, fun y hy => ?_⟩
  by_contra hne
  exact kepler_ne (e := 0.9999995) (by rw [abs_of_pos (by norm_num)]; exact h1) 2e-5 hne (by
    simp only at hy
    rw [hy, hk])

/-- C56 (finding), on the orbit: for such an orbit `compute_timed_orbit_trajectory` raises at the time with that mean anomaly. -/
theorem C56_timed_orbit_secant_fails (O : PropOrbiter) (el : Elements) (per : ℝ) (hper : O.period el = some per) (h0 : 0 < per)
    (he : 1 - 1e-6 ≤ el.e) (he1 : el.e < 1) : O.timedPosSecant el (per * 1e-5 / π) = none := by
  have hM : npDiv (2 * π * (per * 1e-5 / π)) per = some 2e-5 := by
    unfold npDiv
    rw [if_neg h0.ne']
    have hpi := pi_pos.ne'
    have h5 : (2e-5 : ℝ) = 2 * 1e-5 := by norm_num
    rw [h5]
    generalize (1e-5:ℝ) = c
    congr 1
    field_simp
  unfold PropOrbiter.timedPosSecant
  rw [hper]
  simp only [bind, Option.bind]
  rw [hM]
  simp only
  rw [C56_eccentric_anomaly_fails _ he he1]


/-- Case for `C56_timed_orbit_secant_fails`: an Earth capture orbit reaching out to 2.8·10¹⁰ km. -/
example : ∃ (A : Approach) (el : Elements) (per : ℝ), Approach.init "EARTH" ⟨0, 10 * 1, 0⟩ 6771e3 0 false none = .ok A ∧
    (PropOrbiter.mk A 2.8e10).elements = some el ∧ (PropOrbiter.mk A 2.8e10).period el = some per ∧ 0 < per ∧
    (PropOrbiter.mk A 2.8e10).timedPosSecant el (per * 1e-5 / π) = none := by
  obtain ⟨A, Hv, hA, hv, hH, hne, -⟩ := earth_capture
  have hRP : A.P.RP = 6371e3 := by
    obtain ⟨P, hP, hAP, -⟩ := approach_init_inv hA
    rw [hAP]; simp [Planet.init] at hP; subst hP; rfl
  obtain ⟨el, per, R, U, h1, h2, h3, h4, -⟩ :=
    C56_timed_orbit_secant "EARTH" _ 6771e3 0 2.8e10 none A Hv hA hv (by norm_num) hH hne (by rw [hRP]; norm_num)
  rw [hRP] at h4
  norm_num at h4
  refine ⟨A, el, per, hA, h1, h2, h3, C56_timed_orbit_secant_fails _ el per h2 h3 ?_ ?_⟩
  · norm_num; linarith
  · linarith

end AMAT.Props
