import Verif.Props.PropulsiveOrbit
import Verif.Lemmas.KeplerTime

/-
C56: position on the capture orbit as a function of time.
-/

noncomputable section

namespace AMAT.Props

open Real

/-- The computed position for a root finder with residual at most `δ`. -/
theorem timedPos_eq {O : PropOrbiter} {el : Elements} {u w : V3} (K : EllipseOK O.A.P.GM el u w) {n δ : ℝ} (hn : 0 < n)
    (hna : n ^ 2 * el.a ^ 3 = O.A.P.GM) (newton : (ℝ → ℝ) → ℝ → ℝ)
    (hN : ∀ M, |kep el.e (newton (fun E => E - el.e * sin E - M) M) - M| ≤ δ) (t : ℝ) :
    O.period el = some (2 * π / n) ∧
    ∃ t', |t' - t| ≤ δ / n ∧
      O.timedPos newton el t = some (kPos el.a el.e u (V3.cross w u) (ecc K.e0 K.e1 (n * t'))) := by
  have ha := K.apos; have hg := K.gm; have hpi := pi_pos
  have hsq : sqrt (el.a ^ 3 / O.A.P.GM) = 1 / n := by
    rw [← sqrt_sq (by positivity : (0:ℝ) ≤ 1 / n)]
    congr 1
    rw [← hna]; field_simp
  have hper : O.period el = some (2 * π / n) := by
    unfold PropOrbiter.period
    rw [npSqrt_some (by positivity)]
    simp only [bind, Option.bind, pure, hsq]
    congr 1; ring
  refine ⟨hper, ?_⟩
  have hM : 2 * π * t / (2 * π / n) = n * t := by field_simp
  set E := newton (fun E => E - el.e * sin E - n * t) (n * t) with hE
  obtain ⟨th, hth, hc, hs⟩ := thetaStar_spec K.e0 K.e1 E
  refine ⟨kep el.e E / n, ?_, ?_⟩
  · have := hN (n * t)
    rw [← hE] at this
    rw [show kep el.e E / n - t = (kep el.e E - n * t) / n by field_simp, abs_div, abs_of_pos hn]
    exact div_le_div_of_nonneg_right this hn.le
  · unfold PropOrbiter.timedPos
    rw [hper]
    simp only [bind, Option.bind]
    rw [npDiv_some (by positivity)]
    simp only [hM]
    rw [← hE, hth]
    simp only []
    rw [K.pos, show n * (kep el.e E / n) = kep el.e E by field_simp, ecc_kep,
      cPos_thetaStar (a := el.a) K.e0 K.e1 (by rw [K.hsq]; field_simp) hc hs]

/-- C56.  For every non-equatorial approach and every apoapsis there is a two-body motion `R` in time that starts at the
periapsis of the approach, in the sense of the approach's angular momentum, with the orbital energy of the target ellipse,
and has the computed period, such that: if the root finder leaves a residual of at most `δ` in Kepler's equation, then the
position computed for time `t` is the position of that motion at a time within `δ P / 2π` of `t` (for an exact root finder:
at time `t`), and the radius is `a (1 - e cos E)` at the root `E` of Kepler's equation for `2 π t / P`.

Partial: approaches in the equatorial plane are missing; for them no orbit is computed (`C49_equatorial_fails`). -/
theorem C56_timed_orbit_partial (name : String) (v : V3) (rp psi apo : ℝ) (hEI : Option ℝ) (A : Approach) (Hv : V3)
    (hA : Approach.init name v rp psi false hEI = .ok A) (hv : v ≠ 0) (hrp : 0 < rp) (hH : A.hVec = some Hv)
    (hne : Hv.x ≠ 0 ∨ Hv.y ≠ 0) (hra : 0 < A.P.RP + apo * 1000) :
    ∃ (el : Elements) (per : ℝ) (R U : ℝ → V3), (PropOrbiter.mk A apo).elements = some el ∧
      (PropOrbiter.mk A apo).period el = some per ∧ 0 < per ∧
      Spec.TwoBodyMotion A.P.GM R U ∧ A.rpVec = some (R 0) ∧ V3.dot (R 0) (U 0) = 0 ∧
      Spec.energy A.P.GM (R 0) (U 0) = -(A.P.GM / (rp + (A.P.RP + apo * 1000))) ∧
      (∃ k : ℝ, 0 < k ∧ V3.cross (R 0) (U 0) = k • Hv) ∧
      (∀ t, R (t + per) = R t ∧ U (t + per) = U t) ∧
      (∀ t, ∃ E, E - el.e * sin E = 2 * π * t / per ∧ (∀ E', E' - el.e * sin E' = 2 * π * t / per → E' = E) ∧
        V3.norm (R t) = el.a * (1 - el.e * cos E)) ∧
      (∀ newton : (ℝ → ℝ) → ℝ → ℝ, (∀ M, (fun E => E - el.e * sin E - M) (newton (fun E => E - el.e * sin E - M) M) = 0) →
        ∀ t, (PropOrbiter.mk A apo).timedPos newton el t = some (R t)) ∧
      (∀ (newton : (ℝ → ℝ) → ℝ → ℝ) (δ : ℝ),
        (∀ M, |(fun E => E - el.e * sin E - M) (newton (fun E => E - el.e * sin E - M) M)| ≤ δ) →
        ∀ t, ∃ t', |t' - t| ≤ δ * per / (2 * π) ∧ (PropOrbiter.mk A apo).timedPos newton el t = some (R t')) := by
  obtain ⟨V, e, bb, h, d, u, w, H, hn, hHw⟩ := approach_facts hA hv hrp hH hne
  obtain ⟨P, hP, hAP, rfl, rfl, rfl, -⟩ := approach_init_inv hA
  obtain ⟨el, hel, K, k1, k2, k3⟩ := prop_ellipse H hn hra rfl
  have ha := K.apos; have hg := K.gm; have hpi := pi_pos
  have hem : 0 < 1 - el.e := by linarith [K.e1]
  have hep : 0 < 1 + el.e := by linarith [K.e0]
  obtain ⟨c1, c2⟩ := cross_unit H.uu H.ww H.uw
  set n := sqrt (A.P.GM / el.a ^ 3) with hnd
  have hn0 : 0 < n := sqrt_pos.mpr (by positivity)
  have hna : n ^ 2 * el.a ^ 3 = A.P.GM := by rw [hnd, sq_sqrt (by positivity)]; field_simp
  have hs0 : 0 < sqrt (1 - el.e ^ 2) := sqrt_pos.mpr (by nlinarith)
  have hss : sqrt (1 - el.e ^ 2) ^ 2 = 1 - el.e ^ 2 := sq_sqrt (by nlinarith)
  have R0 : kPos el.a el.e u (V3.cross w u) 0 = A.rp • u := by
    unfold kPos
    rw [cos_zero, sin_zero, k1, mul_zero]
    ext <;> simp
  have U0 : kVel n el.a el.e u (V3.cross w u) 0 = (n * el.a * sqrt (1 - el.e ^ 2) / (1 - el.e)) • V3.cross w u := by
    unfold kVel
    rw [cos_zero, sin_zero, mul_one]
    ext <;> simp only [V3.add_x, V3.add_y, V3.add_z, V3.smul_x, V3.smul_y, V3.smul_z] <;> ring
  have hkep : ∀ x, kep el.e x = x - el.e * sin x := fun x => rfl
  have hrp0 := H.rp
  refine ⟨el, 2 * π / n, fun t => kPos el.a el.e u (V3.cross w u) (ecc K.e0 K.e1 (n * t)),
    fun t => kVel n el.a el.e u (V3.cross w u) (ecc K.e0 K.e1 (n * t)), hel, ?_, by positivity,
    kepler_motion ha K.e0 K.e1 K.uu c1 c2 hna, ?_, ?_, ?_, ?_, ?_, ?_, ?_, ?_⟩
  · exact (timedPos_eq K (O := ⟨A, apo⟩) hn0 hna (δ := 0) (fun f x => ecc K.e0 K.e1 x) (fun M => by simp [kep_ecc]) 0).1
  · simp only [mul_zero, ecc_zero, R0]
    unfold Approach.rpVec; rw [H.hu]; rfl
  · simp only [mul_zero, ecc_zero, R0, U0]
    rw [V3.dot_smul_left, V3.dot_smul_right, c2]; ring
  · simp only [mul_zero, ecc_zero, R0, U0]
    unfold Spec.energy
    have hU2 : V3.norm ((n * el.a * sqrt (1 - el.e ^ 2) / (1 - el.e)) • V3.cross w u) ^ 2 =
        A.P.GM / el.a * ((1 + el.e) / (1 - el.e)) := by
      rw [V3.norm_sq, V3.dot_smul_left, V3.dot_smul_right, c1, mul_one, ← sq, div_pow, mul_pow, mul_pow, hss, ← hna]
      field_simp
      ring
    rw [hU2, V3.norm_smul, abs_of_pos hrp0, V3.norm_of_dot_one H.uu, mul_one,
      show A.rp + (A.P.RP + apo * 1000) = 2 * el.a by rw [k3]; ring, ← k1]
    field_simp
    ring
  · simp only [mul_zero, ecc_zero, R0, U0]
    have hsb := H.sb; have hV := H.vpos
    have hk0 : 0 < A.rp * V * sin bb := by positivity
    refine ⟨A.rp * (n * el.a * sqrt (1 - el.e ^ 2) / (1 - el.e)) / (A.rp * V * sin bb), by positivity, ?_⟩
    have hw1 : V3.cross u (V3.cross w u) = w := by
      have : V3.cross u (V3.cross w u) = V3.dot u u • w - V3.dot u w • u := by
        ext <;> simp only [V3.cross, V3.dot, V3.sub_x, V3.sub_y, V3.sub_z, V3.smul_x, V3.smul_y, V3.smul_z] <;> ring
      rw [this, H.uu, H.uw]; ext <;> simp
    rw [V3.cross_smul_left, V3.cross_smul_right, hw1, hHw, V3.smul_smul, V3.smul_smul]
    congr 1; field_simp
  · intro t
    have : n * (t + 2 * π / n) = n * t + 2 * π := by field_simp
    simp only [this, ecc_period]
    unfold kPos kVel
    rw [cos_add_two_pi, sin_add_two_pi]
    exact ⟨rfl, rfl⟩
  · intro t
    have hM : 2 * π * t / (2 * π / n) = n * t := by field_simp
    refine ⟨ecc K.e0 K.e1 (n * t), ?_, fun E' hE' => ?_, kPos_norm ha K.e0 K.e1 K.uu c1 c2 _⟩
    · rw [hM, ← hkep, kep_ecc]
    · rw [hM, ← hkep] at hE'
      rw [← hE', ecc_kep]
  · intro newton hN t
    obtain ⟨-, t', ht, h'⟩ := timedPos_eq K (O := ⟨A, apo⟩) hn0 hna (δ := 0) newton
      (fun M => by have := hN M; simp only at this; rw [hkep, this, abs_zero]) t
    rw [zero_div] at ht
    have : t' = t := by have := abs_nonpos_iff.mp ht; linarith
    rw [h', this]
  · intro newton δ hN t
    obtain ⟨-, t', ht, h'⟩ := timedPos_eq K (O := ⟨A, apo⟩) hn0 hna newton (δ := δ) hN t
    refine ⟨t', ?_, h'⟩
    have : δ * (2 * π / n) / (2 * π) = δ / n := by field_simp
    rw [this]; exact ht

/-- C56 on the grid: with an exact root finder, the `n` entries of the arrays of `compute_timed_orbit_trajectory` are the
positions in planet radii of one two-body motion at the equally spaced times `0, …, T`; the radius of that motion stays
between the two apsis radii.  (Partial as `C56_timed_orbit_partial`.) -/
theorem C56_timed_arrays_partial (name : String) (v : V3) (rp psi apo : ℝ) (hEI : Option ℝ) (A : Approach) (Hv : V3)
    (hA : Approach.init name v rp psi false hEI = .ok A) (hv : v ≠ 0) (hrp : 0 < rp) (hH : A.hVec = some Hv)
    (hne : Hv.x ≠ 0 ∨ Hv.y ≠ 0) (hra : 0 < A.P.RP + apo * 1000) :
    ∃ (R U : ℝ → V3), Spec.TwoBodyMotion A.P.GM R U ∧ A.rpVec = some (R 0) ∧
      (∀ t, min rp (A.P.RP + apo * 1000) ≤ V3.norm (R t) ∧ V3.norm (R t) ≤ max rp (A.P.RP + apo * 1000)) ∧
      ∀ (newton : (ℝ → ℝ) → ℝ → ℝ), (∀ (e M : ℝ), -1 < e → e < 1 → (fun E => E - e * sin E - M) (newton (fun E => E - e * sin E - M) M) = 0) →
      ∀ (T : ℝ) (m : ℕ), ∃ ts xs, (PropOrbiter.mk A apo).timedTraj newton T m = some (ts, xs) ∧
        ts.length = m ∧ xs.length = m ∧ ∀ i, i < m →
          ts[i]? = some (i * (T / (m - 1))) ∧ xs[i]? = some (some ((1 / A.P.RP) • R (i * (T / (m - 1))))) := by
  obtain ⟨el, per, R, U, h1, -, -, h4, h5, -, -, -, -, h10, h11, -⟩ :=
    C56_timed_orbit_partial name v rp psi apo hEI A Hv hA hv hrp hH hne hra
  have hel : (-1 < el.e ∧ el.e < 1) ∧ 0 < el.a ∧ el.a * (1 - el.e) = rp ∧ el.a * (1 + el.e) = A.P.RP + apo * 1000 := by
    obtain ⟨V, e, bb, h, d, u, w, H, hn, hHw⟩ := approach_facts hA hv hrp hH hne
    obtain ⟨P, hP, hAP, rfl, rfl, rfl, -⟩ := approach_init_inv hA
    obtain ⟨el', hel, K, k1, k2, k3⟩ := prop_ellipse H hn hra rfl
    rw [h1] at hel
    rw [Option.some.inj hel]
    exact ⟨⟨K.e0, K.e1⟩, K.apos, k1, k2⟩
  obtain ⟨hel, ha, hk1, hk2⟩ := hel
  refine ⟨R, U, h4, h5, fun t => ?_, fun newton hN T m => ?_⟩
  · obtain ⟨E, -, -, hE⟩ := h10 t
    rw [hE, ← hk1, ← hk2]
    have c1 := neg_one_le_cos E
    have c2 := cos_le_one E
    rcases le_total 0 el.e with h | h
    · have := mul_nonneg ha.le h
      exact ⟨min_le_of_left_le (by nlinarith), le_max_of_le_right (by nlinarith)⟩
    · have := mul_nonneg ha.le (neg_nonneg.mpr h)
      exact ⟨min_le_of_right_le (by nlinarith), le_max_of_le_left (by nlinarith)⟩
  refine ⟨linspace0 T m, (linspace0 T m).map fun t => some ((1 / A.P.RP) • R t), ?_, ?_, ?_, fun i hi => ⟨?_, ?_⟩⟩
  · unfold PropOrbiter.timedTraj
    rw [h1]
    simp only [bind, Option.bind, pure]
    congr 2
    apply List.map_congr_left
    intro t _
    rw [h11 newton (fun M => hN el.e M hel.1 hel.2) t]; rfl
  · simp [linspace0]
  · simp [linspace0]
  · rw [linspace0, List.getElem?_map, List.getElem?_range hi]; rfl
  · rw [List.getElem?_map, linspace0, List.getElem?_map, List.getElem?_range hi]; rfl

/-- Case for `C56_timed_orbit_partial`: root finders meeting the contract exist, and the hypotheses on the approach are those of C53, for
which a concrete case is given there; this is the same arrival at Earth. -/
example : (∃ newton : (ℝ → ℝ) → ℝ → ℝ, ∀ (e M : ℝ), -1 < e → e < 1 →
      (fun E => E - e * sin E - M) (newton (fun E => E - e * sin E - M) M) = 0) ∧
    ∃ A Hv, Approach.init "EARTH" ⟨0, 10 * 1, 0⟩ 6771e3 0 false none = .ok A ∧ (⟨0, 10 * 1, 0⟩ : V3) ≠ 0 ∧
      A.hVec = some Hv ∧ (Hv.x ≠ 0 ∨ Hv.y ≠ 0) ∧ 0 < A.P.RP + 35786 * 1000 := by
  constructor
  · refine ⟨fun f _ => Classical.epsilon (fun E => f E = 0), fun e M h0 h1 => ?_⟩
    exact Classical.epsilon_spec (p := fun E => E - e * sin E - M = 0)
      ⟨ecc h0 h1 M, by have := kep_ecc h0 h1 M; unfold kep at this; linarith⟩
  · exact earth_capture

end AMAT.Props
