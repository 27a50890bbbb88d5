import Verif.Props.ArrivalOrbit

/-
C129: lengths of the angular momentum and aim vectors of an arrival, and the anomaly of its outgoing asymptote.
-/

noncomputable section

open Classical

namespace AMAT.Props

open Real

/-- **C129** (finding).  Full claim: `h_vec_bi` is the angular momentum vector, of length `h`, and `B_vec_bi` the aim point
vector, of length `b_mag`.  Their directions are right (C49, C67), but the angular momentum is too short by the factor
`1 - 1/e`, and the aim vector is that angular momentum times the arrival speed. -/
theorem C129_vector_lengths (name : String) (v : V3) (rp psi : ℝ) (b : Bool) (hEI : Option ℝ) (A : Approach)
    (hA : Approach.init name v rp psi b hEI = .ok A) (hv : v ≠ 0) (hrp : 0 < rp) :
    ∃ (e h B : ℝ) (Hv Bv : V3), A.e = some e ∧ A.h = some h ∧ A.bMag = some B ∧ A.hVec = some Hv ∧ A.bVec = some Bv ∧
      1 < e ∧ 0 < h ∧ V3.norm Hv = (1 - 1 / e) * h ∧ V3.norm Hv < h ∧
      V3.norm Bv = (1 - 1 / e) * A.vInfMag ^ 2 * B ∧ (V3.norm Bv = B ↔ (1 - 1 / e) * A.vInfMag ^ 2 = 1) := by
  obtain ⟨a, e', h', B, -, e1, e2, hB, -, -, -, -, -, -, hBV, hB0, -⟩ := C47_hyperbola name v rp psi b hEI A hA hv hrp
  obtain ⟨P, hP, hAP, rfl, rfl, rfl, -⟩ := approach_init_inv hA
  have hg : 0 < A.P.GM := by rw [hAP]; exact planet_gm_pos hP
  obtain ⟨V, e, bb, h, d, u, w, H⟩ := approach_core A hg hv hrp
  obtain rfl : e = e' := by have := H.he; rw [e1] at this; exact (Option.some.inj this).symm
  obtain rfl : h = h' := by have := H.hh; rw [e2] at this; exact (Option.some.inj this).symm
  have hVp := H.vpos; have he1 := H.e1; have hsb := H.sb; have hh := H.hpos
  have hrpV : A.rp * V ^ 2 = A.P.GM * (e - 1) := by rw [H.heq]; field_simp; ring
  have hc : e * cos bb = 1 := by rw [H.cb]; field_simp
  have hk : A.rp * V * sin bb = (1 - 1 / e) * h := by
    have h1 : (A.rp * V * sin bb * e) ^ 2 = ((e - 1) * h) ^ 2 := by
      have sc := sin_sq_add_cos_sq bb
      have : (A.rp * V * sin bb * e) ^ 2 = A.rp * (A.rp * V ^ 2) * (e ^ 2 - (e * cos bb) ^ 2) := by
        linear_combination (A.rp * V * e) ^ 2 * sc
      rw [this, hc, hrpV, mul_pow, H.hsq]; ring
    have h2 : A.rp * V * sin bb * e = (e - 1) * h :=
      (pow_left_inj₀ (by positivity) (mul_nonneg (by linarith) hh.le) two_ne_zero).mp h1
    rw [one_sub_div (by linarith), div_mul_eq_mul_div, eq_div_iff (by linarith), h2]
  have hHn : V3.norm ((A.rp * V * sin bb) • w) = (1 - 1 / e) * h := by
    rw [V3.norm_smul, V3.norm_of_dot_one H.ww, mul_one, abs_of_pos (by positivity), hk]
  have hq : 0 < 1 - 1 / e := by rw [one_sub_div (by linarith)]; exact div_pos (by linarith) (by linarith)
  have hwd : V3.dot w d = 0 := by
    have : sin bb * V3.dot w d = V3.dot (V3.cross u d) d := by rw [H.ws, V3.dot_smul_left]
    have h0 : V3.dot (V3.cross u d) d = 0 := by simp only [V3.cross, V3.dot]; ring
    rw [h0] at this
    exact (mul_eq_zero.mp this).resolve_left hsb.ne'
  have hBn : V3.norm (V3.cross A.vInfBi ((A.rp * V * sin bb) • w)) = (1 - 1 / e) * A.vInfMag ^ 2 * B := by
    have hdw : V3.dot (V3.cross d w) (V3.cross d w) = 1 := by
      have : V3.dot (V3.cross d w) (V3.cross d w) = V3.dot d d * V3.dot w w - V3.dot w d ^ 2 := by
        simp only [V3.cross, V3.dot]; ring
      rw [this, H.dd, H.ww, hwd]; norm_num
    rw [H.hvd, V3.cross_smul_left, V3.cross_smul_right, V3.norm_smul, V3.norm_smul, V3.norm_of_dot_one hdw, mul_one,
      abs_of_pos hVp, abs_of_pos (by positivity), hk, hBV, ← H.hV]
    ring
  refine ⟨e, h, B, _, _, e1, e2, hB, H.hhv, ?_, he1, hh, hHn, ?_, hBn, ?_⟩
  · unfold Approach.bVec; rw [H.hhv]; rfl
  · rw [hHn]
    have : 0 < 1 / e := by positivity
    nlinarith
  · rw [hBn]
    exact ⟨fun h0 => mul_right_cancel₀ hB0.ne' (by rw [h0, one_mul]), fun h0 => by rw [h0, one_mul]⟩

/-- **C129** (finding).  Full claim: `beta` is the true anomaly of the outgoing asymptote.  At the true anomaly `beta` the
spacecraft is at the finite distance `(1 + e)/2 · rp`; the positions recede without bound as the anomaly tends to `π - beta`. -/
theorem C129_asymptote (name : String) (v : V3) (rp psi : ℝ) (b : Bool) (hEI : Option ℝ) (A : Approach) (Hv : V3)
    (hA : Approach.init name v rp psi b hEI = .ok A) (hv : v ≠ 0) (hrp : 0 < rp) (hH : A.hVec = some Hv)
    (hne : Hv.x ≠ 0 ∨ Hv.y ≠ 0) :
    ∃ (e beta : ℝ) (R : ℝ → V3), A.e = some e ∧ A.beta = some beta ∧ 0 < beta ∧ beta < π - beta ∧
      (∀ t, 0 ≤ t → t < π - beta → A.posVec t = some (R t)) ∧ V3.norm (R beta) = (1 + e) / 2 * rp ∧
      Filter.Tendsto (fun t => V3.norm (R t)) (nhdsWithin (π - beta) (Set.Iio (π - beta))) Filter.atTop := by
  obtain ⟨V, e, bb, h, d, u, w, H, hn, hHw⟩ := approach_facts hA hv hrp hH hne
  obtain ⟨P, hP, hAP, rfl, rfl, rfl, -⟩ := approach_init_inv hA
  have hg := H.gm; have hh := H.hpos; have he := H.e1; have hb0 := H.b0; have hbp := H.bpi
  have hc0 : 1 + e * cos (π - bb) = 0 := by rw [cos_pi_sub, H.cb]; field_simp; ring
  have hpos : ∀ t, 0 ≤ t → t < π - bb → 0 < 1 + e * cos t := by
    intro t t0 t1
    have : cos (π - bb) < cos t := cos_lt_cos_of_nonneg_of_le_pi t0 (by linarith) t1
    nlinarith [mul_lt_mul_of_pos_left this (by linarith : 0 < e)]
  refine ⟨e, bb, cPos (h ^ 2 / A.P.GM) e u (V3.cross w u), H.he, H.hb, hb0, by linarith,
    fun t t0 t1 => Core.pos_eq H hn (hpos t t0 t1), ?_, ?_⟩
  · rw [(Core.laws H (hpos bb hb0.le (by linarith))).1, H.cb, H.hsq]
    field_simp; ring
  · have h1 : Filter.Tendsto (fun t => 1 + e * cos t) (nhdsWithin (π - bb) (Set.Iio (π - bb)))
        (nhdsWithin 0 (Set.Ioi 0)) := by
      rw [tendsto_nhdsWithin_iff]
      constructor
      · have : Continuous fun t => 1 + e * cos t := by fun_prop
        have h2 := this.tendsto (π - bb)
        rw [hc0] at h2
        exact h2.mono_left nhdsWithin_le_nhds
      · filter_upwards [Ioo_mem_nhdsLT (show (0:ℝ) < π - bb by linarith)] with t ht
        exact hpos t ht.1.le ht.2
    have h2 := (tendsto_inv_nhdsGT_zero.comp h1).const_mul_atTop (show 0 < h ^ 2 / A.P.GM by positivity)
    refine h2.congr' ?_
    filter_upwards [Ioo_mem_nhdsLT (show (0:ℝ) < π - bb by linarith)] with t ht
    rw [(Core.laws H (hpos t ht.1.le ht.2)).1]
    simp [div_eq_mul_inv]

/-- A case of both: the arrival at Earth at 10 km/s. -/
example : ∃ A h Hv beta R, Approach.init "EARTH" ⟨0, 10, 0⟩ 6371e3 0 true (some 120e3) = .ok A ∧ A.h = some h ∧
    A.hVec = some Hv ∧ V3.norm Hv < h ∧ A.beta = some beta ∧ A.posVec beta = some R := by
  obtain ⟨A, Hv, hA, hv, hH, hne, -⟩ := demo_arrival
  obtain ⟨e, h, B, Hv', Bv, -, h2, -, h4, -, -, -, -, h5, -⟩ := C129_vector_lengths _ _ _ _ _ _ A hA hv (by norm_num)
  obtain ⟨e', beta, R, -, g1, g2, g3, g4, -⟩ := C129_asymptote _ _ _ _ _ _ A Hv hA hv (by norm_num) hH hne
  exact ⟨A, h, Hv', beta, R beta, hA, h2, h4, h5, g1, g4 beta g2.le g3⟩

end AMAT.Props
