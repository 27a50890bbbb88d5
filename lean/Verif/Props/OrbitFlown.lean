import Verif.Props.OrbitTrim
import Verif.Props.OrbitArrays
import Verif.Lemmas.ConicTime

/-
Property C148: a vehicle that flies freely after its exit passes through the stored positions of the coast and, after the
periapsis raise, of the orbit, in their order.
-/

noncomputable section

open Real

namespace AMAT.Props

open Real AMAT AMAT.Spec AMAT.Lits

theorem cross_cross_unit {u w : V3} (hw : V3.dot w w = 1) (huw : V3.dot u w = 0) : V3.cross w (V3.cross w u) = (-1 : ℝ) • u := by
  have : V3.cross w (V3.cross w u) = V3.dot u w • w - V3.dot w w • u := by
    ext <;> simp only [V3.cross, V3.dot, V3.sub_x, V3.sub_y, V3.sub_z, V3.smul_x, V3.smul_y, V3.smul_z] <;> ring
  rw [this, hw, huw]
  ext <;> simp

/-- The velocity of a state whose position is at the anomaly `t`. -/
theorem vel_of_core {P : Planet} {R U : V3} {el : Elements} {u w : V3} (S : StateCore P R U el u w) {t : ℝ}
    (ht : cPos (el.h ^ 2 / P.GM) el.e u (V3.cross w u) t = R) : cVel (P.GM / el.h) el.e u (V3.cross w u) t = U := by
  have K := S.ok
  have hh := K.hpos
  have hg := K.gm
  have hr := S.r0
  have hUw : V3.dot U w = 0 := by
    have h1 : V3.dot U (V3.cross R U) = 0 := by simp only [V3.dot, V3.cross]; ring
    rw [S.hw, V3.dot_smul_right] at h1
    rcases mul_eq_zero.mp h1 with h | h
    · exact absurd h hh.ne'
    · exact h
  have hn : V3.norm R = el.h ^ 2 / P.GM / (1 + el.e * cos t) := by
    rw [← ht]; exact cPos_norm K.uu K.ww K.uw K.e0 K.e1 K.apos (ellipse_shape K) t
  have hdir : (1 / V3.norm R) • R = cos t • u + sin t • V3.cross w u := by
    have hpos : 0 < el.h ^ 2 / P.GM / (1 + el.e * cos t) := hn ▸ hr
    rw [hn]
    conv_lhs => rw [← ht]
    unfold cPos
    rw [V3.smul_smul, one_div_mul_cancel hpos.ne']
    ext <;> simp
  -- the eccentricity vector, multiplied with the normal
  have he := S.he
  unfold eccVec at he
  rw [S.hw, hdir] at he
  have h1 : (1 / P.GM) • V3.cross U (el.h • w) = el.e • u + (cos t • u + sin t • V3.cross w u) := by
    rw [← he]; ext <;> simp
  have h2 : V3.cross w ((1 / P.GM) • V3.cross U (el.h • w)) = (el.h / P.GM) • U := by
    have e1 : V3.cross w ((1 / P.GM) • V3.cross U (el.h • w)) = (el.h / P.GM) • (V3.dot w w • U - V3.dot U w • w) := by
      ext <;> simp only [V3.cross, V3.dot, V3.sub_x, V3.sub_y, V3.sub_z, V3.smul_x, V3.smul_y, V3.smul_z] <;> ring
    rw [e1, K.ww, hUw]; ext <;> simp
  have h3 : V3.cross w (el.e • u + (cos t • u + sin t • V3.cross w u)) =
      (el.e + cos t) • V3.cross w u + sin t • V3.cross w (V3.cross w u) := by
    ext <;> simp only [V3.cross, V3.add_x, V3.add_y, V3.add_z, V3.smul_x, V3.smul_y, V3.smul_z] <;> ring
  rw [h1, h3, cross_cross_unit K.ww K.uw] at h2
  have h4 : U = (P.GM / el.h) • ((el.h / P.GM) • U) := by
    rw [V3.smul_smul, show P.GM / el.h * (el.h / P.GM) = 1 by field_simp]; ext <;> simp
  rw [h4, ← h2]
  unfold cVel
  ext <;> simp only [V3.add_x, V3.add_y, V3.add_z, V3.smul_x, V3.smul_y, V3.smul_z] <;> ring

/-- Position and velocity at the apoapsis of an ellipse. -/
theorem ellipse_apse {GM : ℝ} {el : Elements} {u w : V3} (K : EllipseOK GM el u w) :
    cPos (el.h ^ 2 / GM) el.e u (V3.cross w u) π = (-(el.a * (1 + el.e))) • u ∧
    cVel (GM / el.h) el.e u (V3.cross w u) π =
      (-visViva GM (el.a * (1 + el.e)) (el.a * (1 - el.e)) (el.a * (1 + el.e))) • V3.cross w u ∧
    IsApse GM (el.a * (1 + el.e)) (el.a * (1 - el.e)) (cPos (el.h ^ 2 / GM) el.e u (V3.cross w u) π)
      (cVel (GM / el.h) el.e u (V3.cross w u) π) := by
  obtain ⟨p1, p2, -⟩ := ellipse_apo K
  have hpos : cPos (el.h ^ 2 / GM) el.e u (V3.cross w u) π = (-(el.a * (1 + el.e))) • u := by
    rw [K.pos] at p1; exact Option.some.inj p1
  have hem : 0 < 1 - el.e := by linarith [K.e1]
  have hv : visViva GM (el.a * (1 + el.e)) (el.a * (1 - el.e)) (el.a * (1 + el.e)) = GM / el.h * (1 - el.e) := by
    rw [← spd_apo K, EllipseOK.spd, K.spd_sq, sin_pi, cos_pi]
    have := K.gm
    have := K.hpos
    rw [show (GM / el.h * el.e * 0) ^ 2 + (GM / el.h * (1 + el.e * -1)) ^ 2 = (GM / el.h * (1 - el.e)) ^ 2 by ring]
    exact sqrt_sq (by positivity)
  have hvel : cVel (GM / el.h) el.e u (V3.cross w u) π =
      (-visViva GM (el.a * (1 + el.e)) (el.a * (1 - el.e)) (el.a * (1 + el.e))) • V3.cross w u := by
    rw [hv]
    unfold cVel
    rw [sin_pi, cos_pi]
    ext <;> simp only [V3.add_x, V3.add_y, V3.add_z, V3.smul_x, V3.smul_y, V3.smul_z] <;> ring
  obtain ⟨c2, c1⟩ := cross_unit K.uu K.ww K.uw
  refine ⟨hpos, hvel, ?_, ?_, ?_⟩
  · rw [hpos, V3.norm_smul, V3.norm_of_dot_one K.uu, abs_neg, abs_of_pos p2, mul_one]
  · rw [hpos, hvel, V3.dot_smul_left, V3.dot_smul_right, c1]; simp
  · rw [hvel, V3.norm_smul, V3.norm_of_dot_one c2, abs_neg,
      abs_of_nonneg (show 0 ≤ visViva GM (el.a * (1 + el.e)) (el.a * (1 - el.e)) (el.a * (1 + el.e)) from sqrt_nonneg _), mul_one]

/-- The time from apoapsis to apoapsis is the period. -/
theorem anomalyTime_period {GM : ℝ} {el : Elements} {u w : V3} (K : EllipseOK GM el u w) :
    anomalyTime (el.h ^ 2 / GM) el.e el.h π (3 * π) = 2 * halfPeriod GM (el.a * (1 + el.e)) (el.a * (1 - el.e)) := by
  have hg := K.gm
  have hh := K.hpos
  have hp : 0 < el.h ^ 2 / GM := by positivity
  have hem : 0 < 1 - el.e := by linarith [K.e1]
  have hep : 0 < 1 + el.e := by linarith [K.e0]
  have hA := mul_pos K.apos hep
  have hB := mul_pos K.apos hem
  obtain ⟨a1, a2, a3⟩ := ellipse_apse K
  obtain ⟨⟨R, U, m1, m2, m3⟩, hc⟩ := conic_clock (e := el.e) hg hh K.e0 K.e1 K.uu K.ww K.uw π
  obtain ⟨-, hap⟩ := apse_motion hg hA hB a3
  obtain ⟨-, -, b1, -, b2⟩ := hap R U m1 m2 m3
  have hcl := hc R U m1 m2 m3
  set T := anomalyTime (el.h ^ 2 / GM) el.e el.h π with hT
  have hmono : StrictMono T := anomalyTime_mono hp K.e0 K.e1 hh π
  have hT0 : T π = 0 := anomalyTime_start _ _ _ _
  have hpi := pi_pos
  have hpos3 : 0 < T (3 * π) := by rw [← hT0]; exact hmono (by linarith)
  apply le_antisymm
  · by_contra hcon
    obtain ⟨x, hx⟩ := anomalyTime_surj hp K.e0 K.e1 hh π (2 * halfPeriod GM (el.a * (1 + el.e)) (el.a * (1 - el.e)))
    have hx' : T x = 2 * halfPeriod GM (el.a * (1 + el.e)) (el.a * (1 - el.e)) := hx
    have x1 : x < 3 * π := by rw [← hmono.lt_iff_lt, hx']; exact not_le.mp hcon
    have x0 : π < x := by
      rw [← hmono.lt_iff_lt, hx', hT0]
      unfold halfPeriod
      have : 0 < √(((el.a * (1 + el.e) + el.a * (1 - el.e)) / 2) ^ 3 / GM) := sqrt_pos.mpr (by positivity)
      positivity
    rw [← hx', (hcl x).1, a1] at b1
    have hdir : V3.dot (cos x • u + sin x • V3.cross w u) u = cos x := by
      obtain ⟨c2, c1⟩ := cross_unit K.uu K.ww K.uw
      have : V3.dot (cos x • u + sin x • V3.cross w u) u = cos x * V3.dot u u + sin x * V3.dot u (V3.cross w u) := by
        simp only [V3.dot, V3.add_x, V3.add_y, V3.add_z, V3.smul_x, V3.smul_y, V3.smul_z]; ring
      rw [this, K.uu, c1]; ring
    have e1 := congrArg (fun v => V3.dot v u) b1
    have e2 := congrArg V3.norm b1
    rw [cPos_norm K.uu K.ww K.uw K.e0 K.e1 K.apos (ellipse_shape K), V3.norm_smul, V3.norm_of_dot_one K.uu, abs_neg,
      abs_of_pos hA, mul_one] at e2
    simp only [cPos, V3.dot_smul_left, hdir, K.uu, mul_one] at e1
    rw [e2] at e1
    have hcos : cos (x - π) = 1 := by
      have : el.a * (1 + el.e) * (cos x + 1) = 0 := by linarith
      rcases mul_eq_zero.mp this with h | h
      · exact absurd h hA.ne'
      · rw [cos_sub_pi]; linarith
    have := (cos_eq_one_iff_of_lt_of_lt (by linarith) (by linarith)).mp hcos
    linarith
  · by_contra hcon
    refine b2 _ hpos3 (not_le.mp hcon) ?_
    rw [(hcl _).1]
    unfold cPos
    rw [show 3 * π = π + 2 * π by ring, cos_add_two_pi, sin_add_two_pi]

set_option maxHeartbeats 800000 in
/-- C148: there is a free motion from the exit state, and every such motion of a vehicle that is not descending passes through
the stored positions of the coast, in their order, and ends them at the apoapsis.  After an impulse there of the
size reported for the manoeuvre, along the velocity to raise the periapsis (`sg = 1`) and against it to lower it (`sg = -1`),
there is one again, and every one passes through the stored positions of the orbit, in
their order, and is at the last one after one period.

Partial: circular and equatorial exits, for which the Orbiter stores nothing (`C54_degenerate_fails`), are excluded. -/
theorem C148_stored_positions_partial (name : String) (O : Orbiter) (hP : Planet.init name = .ok O.P) (hr : 0 < O.s.r) (R0 U0 : V3)
    (hR : R0 = pos O.s.r O.s.theta O.s.phi) (hU : U0 = vel O.s.theta O.s.phi O.s.v O.s.psi O.s.g + V3.cross (spin O.P.OMEGA) R0)
    (hE : energy O.P.GM R0 U0 < 0) (hne : (V3.cross R0 U0).x ≠ 0 ∨ (V3.cross R0 U0).y ≠ 0) (hecc : eccVec O.P.GM R0 U0 ≠ 0)
    (hc : 0 ≤ V3.dot R0 U0) (hq : 0 < O.P.RP + O.periAltKm * 1000)
    (sg : ℝ) (hsg : ∀ B, O.s.periapsisAltitudeKm O.P = some B → sg = if B ≤ O.periAltKm then 1 else -1) (n m : ℕ) (hn : 2 ≤ n) (hm : 2 ≤ m) :
    ∃ coast orb dV ra, O.coastArr n = some coast ∧ O.orbitTraj m = some orb ∧ O.prmDvMag = some dV ∧ O.rApoapsisMag = some ra ∧
      (∃ R U, StartsAt O.P.GM R0 U0 R U) ∧ ∀ R U, StartsAt O.P.GM R0 U0 R U →
      ∃ τ : ℕ → ℝ, τ 0 = 0 ∧ Monotone τ ∧ (V3.norm R0 < ra → StrictMono τ) ∧ (∀ i < n, At O.P.RP coast i (R (τ i))) ∧
        V3.norm (R (τ (n - 1))) = ra ∧ V3.dot (R (τ (n - 1))) (U (τ (n - 1))) = 0 ∧
        (∃ R1 U1, StartsAt O.P.GM (R (τ (n - 1))) (impulse (sg * dV) (U (τ (n - 1)))) R1 U1) ∧
        ∀ R1 U1, StartsAt O.P.GM (R (τ (n - 1))) (impulse (sg * dV) (U (τ (n - 1)))) R1 U1 →
          ∃ σ : ℕ → ℝ, σ 0 = 0 ∧ StrictMono σ ∧ (∀ j < m, At O.P.RP orb j (R1 (σ j))) ∧
            σ (m - 1) = 2 * halfPeriod O.P.GM ra (O.P.RP + O.periAltKm * 1000) := by
  obtain ⟨_, hRP, hGM, _⟩ := C01_planet_consistent name O.P hP
  obtain ⟨el, u, w, hco, S, hRn⟩ := coast_core hGM hr hR hU hE hne hecc
  have K := S.ok
  obtain ⟨hra, el2, h2, K2, -, a1, a2⟩ := prm_core K hRP hco hq
  obtain ⟨el0, -, ra0, hc0, -, -, -, ⟨t, ht, htr, htp⟩, hra0, hra1, hle, -, -, -, -, -, hdv⟩ :=
    C54_coast_and_raise_partial name O hP hr R0 U0 hR hU hE hne hecc hq
  obtain rfl : el0 = el := Option.some.inj (hc0.symm.trans hco)
  have hon : cPos (el0.h ^ 2 / O.P.GM) el0.e u (V3.cross w u) t = R0 := by
    have := htp hc; rw [K.pos] at this; exact Option.some.inj this
  have hvel := vel_of_core S hon
  obtain ⟨ht0, ht1⟩ := exit_anomaly_range ht
  have hn2 : (2:ℝ) ≤ n := by exact_mod_cast hn
  have hm2 : (2:ℝ) ≤ m := by exact_mod_cast hm
  have hpi := pi_pos
  have hem : 0 < 1 - el0.e := by linarith [K.e1]
  have hep : 0 < 1 + el0.e := by linarith [K.e0]
  have hA := mul_pos K.apos hep
  have hB := mul_pos K.apos hem
  -- the impulse
  have hB' : sg = if el0.a * (1 - el0.e) ≤ O.P.RP + O.periAltKm * 1000 then 1 else -1 := by
    have hs : O.s.elements O.P = some (el0.a, el0.e) := by
      have c1 := hco
      unfold Orbiter.coast elementsOf at c1
      simp only [bind, pure, Option.bind_eq_some_iff] at c1
      obtain ⟨g, hg, a, ha, e, he, h', -, eu, -, o, -, hel⟩ := c1
      obtain rfl := Option.some.inj hel
      unfold Terminal.elements
      simp only [hg, ha, he, bind, Option.bind, pure]
    have := hsg _ (by
      unfold Terminal.periapsisAltitudeKm
      rw [hs]; rfl)
    have l3 : (1.0E3:ℝ) = 1000 := by norm_num
    rw [this, l3, l10]
    refine if_congr ?_ rfl rfl
    rw [div_le_iff₀ (by norm_num)]
    constructor <;> intro h <;> linarith
  set ra := el0.a * (1 + el0.e) with hrad
  set q := O.P.RP + O.periAltKm * 1000 with hqd
  have hvv : ∀ x y, 0 < x → x ≤ y → visViva O.P.GM ra x ra ≤ visViva O.P.GM ra y ra := by
    intro x y hx hxy
    unfold visViva
    apply sqrt_le_sqrt
    apply mul_le_mul_of_nonneg_left _ hGM.le
    have : 2 / (y + ra) ≤ 2 / (x + ra) := div_le_div_of_nonneg_left (by norm_num) (by linarith) (by linarith)
    linarith
  rw [hra1] at hdv
  set dV := |visViva O.P.GM ra q ra - visViva O.P.GM ra (el0.a * (1 - el0.e)) ra| with hdVa
  have hdVd : sg * dV = visViva O.P.GM ra q ra - visViva O.P.GM ra (el0.a * (1 - el0.e)) ra := by
    rw [hB', hdVa]
    split_ifs with hle'
    · have := hvv _ _ hB hle'
      rw [abs_of_nonneg (by linarith), one_mul]
    · have := hvv _ _ hq (not_le.mp hle').le
      rw [abs_of_nonpos (by linarith)]; ring
  obtain ⟨x1, x2, x3⟩ := ellipse_apse K
  obtain ⟨y1, y2, y3⟩ := ellipse_apse K2
  rw [← hrad] at x1 x2 x3
  rw [a1, a2] at y2 y3
  rw [a2] at y1
  have himp : impulse (sg * dV) (cVel (O.P.GM / el0.h) el0.e u (V3.cross w u) π) = cVel (O.P.GM / el2.h) el2.e u (V3.cross w u) π := by
    unfold impulse
    rw [x3.2.2, x2, y2, hdVd]
    have := visViva_apse_pos hGM hA hB
    ext <;> simp only [V3.add_x, V3.add_y, V3.add_z, V3.smul_x, V3.smul_y, V3.smul_z] <;> field_simp <;> ring
  obtain ⟨ex1, cl1⟩ := conic_clock (e := el0.e) hGM K.hpos K.e0 K.e1 K.uu K.ww K.uw t
  obtain ⟨ex2, cl2⟩ := conic_clock (e := el2.e) hGM K2.hpos K2.e0 K2.e1 K2.uu K2.ww K2.uw π
  rw [hon, hvel] at ex1
  have hcoast : O.coastArr n = some (orbitArr O.P (orbitPos O.P.GM el0) t π n) := by
    unfold Orbiter.coastArr; rw [hco, ht]; rfl
  have horb : O.orbitTraj m = some (orbitArr O.P (orbitPos O.P.GM el2) π (3 * π) m) := by
    unfold Orbiter.orbitTraj; rw [h2]; rfl
  have hm1 := anomalyTime_mono (p := el0.h ^ 2 / O.P.GM) (h := el0.h) (div_pos (by have := K.hpos; positivity) hGM) K.e0 K.e1 K.hpos t
  have hm3 := anomalyTime_mono (p := el2.h ^ 2 / O.P.GM) (h := el2.h) (div_pos (by have := K2.hpos; positivity) hGM) K2.e0 K2.e1 K2.hpos π
  refine ⟨_, _, dV, ra, hcoast, horb, hdv, hra, ex1, fun R U h => ?_⟩
  have clock := cl1 R U h.1 (h.2.1.trans hon.symm) (h.2.2.trans hvel.symm)
  set d := (π - t) / ((n : ℝ) - 1) with hd
  have hd0 : 0 ≤ d := div_nonneg (by linarith) (by linarith)
  have hlast : t + ((n - 1 : ℕ) : ℝ) * d = π := by
    have : (n : ℝ) - 1 ≠ 0 := by intro h; linarith
    rw [Nat.cast_sub (by omega), hd, Nat.cast_one, mul_div_cancel₀ _ this]
    ring
  refine ⟨fun i => anomalyTime (el0.h ^ 2 / O.P.GM) el0.e el0.h t (t + (i : ℝ) * d), ?_, ?_, ?_, ?_, ?_⟩
  · simp only [Nat.cast_zero, zero_mul, add_zero]; exact anomalyTime_start _ _ _ _
  · intro i j hij
    apply hm1.monotone
    have : (i : ℝ) ≤ j := by exact_mod_cast hij
    have := mul_le_mul_of_nonneg_right this hd0
    linarith
  · intro hlt i j hij
    apply hm1
    have hij' : (i : ℝ) < j := by exact_mod_cast hij
    have htpi : t < π := by
      refine lt_of_le_of_ne ht1 fun htp => ?_
      rw [htp, x1] at hon
      rw [← hon, V3.norm_smul, V3.norm_of_dot_one K.uu, abs_neg, abs_of_pos hA, mul_one] at hlt
      exact lt_irrefl _ hlt
    have : 0 < d := div_pos (by linarith) (by linarith)
    have := mul_lt_mul_of_pos_right hij' this
    linarith
  · intro i hi
    rw [(clock _).1]
    exact orbitArr_get _ _ _ _ hi (K.pos _)
  · simp only [hlast]
    rw [(clock π).1, (clock π).2, himp]
    rw [← y1.trans x1.symm]
    refine ⟨by rw [y1.trans x1.symm]; exact x3.1, by rw [y1.trans x1.symm]; exact x3.2.1, ex2, fun R1 U1 h1 => ?_⟩
    have clock2 := cl2 R1 U1 h1.1 h1.2.1 h1.2.2
    set d2 := (3 * π - π) / ((m : ℝ) - 1) with hd2
    have hd2p : 0 < d2 := div_pos (by linarith) (by linarith)
    refine ⟨fun j => anomalyTime (el2.h ^ 2 / O.P.GM) el2.e el2.h π (π + (j : ℝ) * d2), ?_, ?_, ?_, ?_⟩
    · simp only [Nat.cast_zero, zero_mul, add_zero]; exact anomalyTime_start _ _ _ _
    · intro i j hij
      apply hm3
      have hij' : (i : ℝ) < j := by exact_mod_cast hij
      have := mul_lt_mul_of_pos_right hij' hd2p
      linarith
    · intro j hj
      rw [(clock2 _).1]
      exact orbitArr_get _ _ _ _ hj (K2.pos _)
    · have hl : π + ((m - 1 : ℕ) : ℝ) * d2 = 3 * π := by
        have : (m : ℝ) - 1 ≠ 0 := by intro h; linarith
        rw [Nat.cast_sub (by omega), hd2, Nat.cast_one, mul_div_cancel₀ _ this]
        ring
      simp only [hl]
      rw [anomalyTime_period K2, a1, a2]

/-- Case for `C148_stored_positions_partial`: the exit at Mars with a periapsis raised to 400 km altitude. -/
example : ∃ (O : Orbiter) (coast orb : List (Option V3)) (dV t T : ℝ) (R U R1 U1 : ℝ → V3), Planet.init "MARS" = .ok O.P ∧
    O.coastArr 301 = some coast ∧ O.orbitTraj 601 = some orb ∧ O.prmDvMag = some dV ∧ CoastsFrom O.P O.s R U ∧
    At O.P.RP coast 300 (R t) ∧ StartsAt O.P.GM (R t) (impulse dV (U t)) R1 U1 ∧ At O.P.RP orb 600 (R1 T) ∧ 0 < T := by
  obtain ⟨O, hP, hr, hq, hpk, h⟩ := mars_exit 400 (by norm_num)
  obtain ⟨hE, hy, hecc, hout, hR, -⟩ := h _ _ rfl rfl
  obtain ⟨_, hRP, hGM, _⟩ := C01_planet_consistent "MARS" O.P hP
  have hRPv : O.P.RP = 3389500 := by
    have key : ∀ P, Planet.init "MARS" = .ok P → P.RP = 3389.5e3 := by
      intro P h; simp [Planet.init] at h; subst h; norm_num [Planet.withScales]
    rw [key O.P hP]; norm_num
  have hU0 : vel O.s.theta O.s.phi O.s.v O.s.psi O.s.g + V3.cross (spin O.P.OMEGA) (pos O.s.r O.s.theta O.s.phi) ≠ 0 := by
    intro h0; rw [h0] at hy; exact hy (by simp [V3.cross])
  have hrv : V3.norm (pos O.s.r O.s.theta O.s.phi) = 3509500 := by
    rw [hR]; exact V3.norm_eq_of_sq (by norm_num) (by simp only [V3.dot]; norm_num)
  have hraise : ∀ B, O.s.periapsisAltitudeKm O.P = some B → B ≤ O.periAltKm := by
    intro B hB
    obtain ⟨A, B', -, hB', hBr, -⟩ := C28_apsides "MARS" O.P hP O.s hr _ _ rfl rfl hU0 hE
    obtain rfl := Option.some.inj (hB.symm.trans hB')
    rw [norm_pos_r hr] at hrv
    rw [hrv] at hBr
    rw [hpk]
    linarith
  obtain ⟨coast, orb, dV, ra, c1, c2, c3, -, ⟨R, U, m1⟩, k⟩ :=
    C148_stored_positions_partial "MARS" O hP hr _ _ rfl rfl hE (Or.inr hy) hecc hout hq 1
      (fun B hB => (if_pos (hraise B hB)).symm) 301 601 (by norm_num) (by norm_num)
  simp only [one_mul] at k
  obtain ⟨τ, -, -, -, k1, -, -, ⟨R1, U1, m2⟩, k2⟩ := k R U m1
  obtain ⟨σ, s0, s1, s2, -⟩ := k2 R1 U1 m2
  exact ⟨O, coast, orb, dV, τ 300, σ 600, R, U, R1, U1, hP, c1, c2, c3, m1, k1 300 (by norm_num), m2, s2 600 (by norm_num),
    by rw [← s0]; exact s1 (by norm_num)⟩

/-- C148 (finding): for a vehicle that is descending at the end of its flight the stored coast does not start where the vehicle
is but at another point of the orbit at the same distance, as if the vehicle were climbing. -/
theorem C148_descending_elsewhere (name : String) (O : Orbiter) (hP : Planet.init name = .ok O.P) (hr : 0 < O.s.r) (R0 U0 : V3)
    (hR : R0 = pos O.s.r O.s.theta O.s.phi) (hU : U0 = vel O.s.theta O.s.phi O.s.v O.s.psi O.s.g + V3.cross (spin O.P.OMEGA) R0)
    (hE : energy O.P.GM R0 U0 < 0) (hne : (V3.cross R0 U0).x ≠ 0 ∨ (V3.cross R0 U0).y ≠ 0) (hecc : eccVec O.P.GM R0 U0 ≠ 0)
    (hc : V3.dot R0 U0 < 0) (hq : 0 < O.P.RP + O.periAltKm * 1000) (n : ℕ) (hn : 1 ≤ n) :
    ∃ coast X, O.coastArr n = some coast ∧ At O.P.RP coast 0 X ∧ X ≠ R0 ∧ V3.norm X = V3.norm R0 := by
  obtain ⟨_, hRP, hGM, _⟩ := C01_planet_consistent name O.P hP
  obtain ⟨el, u, w, hco, S, hRn⟩ := coast_core hGM hr hR hU hE hne hecc
  have K := S.ok
  obtain ⟨el0, -, ra0, hc0, -, -, -, ⟨t, ht, htr, -⟩, -⟩ := C54_coast_and_raise_partial name O hP hr R0 U0 hR hU hE hne hecc hq
  obtain rfl : el0 = el := Option.some.inj (hc0.symm.trans hco)
  obtain ⟨ht0, ht1⟩ := exit_anomaly_range ht
  have hcoast : O.coastArr n = some (orbitArr O.P (orbitPos O.P.GM el0) t π n) := by
    unfold Orbiter.coastArr; rw [hco, ht]; rfl
  refine ⟨_, cPos (el0.h ^ 2 / O.P.GM) el0.e u (V3.cross w u) t, hcoast, orbitArr_get _ _ _ _ hn ?_, fun hon => ?_, ?_⟩
  · rw [Nat.cast_zero, zero_mul, add_zero]; exact K.pos t
  · have hvel := vel_of_core S hon
    obtain ⟨-, -, -, -, -, b3, -⟩ := conic_state (e := el0.e) (t := t) hGM K.hpos K.uu K.ww K.uw (K.den t) rfl rfl rfl
    rw [cVel_eq] at b3
    change V3.dot (cPos (el0.h ^ 2 / O.P.GM) el0.e u (V3.cross w u) t) _ = _ at b3
    rw [hon, hvel] at b3
    rw [b3] at hc
    have h1 := K.hpos
    have h2 := S.epos
    have h3 := sin_nonneg_of_nonneg_of_le_pi ht0 ht1
    have h4 := K.den t
    have : 0 ≤ el0.h ^ 2 / O.P.GM / (1 + el0.e * cos t) * (O.P.GM / el0.h * el0.e * sin t) := by positivity
    linarith
  · rw [conicRadius, npDiv_some (K.den t).ne'] at htr
    rw [cPos_norm K.uu K.ww K.uw K.e0 K.e1 K.apos (by rw [K.hsq]; field_simp)]
    exact Option.some.inj htr

/-- Case for `C148_descending_elsewhere`: a vehicle 120 km above Mars that descends at 30 degrees, northbound at 4 km/s. -/
theorem C148_descending_case : ∃ (O : Orbiter) (R0 U0 : V3), Planet.init "MARS" = .ok O.P ∧ 0 < O.s.r ∧
    R0 = pos O.s.r O.s.theta O.s.phi ∧ U0 = vel O.s.theta O.s.phi O.s.v O.s.psi O.s.g + V3.cross (spin O.P.OMEGA) R0 ∧
    energy O.P.GM R0 U0 < 0 ∧ (V3.cross R0 U0).y ≠ 0 ∧ eccVec O.P.GM R0 U0 ≠ 0 ∧ V3.dot R0 U0 < 0 ∧
    0 < O.P.RP + O.periAltKm * 1000 := by
  obtain ⟨P, hP⟩ := (C01_planet_names "MARS").1.mpr (by simp [Spec.bodies])
  obtain ⟨_, hRP, hGM, _⟩ := C01_planet_consistent "MARS" P hP
  have hGMv : P.GM = 42828370000000 := by
    have : P.GM = 4.282837e13 := by simp [Planet.init] at hP; subst hP; rfl
    rw [this]; norm_num
  have hOM : P.OMEGA = 7088253 / 100000000000 := by
    have : P.OMEGA = 7.088253e-5 := by simp [Planet.init] at hP; subst hP; rfl
    rw [this]; norm_num
  have hR' : pos 3509500 0 0 = ⟨3509500, 0, 0⟩ := by ext <;> simp [Spec.pos, Spec.up]
  have hU' : vel 0 0 4000 (π / 2) (-(π / 6)) + V3.cross (spin P.OMEGA) ⟨3509500, 0, 0⟩ =
      ⟨-2000, P.OMEGA * 3509500, 2000 * √3⟩ := by
    ext
    · simp [vel, along, up, horiz, east, north, spin, V3.cross]; norm_num
    · simp [vel, along, up, horiz, east, north, spin, V3.cross]
    · simp [vel, along, up, horiz, east, north, spin, V3.cross]; ring
  have h3 : √3 ^ 2 = 3 := sq_sqrt (by norm_num)
  have h30 : 0 < √3 := by positivity
  have hn : V3.norm (⟨3509500, 0, 0⟩ : V3) = 3509500 := V3.norm_eq_of_sq (by norm_num) (by simp only [V3.dot]; norm_num)
  have hd : V3.dot ⟨3509500, 0, 0⟩ ⟨-2000, P.OMEGA * 3509500, 2000 * √3⟩ = -7019000000 := by simp only [V3.dot]; norm_num
  have hy : (V3.cross ⟨3509500, 0, 0⟩ ⟨-2000, P.OMEGA * 3509500, 2000 * √3⟩).y ≠ 0 := by
    simp only [V3.cross]
    intro h
    nlinarith
  have hc : V3.cross ⟨3509500, 0, 0⟩ ⟨-2000, P.OMEGA * 3509500, 2000 * √3⟩ ≠ 0 := by
    intro h; rw [h] at hy; exact hy rfl
  refine ⟨⟨P, ⟨3509500, 4000, -(π / 6), 0, 0, π / 2⟩, 400⟩, _, _, hP, by norm_num, rfl, rfl, ?_⟩
  simp only
  rw [hR', hU']
  refine ⟨?_, hy, ecc_ne_zero hGM hc (by rw [hd]; norm_num), by rw [hd]; norm_num, by linarith⟩
  rw [energy, V3.norm_sq, hn, hGMv, hOM]
  have : V3.dot ⟨-2000, 7088253 / 100000000000 * 3509500, 2000 * √3⟩ ⟨-2000, 7088253 / 100000000000 * 3509500, 2000 * √3⟩ =
      4000000 + (7088253 / 100000000000 * 3509500) ^ 2 + 4000000 * √3 ^ 2 := by simp only [V3.dot]; ring
  rw [this, h3]
  norm_num

end AMAT.Props
