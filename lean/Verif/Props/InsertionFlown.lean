import Verif.Props.OrbitFlown
import Verif.Props.ArrivalFlown
import Verif.Props.TimedOrbit
import Mathlib.MeasureTheory.Integral.IntervalIntegral.Periodic

/-
Property C150: after the insertion burn at the periapsis of the approach the spacecraft flies through the stored positions of
the capture orbit, and through the timed ones at their times.
-/

noncomputable section

open Real

namespace AMAT.Props

open Real AMAT AMAT.Spec AMAT.Lits

/-- Position and velocity at the periapsis of an ellipse. -/
theorem ellipse_peri {GM : ℝ} {el : Elements} {u w : V3} (K : EllipseOK GM el u w) :
    cPos (el.h ^ 2 / GM) el.e u (V3.cross w u) 0 = (el.a * (1 - el.e)) • u ∧
    cVel (GM / el.h) el.e u (V3.cross w u) 0 =
      visViva GM (el.a * (1 - el.e)) (el.a * (1 - el.e)) (el.a * (1 + el.e)) • V3.cross w u := by
  have hg := K.gm; have hh := K.hpos; have ha := K.apos
  have hem : 0 < 1 - el.e := by linarith [K.e1]
  have hep : 0 < 1 + el.e := by linarith [K.e0]
  constructor
  · unfold cPos
    rw [cos_zero, sin_zero, ellipse_shape K, mul_one,
      show el.a * (1 - el.e ^ 2) / (1 + el.e) = el.a * (1 - el.e) by field_simp; ring]
    ext <;> simp
  · have hv : visViva GM (el.a * (1 - el.e)) (el.a * (1 - el.e)) (el.a * (1 + el.e)) = GM / el.h * (1 + el.e) := by
      unfold visViva
      rw [show GM * (2 / (el.a * (1 - el.e)) - 2 / (el.a * (1 - el.e) + el.a * (1 + el.e))) = (GM / el.h * (1 + el.e)) ^ 2 by
        rw [mul_pow, div_pow, K.hsq, show el.a * (1 - el.e) + el.a * (1 + el.e) = 2 * el.a by ring,
          show 1 - el.e ^ 2 = (1 - el.e) * (1 + el.e) by ring]
        field_simp
        ring]
      exact sqrt_sq (by positivity)
    rw [hv]
    unfold cVel
    rw [cos_zero, sin_zero]
    ext <;> simp only [V3.add_x, V3.add_y, V3.add_z, V3.smul_x, V3.smul_y, V3.smul_z] <;> ring

/-- The time once around does not depend on where it starts. -/
theorem anomalyTime_turn (p h : ℝ) {e : ℝ} : anomalyTime p e h 0 (2 * π) = anomalyTime p e h π (3 * π) := by
  have hper : Function.Periodic (anomalyRate p e h) (2 * π) := fun x => by unfold anomalyRate; rw [cos_add_two_pi]
  have := hper.intervalIntegral_add_eq 0 π
  unfold anomalyTime
  rw [zero_add] at this
  rw [this, show π + 2 * π = 3 * π by ring]

/-- C150: there is a free motion from the periapsis of the approach with the computed arrival velocity, reduced by
`DV_OI_mag_check` along the direction of flight.  Every such motion stays between the periapsis and the requested apoapsis, is
at the apoapsis after half a period, passes through the stored positions of the orbit in their order, reaches the last after one
period, and is at the timed positions at their times (for an exact solver of Kepler's equation).

Partial: approaches in the equatorial plane are excluded (`C49_equatorial_fails`), and the burn is the one of the attribute
`DV_OI_mag_check`; the reported `DV_OI_mag` is larger (`C53_burn_vector_too_long`). -/
theorem C150_insertion_flown_partial (name : String) (v : V3) (rp psi apo : ℝ) (hEI : Option ℝ) (A : Approach) (Hv : V3)
    (hA : Approach.init name v rp psi false hEI = .ok A) (hv : v ≠ 0) (hrp : 0 < rp) (hH : A.hVec = some Hv)
    (hne : Hv.x ≠ 0 ∨ Hv.y ≠ 0) (ra : ℝ) (hra : 0 < ra) (hrad : ra = A.P.RP + apo * 1000) (n : ℕ) (hn : 2 ≤ n) :
    ∃ O arr dv Rp Up, PropOrbiter.init A apo = .ok O ∧ O.orbitTraj n = some arr ∧ O.dvMagCheck = some dv ∧ 0 < dv ∧
      A.posVec 0 = some Rp ∧ A.velVec 0 = some Up ∧
      (∃ R U, StartsAt A.P.GM Rp (impulse (-dv) Up) R U) ∧ ∀ R U, StartsAt A.P.GM Rp (impulse (-dv) Up) R U →
        StaysBetween rp ra R ∧ V3.norm (R (halfPeriod A.P.GM rp ra)) = ra ∧
        (∃ σ : ℕ → ℝ, σ 0 = 0 ∧ StrictMono σ ∧ (∀ j < n, At A.P.RP arr j (R (σ j))) ∧
          σ (n - 1) = 2 * halfPeriod A.P.GM rp ra) ∧
        ∀ newton : (ℝ → ℝ) → ℝ → ℝ,
          (∀ e M : ℝ, -1 < e → e < 1 → (fun E => E - e * sin E - M) (newton (fun E => E - e * sin E - M) M) = 0) →
          ∀ (T : ℝ) (m : ℕ), ∃ ts xs, O.timedTraj newton T m = some (ts, xs) ∧ ts.length = m ∧ xs.length = m ∧
            ∀ i < m, ∃ t, ts[i]? = some t ∧ t = i * (T / (m - 1)) ∧ At A.P.RP xs i (R t) := by
  obtain ⟨O, el0, hO, hel0, -, -, -, -, -, hp0, -, dv, hdv, hdvp, hdve⟩ :=
    C53_insertion_partial name v rp psi apo hEI A Hv hA hv hrp hH hne (by rw [← hrad]; exact hra)
  obtain ⟨elt, per, Rt, Ut, q1, -, -, q4, q5, q6, q7, ⟨kk, q8, q9⟩, -, -, q11, -⟩ :=
    C56_timed_orbit_partial name v rp psi apo hEI A Hv hA hv hrp hH hne (by rw [← hrad]; exact hra)
  obtain ⟨V, e, bb, h, d, u, w, H, hnw, hHw⟩ := approach_facts hA hv hrp hH hne
  obtain ⟨P, hP, hAP, rfl, rfl, rfl, -⟩ := approach_init_inv hA
  have hRP : 0 < A.P.RP := by rw [hAP]; exact (C01_planet_consistent name P hP).2.1
  have hOe : O = ⟨A, apo⟩ := by
    unfold PropOrbiter.init at hO
    split at hO
    · exact absurd hO (by simp)
    · exact (Except.ok.inj hO).symm
  subst hOe
  obtain ⟨el, hel, K, k1, k2, k3⟩ := prop_ellipse H hnw hra hrad
  obtain rfl : el0 = el := Option.some.inj (hel0.symm.trans hel)
  obtain rfl : elt = el0 := Option.some.inj (q1.symm.trans hel)
  have hg := H.gm; have hrpp := H.rp; have hpi := pi_pos
  obtain ⟨qq, uq⟩ := cross_unit H.uu H.ww H.uw
  obtain ⟨hvel, hvp⟩ := hyp_periapsis H hnw
  obtain ⟨e1, e2⟩ := ellipse_peri K
  rw [k1, k2] at e2
  rw [k1] at e1
  set s := √(A.vInfMag ^ 2 + 2 * A.P.GM / A.rp) with hs
  set vv := visViva A.P.GM A.rp A.rp ra with hvv
  have hvv0 : vv = visViva A.P.GM A.rp ra A.rp := by rw [hvv]; unfold visViva; rw [add_comm A.rp ra]
  have hvvp : 0 < vv := by rw [hvv0]; exact visViva_apse_pos hg hrpp hra
  rw [← hrad, ← hvv] at hdve
  have hpos0 : A.posVec 0 = some (A.rp • u) := by rw [← hp0, K.pos, e1]
  have himp : impulse (-dv) (s • V3.cross w u) = vv • V3.cross w u := by
    unfold impulse
    rw [V3.norm_smul, V3.norm_of_dot_one qq, abs_of_pos hvp, mul_one, V3.smul_smul, hdve]
    have : -(s - vv) / s * s = -(s - vv) := by field_simp
    rw [this]
    ext <;> simp only [V3.add_x, V3.add_y, V3.add_z, V3.smul_x, V3.smul_y, V3.smul_z] <;> ring
  have hap : IsApse A.P.GM A.rp ra (A.rp • u) (vv • V3.cross w u) := by
    refine ⟨?_, ?_, ?_⟩
    · rw [V3.norm_smul, V3.norm_of_dot_one H.uu, abs_of_pos hrpp, mul_one]
    · rw [V3.dot_smul_left, V3.dot_smul_right, uq]; ring
    · rw [V3.norm_smul, V3.norm_of_dot_one qq, abs_of_pos hvvp, mul_one, hvv0]
  obtain ⟨ex, hall⟩ := apse_motion hg hrpp hra hap
  obtain ⟨-, cl⟩ := conic_clock (e := elt.e) hg K.hpos K.e0 K.e1 K.uu K.ww K.uw 0
  rw [e1, e2] at cl
  have hn2 : (2:ℝ) ≤ n := by exact_mod_cast hn
  -- the motion behind the timed positions
  have hRt : Rt 0 = A.rp • u := by
    unfold Approach.rpVec at q5
    rw [H.hu] at q5
    exact (Option.some.inj q5).symm
  have hUt : Ut 0 = vv • V3.cross w u := by
    have hk0 : 0 < A.rp * V * sin bb := by have := H.vpos; have := H.sb; positivity
    rw [hHw, V3.smul_smul] at q9
    set c := kk * (A.rp * V * sin bb) with hc
    have hc0 : 0 < c := by positivity
    have id1 : V3.cross (V3.cross (Rt 0) (Ut 0)) (Rt 0) = V3.dot (Rt 0) (Rt 0) • Ut 0 - V3.dot (Rt 0) (Ut 0) • Rt 0 := by
      ext <;> simp only [V3.cross, V3.dot, V3.sub_x, V3.sub_y, V3.sub_z, V3.smul_x, V3.smul_y, V3.smul_z] <;> ring
    have id2 : V3.cross (c • w) (A.rp • u) = (c * A.rp) • V3.cross w u := by
      ext <;> simp only [V3.cross, V3.smul_x, V3.smul_y, V3.smul_z] <;> ring
    rw [q9, q6, hRt, id2, V3.dot_smul_left, V3.dot_smul_right, H.uu] at id1
    have hU : Ut 0 = (c / A.rp) • V3.cross w u := by
      have h2 : (1 / A.rp ^ 2) • ((c * A.rp) • V3.cross w u) = Ut 0 := by
        rw [id1]
        ext <;> simp only [V3.sub_x, V3.sub_y, V3.sub_z, V3.smul_x, V3.smul_y, V3.smul_z] <;> field_simp <;> ring
      rw [← h2, V3.smul_smul]
      congr 1
      field_simp
    have hsq : (c / A.rp) ^ 2 = vv ^ 2 := by
      have hnn : 0 ≤ A.P.GM * (2 / A.rp - 2 / (A.rp + ra)) := by
        by_contra hneg
        have : vv = 0 := by rw [hvv]; unfold visViva; exact sqrt_eq_zero_of_nonpos (not_le.mp hneg).le
        linarith
      have hv2 : vv ^ 2 = A.P.GM * (2 / A.rp - 2 / (A.rp + ra)) := by rw [hvv]; unfold visViva; exact sq_sqrt hnn
      unfold energy at q7
      rw [hU, hRt, V3.norm_smul, V3.norm_smul, V3.norm_of_dot_one qq, V3.norm_of_dot_one H.uu, abs_of_pos hrpp, mul_one, mul_one,
        sq_abs, ← hrad] at q7
      rw [hv2]
      linear_combination 2 * q7
    rw [hU, (pow_left_inj₀ (by positivity) hvvp.le two_ne_zero).mp hsq]
  refine ⟨⟨A, apo⟩, orbitArr A.P (orbitPos A.P.GM elt) 0 (2 * π) n, dv, A.rp • u, s • V3.cross w u, hO, ?_, hdv, hdvp, hpos0, hvel, ?_, ?_⟩
  · unfold PropOrbiter.orbitTraj; rw [hel]; rfl
  · rw [himp]; exact ex
  rw [himp]
  intro R U m
  obtain ⟨b1, b2, -⟩ := hall R U m.1 m.2.1 m.2.2
  have clock := cl R U m.1 m.2.1 m.2.2
  refine ⟨b1, b2.1, ?_, fun newton hN T m' => ?_⟩
  · have hpp : 0 < elt.h ^ 2 / A.P.GM := by have := K.hpos; positivity
    have hmono := anomalyTime_mono hpp K.e0 K.e1 K.hpos 0
    set dd := (2 * π - 0) / ((n : ℝ) - 1) with hdd
    have hddp : 0 < dd := div_pos (by linarith) (by linarith)
    refine ⟨fun j => anomalyTime (elt.h ^ 2 / A.P.GM) elt.e elt.h 0 (0 + (j : ℝ) * dd), ?_, ?_, ?_, ?_⟩
    · simp only [Nat.cast_zero, zero_mul, add_zero]; exact anomalyTime_start _ _ _ _
    · intro i j hij
      apply hmono
      have hij' : (i : ℝ) < j := by exact_mod_cast hij
      have := mul_lt_mul_of_pos_right hij' hddp
      linarith
    · intro j hj
      rw [(clock _).1]
      exact orbitArr_get _ _ _ _ hj (K.pos _)
    · have hl : 0 + ((n - 1 : ℕ) : ℝ) * dd = 2 * π := by
        have : (n : ℝ) - 1 ≠ 0 := by intro h; linarith
        rw [Nat.cast_sub (by omega), hdd, Nat.cast_one, mul_div_cancel₀ _ this]
        ring
      simp only [hl]
      rw [anomalyTime_turn, anomalyTime_period K, k1, k2, halfPeriod_symm]
  · have huni := twoBody_unique m.1 q4 (fun t => lt_of_lt_of_le (lt_min hrpp hra) (b1 t).1) 0 (m.2.1.trans hRt.symm)
      (m.2.2.trans hUt.symm)
    refine ⟨linspace0 T m', (linspace0 T m').map fun t => some ((1 / A.P.RP) • R t), ?_, ?_, ?_, fun i hi => ⟨_, ?_, rfl, ?_⟩⟩
    · unfold PropOrbiter.timedTraj
      rw [hel]
      simp only [bind, Option.bind, pure]
      congr 2
      apply List.map_congr_left
      intro t _
      rw [q11 newton (fun M => hN elt.e M K.e0 K.e1) t, (huni t).1]; rfl
    · simp [linspace0]
    · simp [linspace0]
    · rw [linspace0, List.getElem?_map, List.getElem?_range hi]; rfl
    · unfold At
      rw [List.getElem?_map, linspace0, List.getElem?_map, List.getElem?_range hi]; rfl

/-- Case for `C150_insertion_flown_partial`: capture at Earth from 10 km/s into an orbit with the apoapsis at 35786 km. -/
example : ∃ (A : Approach) (O : PropOrbiter) (arr : List (Option V3)) (dv T : ℝ) (Rp Up : V3) (R U : ℝ → V3),
    Approach.init "EARTH" ⟨0, 10 * 1, 0⟩ 6771e3 0 false none = .ok A ∧ PropOrbiter.init A 35786 = .ok O ∧
    O.orbitTraj 601 = some arr ∧ O.dvMagCheck = some dv ∧ A.posVec 0 = some Rp ∧ A.velVec 0 = some Up ∧
    StartsAt A.P.GM Rp (impulse (-dv) Up) R U ∧ At A.P.RP arr 600 (R T) ∧ 0 < T := by
  obtain ⟨A, Hv, hA, hv, hH, hne, hra⟩ := earth_capture
  obtain ⟨O, arr, dv, Rp, Up, h1, h2, h3, -, h4, h5, ⟨R, U, m⟩, k⟩ :=
    C150_insertion_flown_partial _ _ _ _ 35786 _ A Hv hA hv (by norm_num) hH hne _ hra rfl 601 (by norm_num)
  obtain ⟨-, -, ⟨σ, s0, s1, s2, -⟩, -⟩ := k R U m
  exact ⟨A, O, arr, dv, σ 600, Rp, Up, R, U, hA, h1, h2, h3, h4, h5, m, s2 600 (by norm_num), by rw [← s0]; exact s1 (by norm_num)⟩

end AMAT.Props
