import Verif.Props.ApproachProps
import Verif.Lemmas.TwoBody
import Mathlib.Topology.Order.Basic

/-
Properties C49 and C50: motion on the arrival hyperbola and the inertial entry state.
-/

noncomputable section

open Classical

namespace AMAT.Props

open Real

/-- Everything known about an arrival whose orbit plane is not the equator. -/
theorem approach_facts {name : String} {v : V3} {rp psi : ℝ} {b : Bool} {hEI : Option ℝ} {A : Approach} {Hv : V3}
    (hA : Approach.init name v rp psi b hEI = .ok A) (hv : v ≠ 0) (hrp : 0 < rp) (hH : A.hVec = some Hv)
    (hne : Hv.x ≠ 0 ∨ Hv.y ≠ 0) :
    ∃ V e bb h d u w, ApproachCore A V e bb h d u w ∧ (w.x ≠ 0 ∨ w.y ≠ 0) ∧ Hv = (A.rp * V * sin bb) • w := by
  obtain ⟨P, hP, hAP, rfl, rfl, rfl, -⟩ := approach_init_inv hA
  have hg : 0 < A.P.GM := by rw [hAP]; exact planet_gm_pos hP
  obtain ⟨V, e, bb, h, d, u, w, H⟩ := approach_core A hg hv hrp
  have := H.hhv
  rw [hH] at this
  have hHw : Hv = (A.rp * V * sin bb) • w := Option.some.inj this
  refine ⟨V, e, bb, h, d, u, w, H, ?_, hHw⟩
  rw [hHw] at hne
  rcases hne with h | h
  · left; exact right_ne_zero_of_mul h
  · right; exact right_ne_zero_of_mul h

namespace Core
variable {A : Approach} {V e b h : ℝ} {d u w : V3}

theorem pos_eq (H : ApproachCore A V e b h d u w) (hn : w.x ≠ 0 ∨ w.y ≠ 0) {t : ℝ} (hc : 0 < 1 + e * cos t) :
    A.posVec t = some (cPos (h ^ 2 / A.P.GM) e u (V3.cross w u) t) := H.pos hn hc

theorem vel_eq (H : ApproachCore A V e b h d u w) (hn : w.x ≠ 0 ∨ w.y ≠ 0) {t : ℝ} (ht : sin t ≤ 0)
    (hc : 0 < 1 + e * cos t) : A.velVec t = some (cVel (A.P.GM / h) e u (V3.cross w u) t) := by
  rw [H.vel hn hc, abs_of_nonpos ht, ← cVel_eq]
  congr 3
  ring

/-- The laws at one anomaly. -/
theorem laws (H : ApproachCore A V e b h d u w) {t : ℝ} (hc : 0 < 1 + e * cos t) :
    V3.norm (cPos (h ^ 2 / A.P.GM) e u (V3.cross w u) t) = h ^ 2 / A.P.GM / (1 + e * cos t) ∧
    0 < h ^ 2 / A.P.GM / (1 + e * cos t) ∧
    V3.cross (cPos (h ^ 2 / A.P.GM) e u (V3.cross w u) t) (cVel (A.P.GM / h) e u (V3.cross w u) t) = h • w ∧
    Spec.eccVec A.P.GM (cPos (h ^ 2 / A.P.GM) e u (V3.cross w u) t) (cVel (A.P.GM / h) e u (V3.cross w u) t) = e • u ∧
    V3.dot (cVel (A.P.GM / h) e u (V3.cross w u) t) (cVel (A.P.GM / h) e u (V3.cross w u) t) =
      V ^ 2 + 2 * A.P.GM / (h ^ 2 / A.P.GM / (1 + e * cos t)) ∧
    V3.dot (cPos (h ^ 2 / A.P.GM) e u (V3.cross w u) t) (cVel (A.P.GM / h) e u (V3.cross w u) t) =
      h ^ 2 / A.P.GM / (1 + e * cos t) * (A.P.GM / h * e * sin t) ∧
    V3.dot (cPos (h ^ 2 / A.P.GM) e u (V3.cross w u) t) u = h ^ 2 / A.P.GM / (1 + e * cos t) * cos t := by
  have h1 := conic_state (e := e) (t := t) H.gm H.hpos H.uu H.ww H.uw hc rfl rfl rfl
  dsimp only at h1
  rw [cVel_eq] at h1
  obtain ⟨a1, a2, a3, a4, a5, a6, a7⟩ := h1
  exact ⟨a2, a1, a3, a4, a5.trans (H.speed_sq rfl), a6, a7⟩

theorem frame (H : ApproachCore A V e b h d u w) : d = cos b • u + sin b • V3.cross w u := by
  have e1 : sin b • V3.cross w u = V3.cross (V3.cross u d) u := by rw [H.ws, V3.cross_smul_left]
  have e2 : V3.cross (V3.cross u d) u = V3.dot u u • d - V3.dot u d • u := by
    ext <;> simp only [V3.cross, V3.dot, V3.sub_x, V3.sub_y, V3.sub_z, V3.smul_x, V3.smul_y, V3.smul_z] <;> ring
  rw [e1, e2, H.uu, H.ud]
  ext <;> simp

theorem asym (H : ApproachCore A V e b h d u w) : cVel (A.P.GM / h) e u (V3.cross w u) (-(π - b)) = A.vInfBi := by
  have hg := H.gm; have hh := H.hpos; have he := H.e1; have hs := H.sb; have hV := H.vpos
  have hrpV : A.rp * V ^ 2 = A.P.GM * (e - 1) := by rw [H.heq]; field_simp; ring
  have sc := sin_sq_add_cos_sq b
  have hc : e * cos b = 1 := by rw [H.cb]; field_simp
  have hk : A.P.GM * e * sin b = h * V := by
    have : (A.P.GM * e * sin b) ^ 2 = (h * V) ^ 2 := by
      have e1 : (A.P.GM * e * sin b) ^ 2 = A.P.GM ^ 2 * (e ^ 2 - (e * cos b) ^ 2) := by
        linear_combination (A.P.GM ^ 2 * e ^ 2) * sc
      rw [e1, hc, mul_pow, H.hsq]
      linear_combination (-(A.P.GM * (1 + e))) * hrpV
    exact (pow_left_inj₀ (by positivity) (by positivity) two_ne_zero).mp this
  have k1 : A.P.GM / h * sin b = V * cos b := by
    rw [H.cb, mul_one_div, eq_div_iff (by linarith), div_mul_eq_mul_div, div_mul_eq_mul_div, div_eq_iff hh.ne']
    linear_combination hk
  have k2 : A.P.GM / h * (e - cos b) = V * sin b := by
    rw [div_mul_eq_mul_div, div_eq_iff hh.ne']
    linear_combination sin b * hk - (A.P.GM * e) * sc + (A.P.GM * cos b) * hc
  rw [H.hvd, frame H]
  unfold cVel
  have s1 : sin (-(π - b)) = -sin b := by rw [sin_neg, sin_pi_sub]
  have c1 : cos (-(π - b)) = -cos b := by rw [cos_neg, cos_pi_sub]
  rw [s1, c1]
  ext <;> simp only [V3.add_x, V3.add_y, V3.add_z, V3.smul_x, V3.smul_y, V3.smul_z]
  · linear_combination u.x * k1 + (V3.cross w u).x * k2
  · linear_combination u.y * k1 + (V3.cross w u).y * k2
  · linear_combination u.z * k1 + (V3.cross w u).z * k2

end Core

/-! ### C49 -/

/-- C49 (partial: orbits in the equatorial plane are excluded, see `C49_equatorial_fails`).  On the whole incoming branch
the computed positions and velocities are a solution of the two-body equations: the radius is that of the conic, the
energy is that of the arrival speed, the angular momentum and eccentricity vectors are constant, position zero is the
periapsis vector, the spacecraft approaches, and the velocity tends to the arrival velocity at the incoming asymptote. -/
theorem C49_two_body_partial (name : String) (v : V3) (rp psi : ℝ) (b : Bool) (hEI : Option ℝ) (A : Approach) (Hv : V3)
    (hA : Approach.init name v rp psi b hEI = .ok A) (hv : v ≠ 0) (hrp : 0 < rp) (hH : A.hVec = some Hv)
    (hne : Hv.x ≠ 0 ∨ Hv.y ≠ 0) :
    ∃ (e h : ℝ) (u : V3) (R U : ℝ → V3), A.e = some e ∧ A.h = some h ∧ A.rpUnit = some u ∧ 1 < e ∧ 0 < h ∧
      (∀ t, -π ≤ t → t ≤ 0 → 0 < 1 + e * cos t →
        A.posVec t = some (R t) ∧ A.velVec t = some (U t) ∧
        V3.norm (R t) = h ^ 2 / A.P.GM / (1 + e * cos t) ∧
        V3.dot (R t) u = V3.norm (R t) * cos t ∧
        V3.norm (U t) ^ 2 / 2 - A.P.GM / V3.norm (R t) = A.vInfMag ^ 2 / 2 ∧
        V3.cross (R t) (U t) = (h / V3.norm Hv) • Hv ∧
        Spec.eccVec A.P.GM (R t) (U t) = e • u ∧
        V3.dot (R t) (U t) ≤ 0 ∧
        Spec.TwoBodyAt A.P.GM h R U t) ∧
      A.posVec 0 = A.rpVec ∧
      (∀ beta, A.beta = some beta → (∀ t, -(π - beta) < t → t ≤ 0 → 0 < 1 + e * cos t) ∧
        Filter.Tendsto (fun t => V3.norm (U t - A.vInfBi)) (nhdsWithin (-(π - beta)) (Set.Ioi (-(π - beta)))) (nhds 0)) := by
  obtain ⟨V, e, bb, h, d, u, w, H, hn, hHw⟩ := approach_facts hA hv hrp hH hne
  have hg := H.gm; have hh := H.hpos; have he := H.e1
  have hk : 0 < A.rp * V * sin bb := by have := H.rp; have := H.vpos; have := H.sb; positivity
  have hHn : (h / V3.norm Hv) • Hv = h • w := by
    rw [hHw, V3.norm_smul, V3.norm_of_dot_one H.ww, abs_of_pos hk, mul_one, V3.smul_smul]
    congr 1; rw [div_mul_cancel₀ _ hk.ne']
  refine ⟨e, h, u, cPos (h ^ 2 / A.P.GM) e u (V3.cross w u), cVel (A.P.GM / h) e u (V3.cross w u), H.he, H.hh, H.hu, he, hh,
    ?_, ?_, ?_⟩
  · intro t ht1 ht2 hc
    have hs : sin t ≤ 0 := sin_nonpos_of_nonpos_of_neg_pi_le ht2 ht1
    obtain ⟨l1, l2, l3, l4, l5, l6, l7⟩ := Core.laws H hc
    refine ⟨Core.pos_eq H hn hc, Core.vel_eq H hn hs hc, l1, ?_, ?_, ?_, l4, ?_, ?_⟩
    · rw [l7, l1]
    · rw [V3.norm_sq, l5, l1, ← H.hV]; ring
    · rw [l3, hHn]
    · rw [l6]
      have : A.P.GM / h * e * sin t ≤ 0 := mul_nonpos_of_nonneg_of_nonpos (by positivity) hs
      exact mul_nonpos_of_nonneg_of_nonpos l2.le this
    · exact conic_twoBody hg hh H.uu H.ww H.uw hc
  · have hc : 0 < 1 + e * cos 0 := by rw [cos_zero]; linarith
    rw [Core.pos_eq H hn hc]
    unfold Approach.rpVec
    rw [H.hu]
    simp only [bind, Option.bind, pure, Option.some.injEq]
    unfold cPos
    rw [cos_zero, sin_zero, H.hsq]
    have : A.P.GM * A.rp * (1 + e) / A.P.GM / (1 + e * 1) = A.rp := by rw [mul_one]; field_simp
    rw [this]
    ext <;> simp
  · intro beta hbe
    have hbb : beta = bb := by have := H.hb; rw [hbe] at this; exact Option.some.inj this
    subst hbb
    have hb0 := H.b0; have hbp := H.bpi
    constructor
    · intro t ht1 ht2
      have : cos (π - beta) < cos t := by
        rw [← cos_neg t]
        exact cos_lt_cos_of_nonneg_of_le_pi (by linarith) (by linarith) (by linarith)
      rw [cos_pi_sub, H.cb] at this
      have h2 : e * (-(1 / e)) < e * cos t := mul_lt_mul_of_pos_left this (by linarith)
      have h3 : e * (-(1 / e)) = -1 := by field_simp
      linarith
    · have hcont : Continuous (fun t => V3.norm (cVel (A.P.GM / h) e u (V3.cross w u) t - A.vInfBi)) := by
        unfold V3.norm V3.dot cVel
        simp only [V3.sub_x, V3.sub_y, V3.sub_z, V3.add_x, V3.add_y, V3.add_z, V3.smul_x, V3.smul_y, V3.smul_z]
        fun_prop
      have h0 := hcont.tendsto (-(π - beta))
      simp only [Core.asym H] at h0
      have hz : V3.norm (A.vInfBi - A.vInfBi) = 0 := by
        rw [V3.norm_eq_zero]; ext <;> simp
      rw [hz] at h0
      exact h0.mono_left nhdsWithin_le_nhds

/-- The concrete arrival has a state at periapsis and at a quarter turn before it (true anomaly −π/2). -/
example : ∃ A R U, Approach.init "EARTH" ⟨0, 10, 0⟩ 6371e3 0 true (some 120e3) = .ok A ∧
    A.posVec (-(π / 2)) = some R ∧ A.velVec (-(π / 2)) = some U ∧ V3.dot R U ≤ 0 := by
  obtain ⟨A, Hv, hA, hv, hH, hne, -⟩ := demo_arrival
  obtain ⟨e, h, u, R, U, -, -, -, -, -, H, -⟩ := C49_two_body_partial _ _ _ _ _ _ A Hv hA hv (by norm_num) hH hne
  obtain ⟨h1, h2, -, -, -, -, -, h3, -⟩ := H (-(π / 2)) (by linarith [pi_pos]) (by linarith [pi_pos])
    (by rw [cos_neg, cos_pi_div_two]; norm_num)
  exact ⟨A, _, _, hA, h1, h2, h3⟩

/-- Finding behind C49: for an arrival orbit in the equatorial plane there is no position or velocity at any anomaly (the
node direction is a division by zero). -/
theorem C49_equatorial_fails (A : Approach) (Hv : V3) (hH : A.hVec = some Hv) (hx : Hv.x = 0) (hy : Hv.y = 0) (t : ℝ) :
    A.posVec t = none ∧ A.velVec t = none := by
  have ho : A.orientation = none := by
    unfold Approach.orientation
    rw [hH]
    cases A.eUnit with
    | none => rfl
    | some eu => exact orient_equatorial hx hy
  constructor
  · unfold Approach.posVec
    rw [ho]
    cases A.h <;> cases A.e <;> rfl
  · unfold Approach.velVec
    rw [ho]
    simp only [bind, Option.bind]
    cases A.rMag t with
    | none => rfl
    | some r =>
      simp only []
      cases npDiv (2 * A.P.GM) r with
      | none => rfl
      | some q =>
        simp only []
        cases npSqrt (A.vInfMag ^ 2 + q) with
        | none => rfl
        | some v =>
          simp only []
          cases A.h with
          | none => rfl
          | some h =>
            simp only []
            cases npDiv h (r * v) with
            | none => rfl
            | some x => simp only []; cases npArccos x <;> rfl

/-- An arrival in the equatorial plane of the Earth (aim angle π/2): no position at any anomaly. -/
example : ∃ A, Approach.init "EARTH" ⟨0, 10, 0⟩ 6371e3 (π / 2) true (some 120e3) = .ok A ∧
    ∀ t, A.posVec t = none ∧ A.velVec t = none := by
  obtain ⟨A, V, e, b, h, d, u, w, hA, H, hu, hw, -⟩ :=
    earth_aim (rp := 6371e3) (psi := π / 2) true (some 120e3) (by simp) (by norm_num)
  exact ⟨A, hA, C49_equatorial_fails A _ H.hhv (by rw [hw]; simp) (by rw [hw]; simp)⟩

/-- Finding: past periapsis (`0 < t < π`) `vel_vec_bi` keeps the radial speed pointing inward, so the "velocity" still has
`R · U < 0` although the spacecraft recedes. -/
theorem C49_outbound_wrong (name : String) (v : V3) (rp psi : ℝ) (b : Bool) (hEI : Option ℝ) (A : Approach) (Hv : V3)
    (hA : Approach.init name v rp psi b hEI = .ok A) (hv : v ≠ 0) (hrp : 0 < rp) (hH : A.hVec = some Hv)
    (hne : Hv.x ≠ 0 ∨ Hv.y ≠ 0) (t e : ℝ) (he : A.e = some e) (ht0 : 0 < t) (htp : t < π) (hc : 0 < 1 + e * cos t) :
    ∃ R U, A.posVec t = some R ∧ A.velVec t = some U ∧ V3.dot R U < 0 := by
  obtain ⟨V, e', bb, h, d, u, w, H, hn, hHw⟩ := approach_facts hA hv hrp hH hne
  have : e' = e := by have := H.he; rw [he] at this; exact (Option.some.inj this).symm
  subst this
  have hg := H.gm; have hh := H.hpos; have he1 := H.e1
  have hs : 0 < sin t := sin_pos_of_pos_of_lt_pi ht0 htp
  refine ⟨_, _, H.pos hn hc, H.vel hn hc, ?_⟩
  set r := h ^ 2 / A.P.GM / (1 + e' * cos t)
  have hr : 0 < r := by positivity
  set q := V3.cross w u with hq
  have hqq : V3.dot q q = 1 := by rw [hq, V3.dot_cross_self, H.ww, H.uu, V3.dot_comm, H.uw]; norm_num
  have huq : V3.dot u q = 0 := V3.dot_cross_right _ _
  have sc := sin_sq_add_cos_sq t
  have key : ∀ a c : ℝ, V3.dot (r • (cos t • u + sin t • q)) (a • (cos t • u + sin t • q) + c • ((-sin t) • u + cos t • q)) =
      r * a := by
    intro a c
    have : V3.dot (r • (cos t • u + sin t • q)) (a • (cos t • u + sin t • q) + c • ((-sin t) • u + cos t • q)) =
        r * ((cos t * (a * cos t - c * sin t)) * V3.dot u u + (cos t * (a * sin t + c * cos t) + sin t * (a * cos t - c * sin t)) * V3.dot u q
          + (sin t * (a * sin t + c * cos t)) * V3.dot q q) := by
      simp only [V3.dot, V3.add_x, V3.add_y, V3.add_z, V3.smul_x, V3.smul_y, V3.smul_z]; ring
    rw [this, H.uu, huq, hqq]
    linear_combination (r * a) * sc
  rw [key, abs_of_pos hs]
  have : 0 < A.P.GM / h * e' * sin t := by positivity
  nlinarith

/-- The concrete arrival, a quarter turn after periapsis. -/
example : ∃ A R U, Approach.init "EARTH" ⟨0, 10, 0⟩ 6371e3 0 true (some 120e3) = .ok A ∧
    A.posVec (π / 2) = some R ∧ A.velVec (π / 2) = some U ∧ V3.dot R U < 0 := by
  obtain ⟨A, Hv, hA, hv, hH, hne, -⟩ := demo_arrival
  obtain ⟨a, e, h, B, -, he, -⟩ := C47_hyperbola _ _ _ _ _ _ A hA hv (by norm_num)
  obtain ⟨R, U, h1, h2, h3⟩ := C49_outbound_wrong _ _ _ _ _ _ A Hv hA hv (by norm_num) hH hne (π / 2) e he
    (by linarith [pi_pos]) (by linarith [pi_pos]) (by rw [cos_pi_div_two]; norm_num)
  exact ⟨A, R, U, hA, h1, h2, h3⟩

/-! ### C50 -/

/-- The entry anomaly and state on the conic. -/
theorem Core.entry {A : Approach} {V e b h : ℝ} {d u w : V3} (H : ApproachCore A V e b h d u w) (hn : w.x ≠ 0 ∨ w.y ≠ 0)
    {hE : ℝ} (hle : A.rp ≤ A.rEI hE) :
    ∃ t, A.thetaStarEntry hE = some t ∧ -π ≤ t ∧ t ≤ 0 ∧ 0 < 1 + e * cos t ∧ h ^ 2 / A.P.GM / (1 + e * cos t) = A.rEI hE ∧
      A.rVecEntry hE = some (cPos (h ^ 2 / A.P.GM) e u (V3.cross w u) t) ∧
      A.vVecEntry hE = some (cVel (A.P.GM / h) e u (V3.cross w u) t) := by
  have hg := H.gm; have hh := H.hpos; have he1 := H.e1; have hrp := H.rp
  set r := A.rEI hE with hr
  have hr0 : 0 < r := lt_of_lt_of_le hrp hle
  have hq : h ^ 2 / (A.P.GM * r) = A.rp * (1 + e) / r := by rw [H.hsq]; field_simp
  have hq0 : 0 < A.rp * (1 + e) / r := by positivity
  have hq1 : A.rp * (1 + e) / r ≤ 1 + e := by rw [div_le_iff₀ hr0]; nlinarith
  set x := (A.rp * (1 + e) / r - 1) * (1 / e) with hx
  have hxe : x * e = A.rp * (1 + e) / r - 1 := by rw [hx]; field_simp
  have hx1 : -1 ≤ x ∧ x ≤ 1 := by constructor <;> nlinarith
  have hth : A.thetaStarEntry hE = some (-1 * arccos x) := by
    unfold Approach.thetaStarEntry
    rw [H.hh, H.he]
    simp only [bind, Option.bind]
    rw [← hr, npDiv_some (by positivity), hq]
    simp only []
    rw [npDiv_some (by linarith), Lits.l10]
    simp only []
    rw [npArccos_some hx1]
    rfl
  have hcos : cos (-1 * arccos x) = x := by rw [neg_one_mul, cos_neg, cos_arccos hx1.1 hx1.2]
  have hc : 1 + e * cos (-1 * arccos x) = A.rp * (1 + e) / r := by rw [hcos]; linarith
  have ht1 : -π ≤ -1 * arccos x := by linarith [arccos_le_pi x]
  have ht2 : -1 * arccos x ≤ 0 := by linarith [arccos_nonneg x]
  have hcp : 0 < 1 + e * cos (-1 * arccos x) := by rw [hc]; exact hq0
  refine ⟨_, hth, ht1, ht2, hcp, ?_, ?_, ?_⟩
  · rw [hc, ← hq]; field_simp
  · unfold Approach.rVecEntry; rw [hth]; exact Core.pos_eq H hn hcp
  · unfold Approach.vVecEntry; rw [hth]
    exact Core.vel_eq H hn (sin_nonpos_of_nonpos_of_neg_pi_le ht2 ht1) hcp

/-- C50 (partial: equatorial arrival orbits are excluded, see `C49_equatorial_fails`).  For every entry system whose
periapsis is not above the entry interface: the entry anomaly exists, is on the incoming branch, the entry radius is
`RP + h_EI`, the reported entry speed is the length of the entry velocity and satisfies energy conservation, the reported
flight-path angle lies in `[-π/2, 0]`, is the angle of the velocity below the horizon, and equals its cross-check. -/
theorem C50_entry_state_partial (name : String) (v : V3) (rp psi hE : ℝ) (A : Approach) (Hv : V3)
    (hA : Approach.init name v rp psi true (some hE) = .ok A) (hv : v ≠ 0) (hrp : 0 < rp) (hH : A.hVec = some Hv)
    (hne : Hv.x ≠ 0 ∨ Hv.y ≠ 0) (hle : rp ≤ A.P.RP + hE) :
    ∃ t R U s g, A.thetaStarEntry hE = some t ∧ -π ≤ t ∧ t ≤ 0 ∧ A.rVecEntry hE = some R ∧ A.vVecEntry hE = some U ∧
      V3.norm R = A.P.RP + hE ∧ A.vEntryInertialMag hE = some s ∧ s = V3.norm U ∧ 0 < s ∧
      s ^ 2 / 2 - A.P.GM / V3.norm R = A.vInfMag ^ 2 / 2 ∧
      A.gammaEntryInertial hE = some g ∧ -(π / 2) ≤ g ∧ g ≤ 0 ∧ V3.dot R U = V3.norm R * V3.norm U * sin g ∧
      A.gammaEntryInertialCheck hE = some g := by
  obtain ⟨V, e, bb, h, d, u, w, H, hn, hHw⟩ := approach_facts hA hv hrp hH hne
  obtain ⟨P, hP, hAP, rfl, rfl, rfl, -⟩ := approach_init_inv hA
  have hg := H.gm; have hh := H.hpos; have he1 := H.e1
  obtain ⟨t, ht, ht1, ht2, hc, hr, hR, hU⟩ := Core.entry H hn hle
  obtain ⟨l1, l2, l3, l4, l5, l6, l7⟩ := Core.laws H hc
  have hs : sin t ≤ 0 := sin_nonpos_of_nonpos_of_neg_pi_le ht2 ht1
  set R := cPos (h ^ 2 / A.P.GM) e u (V3.cross w u) t with hRd
  set U := cVel (A.P.GM / h) e u (V3.cross w u) t with hUd
  set r := A.rEI hE with hrd
  have hr0 : 0 < r := by rw [← hr]; exact l2
  rw [hr] at l1 l2 l5 l6 l7
  have hUU : 0 < V3.dot U U := by rw [l5]; have := H.vpos; positivity
  have hUn : 0 < V3.norm U := by unfold V3.norm; exact sqrt_pos.mpr hUU
  have hU0 : U ≠ 0 := by intro h0; rw [h0, V3.norm_eq_zero.mpr rfl] at hUn; linarith
  have hR0 : R ≠ 0 := by intro h0; rw [h0, V3.norm_eq_zero.mpr rfl] at l1; linarith
  have hsp : A.vEntryInertialMag hE = some (V3.norm U) := by
    unfold Approach.vEntryInertialMag
    rw [← hrd, npDiv_some hr0.ne']
    simp only [bind, Option.bind]
    rw [← H.hV, ← l5, npSqrt_some hUU.le]; rfl
  -- angular momentum
  have hcr : (r * V3.norm U) ^ 2 - V3.dot R U ^ 2 = h ^ 2 := by
    have := V3.dot_cross_self R U
    rw [l3, V3.dot_smul_left, V3.dot_smul_right, H.ww, ← V3.norm_sq R, ← V3.norm_sq U, l1] at this
    linarith
  have hrU : 0 < r * V3.norm U := by positivity
  set y := h / (r * V3.norm U) with hy
  have hy0 : 0 < y := by positivity
  have hy1 : y ≤ 1 := by
    rw [hy, div_le_one hrU]
    refine le_of_sq_le_sq ?_ hrU.le
    nlinarith [sq_nonneg (V3.dot R U)]
  have hga : A.gammaEntryInertial hE = some (-1 * arccos y) := by
    unfold Approach.gammaEntryInertial
    rw [H.hh, hsp]
    simp only [bind, Option.bind]
    rw [← hrd, npDiv_some hrU.ne']
    simp only []
    rw [npArccos_some ⟨by linarith, hy1⟩]; rfl
  have hRU : V3.dot R U ≤ 0 := by
    rw [l6]
    have : A.P.GM / h * e * sin t ≤ 0 := mul_nonpos_of_nonneg_of_nonpos (by positivity) hs
    exact mul_nonpos_of_nonneg_of_nonpos l2.le this
  have hsing : r * V3.norm U * sin (-1 * arccos y) = V3.dot R U := by
    rw [neg_one_mul, sin_neg, sin_arccos]
    have e1 : 1 - y ^ 2 = (-(V3.dot R U) / (r * V3.norm U)) ^ 2 := by
      rw [hy, div_pow, div_pow, eq_div_iff (by positivity), sub_mul, div_mul_cancel₀ _ (by positivity)]
      linear_combination hcr
    rw [e1, sqrt_sq (div_nonneg (by linarith) hrU.le)]
    field_simp
  have hb1 : -(π / 2) ≤ -1 * arccos y := by
    have := arccos_le_pi_div_two.mpr hy0.le
    linarith
  have hb2 : -1 * arccos y ≤ 0 := by linarith [arccos_nonneg y]
  refine ⟨t, R, U, V3.norm U, -1 * arccos y, ht, ht1, ht2, hR, hU, l1, hsp, rfl, hUn, ?_, hga, hb1, hb2, ?_, ?_⟩
  · rw [V3.norm_sq, l5, l1, ← H.hV]; ring
  · rw [l1, hsing]
  · unfold Approach.gammaEntryInertialCheck Approach.rEntryUnit
    rw [hU, hR]
    simp only [bind, Option.bind]
    rw [npUnit_some hU0, npUnit_some hR0]
    simp only []
    have hx : V3.dot ((1 / V3.norm R) • R) ((1 / V3.norm U) • U) = sin (-1 * arccos y) := by
      rw [V3.dot_smul_left, V3.dot_smul_right, ← hsing, l1]; field_simp
    rw [hx, npArccos_some ⟨neg_one_le_sin _, sin_le_one _⟩]
    simp only [pure, Option.some.injEq]
    rw [arccos_eq_pi_div_two_sub_arcsin, arcsin_sin hb1 (by linarith [pi_pos])]
    ring

/-- The concrete arrival reaches its entry interface, 120 km above the surface. -/
example : ∃ A R, Approach.init "EARTH" ⟨0, 10, 0⟩ 6371e3 0 true (some 120e3) = .ok A ∧ A.rVecEntry 120e3 = some R ∧
    V3.norm R = 6491e3 := by
  obtain ⟨A, Hv, hA, hv, hH, hne, -, hRP⟩ := demo_arrival
  obtain ⟨t, R, U, s, g, -, -, -, hR, -, hn, -⟩ := C50_entry_state_partial _ _ _ _ _ A Hv hA hv (by norm_num) hH hne
    (by rw [hRP]; norm_num)
  exact ⟨A, R, hA, hR, by rw [hn, hRP]; norm_num⟩

/-- C50: with periapsis above the entry interface there is no entry state at all (`arccos` of a number above one). -/
theorem C50_no_entry (name : String) (v : V3) (rp psi hE : ℝ) (A : Approach)
    (hA : Approach.init name v rp psi true (some hE) = .ok A) (hv : v ≠ 0) (hr0 : 0 < A.P.RP + hE) (hlt : A.P.RP + hE < rp) :
    A.thetaStarEntry hE = none ∧ A.rVecEntry hE = none ∧ A.vVecEntry hE = none := by
  obtain ⟨P, hP, hAP, rfl, rfl, rfl, -⟩ := approach_init_inv hA
  have hg : 0 < A.P.GM := by rw [hAP]; exact planet_gm_pos hP
  obtain ⟨V, e, bb, h, d, u, w, H⟩ := approach_core A hg hv (by linarith)
  have he1 := H.e1
  have hth : A.thetaStarEntry hE = none := by
    unfold Approach.thetaStarEntry
    rw [H.hh, H.he]
    simp only [bind, Option.bind]
    have : A.rEI hE = A.P.RP + hE := rfl
    rw [this, npDiv_some (by positivity), npDiv_some (by linarith), Lits.l10]
    simp only []
    have hq : h ^ 2 / (A.P.GM * (A.P.RP + hE)) = A.rp * (1 + e) / (A.P.RP + hE) := by rw [H.hsq]; field_simp
    have hgt : ¬ ((h ^ 2 / (A.P.GM * (A.P.RP + hE)) - 1) * (1 / e) ≤ 1) := by
      rw [hq, not_le, mul_one_div, lt_div_iff₀ (by linarith), lt_sub_iff_add_lt, lt_div_iff₀ hr0]
      nlinarith
    unfold npArccos
    rw [if_neg (fun hh => hgt hh.2)]
  refine ⟨hth, ?_, ?_⟩
  · unfold Approach.rVecEntry; rw [hth]; rfl
  · unfold Approach.vVecEntry; rw [hth]; rfl

/-- An arrival with periapsis at 8000 km passes above the interface. -/
example : ∃ A, Approach.init "EARTH" ⟨0, 10, 0⟩ 8000e3 0 true (some 120e3) = .ok A ∧ A.thetaStarEntry 120e3 = none := by
  obtain ⟨A, V, e, b, h, d, u, w, hA, H, hu, hw, hRP, -⟩ :=
    earth_aim (rp := 8000e3) (psi := 0) true (some 120e3) (by simp) (by norm_num)
  obtain ⟨-, -, -, hv, -⟩ := demo_arrival
  exact ⟨A, hA, (C50_no_entry _ _ _ _ _ A hA hv (by rw [hRP]; norm_num) (by rw [hRP]; norm_num)).1⟩

end AMAT.Props
