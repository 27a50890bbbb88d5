import Verif.Props.Deflection
import Verif.Props.Profiles

/-
Property C136: the arrays of positions that `Orbiter` and `PropulsiveOrbiter` store for plotting: the coast from the exit of the
atmosphere to the first apoapsis, the orbit after the periapsis raise, the orbit after a propulsive insertion, and the deflected
orbit of the orbiter.
-/

noncomputable section

open Real

namespace AMAT.Spec

/-- The array `arr` of `n` positions (in units of the radius `RP`) runs along the ellipse with one focus at the centre of the
planet, the other at `F`, and sum of the distances to both `s`, in the plane through the centre with unit normal `w`.  From every
position to the next the direction seen from the centre turns by the angle `d` around `w`. -/
structure Sweep (RP d : ℝ) (w F : V3) (s : ℝ) (n : ℕ) (arr : List (Option V3)) : Prop where
  length : arr.length = n
  ellipse : ∀ i < n, ∃ p : V3, arr[i]? = some (some p) ∧ p ≠ 0 ∧ V3.dot p w = 0 ∧
    V3.norm (RP • p) + V3.norm (RP • p - F) = s
  turn : ∀ (i : ℕ) (p q : V3), arr[i]? = some (some p) → arr[i + 1]? = some (some q) →
    V3.dot p q = V3.norm p * V3.norm q * cos d ∧ V3.cross p q = (V3.norm p * V3.norm q * sin d) • w

/-- Position `i` of the array is the point `R`. -/
def At (RP : ℝ) (arr : List (Option V3)) (i : ℕ) (R : V3) : Prop := arr[i]? = some (some ((1 / RP) • R))

end AMAT.Spec

namespace AMAT

/-- The positions of the deflected orbit (orbiter.py:847-852). -/
def Orbiter.deflArr (O : Orbiter) (self defl : Elements) (n : ℕ) : List (Option V3) :=
  orbitArr O.P (posDefl O.P.GM self defl) 0 (2 * Real.pi) n

end AMAT

namespace AMAT.Props

theorem polar_pair {u w : V3} (uu : V3.dot u u = 1) (ww : V3.dot w w = 1) (uw : V3.dot u w = 0) (s t : ℝ) :
    V3.dot (cos s • u + sin s • V3.cross w u) (cos t • u + sin t • V3.cross w u) = cos (t - s) ∧
    V3.cross (cos s • u + sin s • V3.cross w u) (cos t • u + sin t • V3.cross w u) = sin (t - s) • w ∧
    V3.dot (cos s • u + sin s • V3.cross w u) w = 0 := by
  obtain ⟨c1, c2⟩ := cross_unit uu ww uw
  have hx : V3.cross u (V3.cross w u) = w := by
    have e : V3.cross u (V3.cross w u) = V3.dot u u • w - V3.dot u w • u := by
      ext <;> simp only [V3.cross, V3.dot, V3.sub_x, V3.sub_y, V3.sub_z, V3.smul_x, V3.smul_y, V3.smul_z] <;> ring
    rw [e, uu, uw]; ext <;> simp
  have hd : V3.dot (V3.cross w u) w = 0 := by simp only [V3.dot, V3.cross]; ring
  generalize V3.cross w u = q at *
  refine ⟨?_, ?_, ?_⟩
  · have : V3.dot (cos s • u + sin s • q) (cos t • u + sin t • q) =
        cos s * cos t * V3.dot u u + (cos s * sin t + sin s * cos t) * V3.dot u q + sin s * sin t * V3.dot q q := by
      simp only [V3.dot, V3.add_x, V3.add_y, V3.add_z, V3.smul_x, V3.smul_y, V3.smul_z]; ring
    rw [this, uu, c1, c2, cos_sub]; ring
  · have : V3.cross (cos s • u + sin s • q) (cos t • u + sin t • q) =
        (cos s * sin t - sin s * cos t) • V3.cross u q := by
      ext <;> simp only [V3.cross, V3.add_x, V3.add_y, V3.add_z, V3.smul_x, V3.smul_y, V3.smul_z] <;> ring
    rw [this, hx, sin_sub]; congr 1; ring
  · have : V3.dot (cos s • u + sin s • q) w = cos s * V3.dot u w + sin s * V3.dot q w := by
      simp only [V3.dot, V3.add_x, V3.add_y, V3.add_z, V3.smul_x, V3.smul_y, V3.smul_z]; ring
    rw [this, uw, hd]; ring

/-- Radius of a bound conic. -/
theorem conic_rad {p e a t : ℝ} (he0 : -1 < e) (he1 : e < 1) (ha : 0 < a) (hp : p = a * (1 - e ^ 2)) :
    0 < 1 + e * cos t ∧ 0 < p / (1 + e * cos t) ∧ p / (1 + e * cos t) < 2 * a ∧
      p / (1 + e * cos t) * (e * cos t) = p - p / (1 + e * cos t) := by
  have hd : 0 < 1 + e * cos t := by
    have := cos_le_one t; have := neg_one_le_cos t
    rcases le_or_gt 0 e with h | h <;> nlinarith
  have hp0 : 0 < p := by rw [hp]; apply mul_pos ha; nlinarith
  refine ⟨hd, div_pos hp0 hd, ?_, ?_⟩
  · rw [div_lt_iff₀ hd, hp]
    have hc : -|e| ≤ e * cos t := by
      have : |e * cos t| ≤ |e| := by rw [abs_mul]; exact mul_le_of_le_one_right (abs_nonneg _) (abs_cos_le_one t)
      linarith [neg_abs_le (e * cos t)]
    have h1 : |e| < 1 := abs_lt.mpr ⟨he0, he1⟩
    have h2 : |e| ^ 2 = e ^ 2 := sq_abs e
    have : 1 - e ^ 2 < 2 * (1 + e * cos t) := by nlinarith [abs_nonneg e]
    nlinarith
  · field_simp; ring

theorem cPos_norm {p e a : ℝ} {u w : V3} (uu : V3.dot u u = 1) (ww : V3.dot w w = 1) (uw : V3.dot u w = 0) (he0 : -1 < e)
    (he1 : e < 1) (ha : 0 < a) (hp : p = a * (1 - e ^ 2)) (t : ℝ) :
    V3.norm (cPos p e u (V3.cross w u) t) = p / (1 + e * cos t) := by
  have hn : V3.norm (cos t • u + sin t • V3.cross w u) = 1 := by
    apply V3.norm_of_dot_one; rw [(polar_pair uu ww uw t t).1, sub_self, cos_zero]
  unfold cPos
  rw [V3.norm_smul, hn, mul_one, abs_of_pos (conic_rad he0 he1 ha hp).2.1]

/-- The two distances to the foci. -/
theorem cPos_foci {p e a : ℝ} {u w : V3} (uu : V3.dot u u = 1) (ww : V3.dot w w = 1) (uw : V3.dot u w = 0) (he0 : -1 < e)
    (he1 : e < 1) (ha : 0 < a) (hp : p = a * (1 - e ^ 2)) (t : ℝ) :
    V3.norm (cPos p e u (V3.cross w u) t) + V3.norm (cPos p e u (V3.cross w u) t - (-(2 * a * e)) • u) = 2 * a := by
  obtain ⟨-, r0, r1, r2⟩ := conic_rad (t := t) he0 he1 ha hp
  rw [cPos_norm uu ww uw he0 he1 ha hp]
  have h1 := (polar_pair uu ww uw t t).1
  rw [sub_self, cos_zero] at h1
  have h2 := (polar_pair uu ww uw t 0).1
  rw [cos_zero, sin_zero, zero_sub, cos_neg, show (1:ℝ) • u + (0:ℝ) • V3.cross w u = u by ext <;> simp] at h2
  set E := cos t • u + sin t • V3.cross w u with hE
  set r := p / (1 + e * cos t) with hr
  have : V3.norm (cPos p e u (V3.cross w u) t - (-(2 * a * e)) • u) = 2 * a - r := by
    apply V3.norm_eq_of_sq (by linarith)
    have e1 : V3.dot (cPos p e u (V3.cross w u) t - (-(2 * a * e)) • u) (cPos p e u (V3.cross w u) t - (-(2 * a * e)) • u) =
        r ^ 2 * V3.dot E E + 4 * a * e * r * V3.dot E u + 4 * a ^ 2 * e ^ 2 * V3.dot u u := by
      have : cPos p e u (V3.cross w u) t = r • E := rfl
      rw [this]
      simp only [V3.dot, V3.sub_x, V3.sub_y, V3.sub_z, V3.smul_x, V3.smul_y, V3.smul_z]; ring
    rw [e1, h1, h2, uu]
    rw [hp] at r2
    linear_combination 4 * a * r2
  rw [this]; ring

theorem orbitArr_get (P : Planet) (pos : ℝ → Option V3) (t0 t1 : ℝ) {n i : ℕ} (hi : i < n) {R : V3}
    (h : pos (t0 + (i : ℝ) * ((t1 - t0) / ((n : ℝ) - 1))) = some R) :
    Spec.At P.RP (orbitArr P pos t0 t1 n) i R := by
  unfold Spec.At orbitArr
  rw [List.getElem?_map, linspace_getElem _ _ _ _ hi]
  simp only [Option.map_some, h]

/-- The positions on a bound conic at equal steps of the anomaly. -/
theorem sweep_of {P : Planet} {pos : ℝ → Option V3} {p e a : ℝ} {u w : V3} (hRP : 0 < P.RP) (uu : V3.dot u u = 1)
    (ww : V3.dot w w = 1) (uw : V3.dot u w = 0) (he0 : -1 < e) (he1 : e < 1) (ha : 0 < a) (hp : p = a * (1 - e ^ 2))
    (hpos : ∀ t, pos t = some (cPos p e u (V3.cross w u) t)) (t0 t1 : ℝ) {n : ℕ} (hn : 2 ≤ n) :
    Spec.Sweep P.RP ((t1 - t0) / ((n : ℝ) - 1)) w ((-(2 * a * e)) • u) (2 * a) n (orbitArr P pos t0 t1 n) ∧
    Spec.At P.RP (orbitArr P pos t0 t1 n) 0 (cPos p e u (V3.cross w u) t0) ∧
    Spec.At P.RP (orbitArr P pos t0 t1 n) (n - 1) (cPos p e u (V3.cross w u) t1) := by
  set arr := orbitArr P pos t0 t1 n with harr
  set d := (t1 - t0) / ((n : ℝ) - 1) with hd
  have hget : ∀ i < n, arr[i]? = some (some ((1 / P.RP) • cPos p e u (V3.cross w u) (t0 + i * d))) :=
    fun i hi => orbitArr_get P pos t0 t1 hi (hpos _)
  have hlen : arr.length = n := by rw [harr]; unfold orbitArr; rw [List.length_map, linspace_length]
  have hback : ∀ R : V3, P.RP • ((1 / P.RP) • R) = R := by
    intro R; rw [V3.smul_smul, mul_one_div_cancel hRP.ne']; ext <;> simp
  have hn2 : (2:ℝ) ≤ n := by exact_mod_cast hn
  have hne : (n : ℝ) - 1 ≠ 0 := by intro h; linarith
  refine ⟨⟨hlen, ?_, ?_⟩, ?_, ?_⟩
  · intro i hi
    refine ⟨_, hget i hi, ?_, ?_, ?_⟩
    · intro h0
      have h1 := congrArg V3.norm h0
      rw [V3.norm_smul, cPos_norm uu ww uw he0 he1 ha hp, V3.norm_eq_zero.mpr rfl, abs_of_pos (by positivity)] at h1
      have := (conic_rad (t := t0 + i * d) he0 he1 ha hp).2.1
      have : 0 < 1 / P.RP * (p / (1 + e * cos (t0 + i * d))) := by positivity
      linarith
    · unfold cPos
      rw [V3.dot_smul_left, V3.dot_smul_left, (polar_pair uu ww uw _ (t0 + i * d)).2.2]; ring
    · rw [hback]; exact cPos_foci uu ww uw he0 he1 ha hp _
  · intro i P1 Q1 h1 h2
    have hi : i + 1 < n := by rw [← hlen]; exact (List.getElem?_eq_some_iff.mp h2).1
    rw [hget i (by omega)] at h1
    rw [hget (i + 1) hi] at h2
    have e1 := Option.some.inj (Option.some.inj h1)
    have e2 := Option.some.inj (Option.some.inj h2)
    rw [← e1, ← e2]
    obtain ⟨a1, a2, -⟩ := polar_pair uu ww uw (t0 + i * d) (t0 + ((i + 1 : ℕ) : ℝ) * d)
    have hstep : t0 + ((i + 1 : ℕ) : ℝ) * d - (t0 + i * d) = d := by push_cast; ring
    rw [hstep] at a1 a2
    have r1 := (conic_rad (t := t0 + i * d) he0 he1 ha hp).2.1
    have r2 := (conic_rad (t := t0 + ((i + 1 : ℕ) : ℝ) * d) he0 he1 ha hp).2.1
    rw [V3.norm_smul, V3.norm_smul, cPos_norm uu ww uw he0 he1 ha hp, cPos_norm uu ww uw he0 he1 ha hp,
      abs_of_pos (show 0 < 1 / P.RP by positivity)]
    unfold cPos
    constructor
    · rw [V3.dot_smul_left, V3.dot_smul_right, V3.dot_smul_left, V3.dot_smul_right, a1]; ring
    · rw [V3.cross_smul_left, V3.cross_smul_right, V3.cross_smul_left, V3.cross_smul_right, a2, V3.smul_smul, V3.smul_smul,
        V3.smul_smul, V3.smul_smul]
      congr 1; ring
  · have := hget 0 (by omega)
    simpa [Spec.At] using this
  · have := hget (n - 1) (by omega)
    have hc : t0 + ((n - 1 : ℕ) : ℝ) * d = t1 := by
      rw [Nat.cast_sub (by omega), hd]; field_simp; push_cast; ring
    rw [hc] at this
    exact this

theorem ellipse_shape {GM : ℝ} {el : Elements} {u w : V3} (K : EllipseOK GM el u w) :
    el.h ^ 2 / GM = el.a * (1 - el.e ^ 2) := by
  rw [K.hsq]; have := K.gm; field_simp

/-- C136, propulsive insertion: the stored orbit starts at the periapsis of the arrival hyperbola, runs once around the ellipse
with that periapsis and the requested apoapsis, in the sense of the arrival, and ends where it started. -/
theorem C136_propulsive_orbit (name : String) (v : V3) (rp psi apo : ℝ) (hEI : Option ℝ) (A : Approach) (Hv : V3)
    (hA : Approach.init name v rp psi false hEI = .ok A) (hv : v ≠ 0) (hrp : 0 < rp) (hH : A.hVec = some Hv)
    (hne : Hv.x ≠ 0 ∨ Hv.y ≠ 0) (ra : ℝ) (hra : 0 < ra) (hrad : ra = A.P.RP + apo * 1000) (n : ℕ) (hn : 2 ≤ n) :
    ∃ O arr Rp, PropOrbiter.init A apo = .ok O ∧ O.orbitTraj n = some arr ∧ A.posVec 0 = some Rp ∧ V3.norm Rp = rp ∧
      Spec.Sweep A.P.RP (2 * π / ((n : ℝ) - 1)) ((1 / V3.norm Hv) • Hv) ((-((ra - rp) / rp)) • Rp) (rp + ra) n arr ∧
      Spec.At A.P.RP arr 0 Rp ∧ Spec.At A.P.RP arr (n - 1) Rp := by
  obtain ⟨O, el0, hO, hel0, -, -, -, -, -, hp0, -⟩ :=
    C53_insertion_partial name v rp psi apo hEI A Hv hA hv hrp hH hne (by rw [← hrad]; exact hra)
  obtain ⟨V, e, bb, h, d, u, w, H, hnw, hHw⟩ := approach_facts hA hv hrp hH hne
  obtain ⟨P, hP, hAP, rfl, rfl, rfl, -⟩ := approach_init_inv hA
  have hRP : 0 < A.P.RP := by rw [hAP]; exact (C01_planet_consistent name P hP).2.1
  have hOe : O = ⟨A, apo⟩ := by
    unfold PropOrbiter.init at hO
    split at hO
    · exact absurd hO (by simp)
    · exact (Except.ok.inj hO).symm
  subst hOe
  obtain ⟨el, hel, K, k1, k2, k3⟩ := prop_ellipse H hnw hra hrad
  obtain rfl : el0 = el := Option.some.inj (hel0.symm.trans hel)
  obtain ⟨s1, s2, s3⟩ := sweep_of (P := A.P) hRP K.uu K.ww K.uw K.e0 K.e1 K.apos (ellipse_shape K) K.pos 0 (2 * π) hn
  have hper : cPos (el0.h ^ 2 / A.P.GM) el0.e u (V3.cross w u) (2 * π) =
      cPos (el0.h ^ 2 / A.P.GM) el0.e u (V3.cross w u) 0 := by
    unfold cPos; rw [cos_two_pi, sin_two_pi, cos_zero, sin_zero]
  rw [hper] at s3
  have hc0 : cPos (el0.h ^ 2 / A.P.GM) el0.e u (V3.cross w u) 0 = A.rp • u := by
    unfold cPos
    rw [(ellipse_shape K), cos_zero, sin_zero, ← k1]
    have : 0 < 1 + el0.e := by linarith [K.e0]
    rw [show el0.a * (1 - el0.e ^ 2) / (1 + el0.e * 1) = el0.a * (1 - el0.e) by field_simp; ring]
    congr 1; ext <;> simp
  rw [hc0] at s2 s3
  have hw : (1 / V3.norm Hv) • Hv = w := by
    have h0 : 0 < A.rp * V * sin bb := by have := H.sb; have := H.vpos; positivity
    rw [hHw, V3.norm_smul, V3.norm_of_dot_one K.ww, abs_of_pos h0, mul_one, V3.smul_smul, one_div_mul_cancel h0.ne']
    ext <;> simp
  refine ⟨_, _, A.rp • u, hO, ?_, ?_, ?_, ?_, s2, s3⟩
  · unfold PropOrbiter.orbitTraj; rw [hel]; rfl
  · rw [← hp0, K.pos, hc0]
  · rw [V3.norm_smul, V3.norm_of_dot_one K.uu, abs_of_pos hrp, mul_one]
  · have e1 : (-((ra - A.rp) / A.rp)) • (A.rp • u) = (-(2 * el0.a * el0.e)) • u := by
      rw [V3.smul_smul]; congr 1; field_simp; linarith
    rw [hw, e1, show A.rp + ra = 2 * el0.a by linarith]
    simpa using s1

theorem exit_anomaly_range {O : Orbiter} {t : ℝ} (ht : O.thetaStarExit = some t) : 0 ≤ t ∧ t ≤ π := by
  unfold Orbiter.thetaStarExit at ht
  simp only [Option.bind_eq_bind, Option.bind_eq_some_iff] at ht
  obtain ⟨el, -, q, -, k, -, h⟩ := ht
  unfold npArccos at h
  split at h
  · rw [← Option.some.inj h]; exact ⟨arccos_nonneg _, arccos_le_pi _⟩
  · exact absurd h (by simp)

set_option maxHeartbeats 800000 in
/-- C136, after aerocapture: the stored coast starts at the point where the vehicle leaves the atmosphere (if it is not
descending there), follows the coast ellipse of the exit state in the direction of flight, climbs all the way and ends at the
apoapsis; the stored orbit starts there, runs once around the ellipse with the raised periapsis and ends where it started.

Partial: full claim is that the coast starts at the exit point of every bound exit; circular and equatorial exits are excluded
(`C54_degenerate_fails`), and for a descending exit the first point is only known to be at the right distance. -/
theorem C136_aerocapture_orbit_partial (name : String) (O : Orbiter) (hP : Planet.init name = .ok O.P) (hr : 0 < O.s.r) (R U : V3)
    (hR : R = Spec.pos O.s.r O.s.theta O.s.phi)
    (hUd : U = Spec.vel O.s.theta O.s.phi O.s.v O.s.psi O.s.g + V3.cross (Spec.spin O.P.OMEGA) R)
    (hE : Spec.energy O.P.GM R U < 0) (hne : (V3.cross R U).x ≠ 0 ∨ (V3.cross R U).y ≠ 0)
    (hecc : Spec.eccVec O.P.GM R U ≠ 0) (q : ℝ) (hqd : q = O.P.RP + O.periAltKm * 1000) (hq : 0 < q) (n m : ℕ) (hn : 2 ≤ n)
    (hm : 2 ≤ m) (a : ℝ) (had : a = -O.P.GM / (2 * Spec.energy O.P.GM R U)) (w : V3)
    (hwd : w = (1 / V3.norm (V3.cross R U)) • V3.cross R U) :
    ∃ (coast orb : List (Option V3)) (Ap S : V3) (ra d : ℝ), O.coastArr n = some coast ∧ O.orbitTraj m = some orb ∧
      O.rApoapsisMag = some ra ∧ V3.norm Ap = ra ∧
      0 ≤ d ∧ d * ((n : ℝ) - 1) ≤ π ∧
      Spec.Sweep O.P.RP d w ((-(2 * a)) • Spec.eccVec O.P.GM R U) (2 * a) n coast ∧
      Spec.At O.P.RP coast 0 S ∧ V3.norm S = V3.norm R ∧ (0 ≤ V3.dot R U → S = R) ∧ Spec.At O.P.RP coast (n - 1) Ap ∧
      (∀ (i j : ℕ) (p p' : V3), i < j → coast[i]? = some (some p) → coast[j]? = some (some p') → V3.norm R < ra →
        V3.norm p < V3.norm p') ∧
      Spec.Sweep O.P.RP (2 * π / ((m : ℝ) - 1)) w (((ra - q) / ra) • Ap) (q + ra) m orb ∧
      Spec.At O.P.RP orb 0 Ap ∧ Spec.At O.P.RP orb (m - 1) Ap := by
  obtain ⟨_, hRP, hGM, _⟩ := C01_planet_consistent name O.P hP
  obtain ⟨el0, -, ra0, hc0, -, -, -, ⟨t, ht, htr, htp⟩, hra0, -⟩ :=
    C54_coast_and_raise_partial name O hP hr R U hR hUd hE hne hecc (by rw [← hqd]; exact hq)
  obtain ⟨el, u, w', hc, S, hRn⟩ := coast_core hGM hr hR hUd hE hne hecc
  obtain rfl : el0 = el := Option.some.inj (hc0.symm.trans hc)
  have K := S.ok
  obtain ⟨hra, el2, h2, K2, ho2, a1, a2⟩ := prm_core K hRP hc (by rw [← hqd]; exact hq)
  rw [← hqd] at a1
  obtain ⟨p1, p2, p3⟩ := ellipse_apo K
  obtain ⟨p1', -, -⟩ := ellipse_apo K2
  obtain rfl : w' = w := by
    rw [hwd, ← S.hh, S.hw, V3.smul_smul, one_div_mul_cancel K.hpos.ne']; ext <;> simp
  have ha : el0.a = a := by rw [had]; exact S.ha
  have ht0 := exit_anomaly_range ht
  have hn2 : (2:ℝ) ≤ n := by exact_mod_cast hn
  have hn1 : 0 < (n : ℝ) - 1 := by linarith
  have hm2 : (2:ℝ) ≤ m := by exact_mod_cast hm
  obtain ⟨s1, s2, s3⟩ := sweep_of (P := O.P) hRP K.uu K.ww K.uw K.e0 K.e1 K.apos (ellipse_shape K) K.pos t π hn
  obtain ⟨o1, o2, o3⟩ :=
    sweep_of (P := O.P) hRP K2.uu K2.ww K2.uw K2.e0 K2.e1 K2.apos (ellipse_shape K2) K2.pos π (3 * π) hm
  have hcoast : O.coastArr n = some (orbitArr O.P (orbitPos O.P.GM el0) t π n) := by
    unfold Orbiter.coastArr; rw [hc, ht]; rfl
  have horb : O.orbitTraj m = some (orbitArr O.P (orbitPos O.P.GM el2) π (3 * π) m) := by
    unfold Orbiter.orbitTraj; rw [h2]; rfl
  have hap : cPos (el0.h ^ 2 / O.P.GM) el0.e u (V3.cross w' u) π = (-(el0.a * (1 + el0.e))) • u := by
    rw [K.pos] at p1; exact Option.some.inj p1
  have hap2 : cPos (el2.h ^ 2 / O.P.GM) el2.e u (V3.cross w' u) π = (-(el0.a * (1 + el0.e))) • u := by
    rw [K2.pos, a2] at p1'; exact Option.some.inj p1'
  have hap3 : cPos (el2.h ^ 2 / O.P.GM) el2.e u (V3.cross w' u) (3 * π) = (-(el0.a * (1 + el0.e))) • u := by
    rw [← hap2]; unfold cPos
    rw [show 3 * π = π + 2 * π by ring, cos_add_two_pi, sin_add_two_pi]
  rw [hap] at s3
  rw [hap2] at o2
  rw [hap3] at o3
  have hd : ∀ s, V3.norm (cPos (el0.h ^ 2 / O.P.GM) el0.e u (V3.cross w' u) s) = el0.h ^ 2 / O.P.GM / (1 + el0.e * cos s) :=
    fun s => cPos_norm K.uu K.ww K.uw K.e0 K.e1 K.apos (ellipse_shape K) s
  have htR : el0.h ^ 2 / O.P.GM / (1 + el0.e * cos t) = V3.norm R := by
    rw [K.radius] at htr; exact Option.some.inj htr
  set d := (π - t) / ((n : ℝ) - 1) with hdd
  have hdn : d * ((n : ℝ) - 1) = π - t := by rw [hdd]; field_simp
  refine ⟨_, _, _, _, _, d, hcoast, horb, hra, ?_, ?_, ?_, ?_, s2, ?_, ?_, s3, ?_, ?_, o2, o3⟩
  · rw [V3.norm_smul, V3.norm_of_dot_one K.uu, abs_neg, abs_of_pos p2, mul_one]
  · exact div_nonneg (by linarith [ht0.2]) hn1.le
  · rw [hdn]; linarith [ht0.1]
  · have e1 : (-(2 * a)) • Spec.eccVec O.P.GM R U = (-(2 * el0.a * el0.e)) • u := by
      rw [S.he, V3.smul_smul, ha]; congr 1; ring
    rw [e1, ← ha]; exact s1
  · rw [hd, htR]
  · intro hout
    have := htp hout
    rw [K.pos] at this
    exact Option.some.inj this
  · intro i j p p' hij hi hj hlt
    have htpi : t < π := by
      rcases ht0.2.lt_or_eq with h | h
      · exact h
      · exfalso
        rw [h] at htR
        have : EllipseOK.rad O.P.GM el0 π = V3.norm R := htR
        rw [p3] at this
        linarith
    have hd0 : 0 < d := div_pos (by linarith) hn1
    have hjn : j < n := by rw [← s1.length]; exact (List.getElem?_eq_some_iff.mp hj).1
    have hin : i < n := by omega
    have g := fun (k : ℕ) (hk : k < n) => orbitArr_get O.P (orbitPos O.P.GM el0) t π hk (K.pos _)
    unfold Spec.At at g
    rw [g i hin] at hi
    rw [g j hjn] at hj
    rw [← Option.some.inj (Option.some.inj hi), ← Option.some.inj (Option.some.inj hj), V3.norm_smul, V3.norm_smul, hd, hd]
    have hRPi : 0 < |1 / O.P.RP| := by positivity
    apply mul_lt_mul_of_pos_left _ hRPi
    have hp : 0 < el0.h ^ 2 / O.P.GM := by have := K.hpos; positivity
    apply div_lt_div_of_pos_left hp (K.den _)
    have hjR : (j : ℝ) ≤ (n : ℝ) - 1 := by
      have : ((j + 1 : ℕ) : ℝ) ≤ n := by exact_mod_cast hjn
      push_cast at this; linarith
    have hijR : (i : ℝ) < j := by exact_mod_cast hij
    have hi0 : (0:ℝ) ≤ i := Nat.cast_nonneg i
    have hlt2 : t + (i : ℝ) * d < t + (j : ℝ) * d := by nlinarith
    have hle : t + (j : ℝ) * d ≤ π := by
      have : (j : ℝ) * d ≤ ((n : ℝ) - 1) * d := mul_le_mul_of_nonneg_right hjR hd0.le
      linarith
    have := cos_lt_cos_of_nonneg_of_le_pi (by have := ht0.1; positivity) hle hlt2
    have := mul_lt_mul_of_pos_left this S.epos
    linarith
  · have hq2 : el2.a * el2.e = (el0.a * (1 + el0.e) - q) / 2 := by linarith
    have e1 : ((el0.a * (1 + el0.e) - q) / (el0.a * (1 + el0.e))) • ((-(el0.a * (1 + el0.e))) • u) =
        (-(2 * el2.a * el2.e)) • u := by
      rw [V3.smul_smul]; congr 1
      have : 2 * el2.a * el2.e = el0.a * (1 + el0.e) - q := by linarith
      rw [this]
      have := p2.ne'
      generalize el0.a * (1 + el0.e) = x at *
      field_simp
    rw [e1, show q + el0.a * (1 + el0.e) = 2 * el2.a by linarith]
    rw [show 3 * π - π = 2 * π by ring] at o1
    exact o1

/-- The plane and the apse line of positions with any argument of periapsis. -/
theorem conicUnit_frame (o : Orient) (x : ℝ) : ∃ u w : V3, V3.dot u u = 1 ∧ V3.dot w w = 1 ∧ V3.dot u w = 0 ∧
    ∀ t, conicUnit o (t + x) = cos t • u + sin t • V3.cross w u := by
  obtain ⟨i, W, om⟩ := o
  have s1 := sin_sq_add_cos_sq i; have s2 := sin_sq_add_cos_sq W; have s3 := sin_sq_add_cos_sq x
  refine ⟨conicUnit ⟨i, W, om⟩ x, ⟨sin W * sin i, -(cos W * sin i), cos i⟩, ?_, ?_, ?_, ?_⟩
  · simp only [conicUnit, V3.dot]
    linear_combination (cos x ^ 2 + cos i ^ 2 * sin x ^ 2) * s2 + sin x ^ 2 * s1 + s3
  · simp only [V3.dot]
    linear_combination sin i ^ 2 * s2 + s1
  · simp only [conicUnit, V3.dot]
    linear_combination (-(cos i * sin x * sin i)) * s2
  · intro t
    ext <;> simp only [conicUnit, V3.cross, V3.add_x, V3.add_y, V3.add_z, V3.smul_x, V3.smul_y, V3.smul_z, sin_add, cos_add]
    · linear_combination sin t * cos W * sin x * s1
    · linear_combination sin t * sin W * sin x * s1
    · linear_combination (-(sin t * sin i * cos x)) * s2

/-- The angular momentum of computed elements. -/
theorem elementsOf_h {P : Planet} {r v fpa : ℝ} {R U : V3} {el : Elements} (h : elementsOf P r v fpa R U = some el) :
    0 ≤ el.h ∧ el.h ^ 2 = el.a * P.GM * (1 - el.e ^ 2) := by
  unfold elementsOf at h
  simp only [Option.bind_eq_bind, Option.bind_eq_some_iff] at h
  obtain ⟨a, -, e, -, hh, h3, eU, -, o, -, h6⟩ := h
  obtain rfl := Option.some.inj h6
  unfold npSqrt at h3
  split at h3
  · rw [← Option.some.inj h3]
    exact ⟨sqrt_nonneg _, sq_sqrt (by assumption)⟩
  · exact absurd h3 (by simp)

/-- C136, deflection of the orbiter: on every bound deflected orbit the stored positions start at the reported periapsis
distance, run once around an ellipse with the reported periapsis and apoapsis distances and end where they started. -/
theorem C136_deflected_orbit (O : Orbiter) (name : String) (hP : Planet.init name = .ok O.P) (self probe defl : Elements)
    (th dV : ℝ) (hd : O.deflElements self probe th dV = some defl) (hh : 0 < defl.h) (he : |defl.e| < 1) (n : ℕ) (hn : 2 ≤ n) :
    ∃ w Rp : V3, V3.norm Rp = defl.a * (1 - defl.e) ∧ V3.norm w = 1 ∧
      Spec.Sweep O.P.RP (2 * π / ((n : ℝ) - 1)) w ((-(2 * defl.e / (1 - defl.e))) • Rp)
        (defl.a * (1 - defl.e) + defl.a * (1 + defl.e)) n (O.deflArr self defl n) ∧
      Spec.At O.P.RP (O.deflArr self defl n) 0 Rp ∧ Spec.At O.P.RP (O.deflArr self defl n) (n - 1) Rp := by
  obtain ⟨_, hRP, hGM, _⟩ := C01_planet_consistent name O.P hP
  have hel : 0 ≤ defl.h ∧ defl.h ^ 2 = defl.a * O.P.GM * (1 - defl.e ^ 2) := by
    unfold Orbiter.deflElements burnElements at hd
    simp only [Option.bind_eq_bind, Option.bind_eq_some_iff] at hd
    obtain ⟨R, -, U, -, U2, -, f, -, h⟩ := hd
    exact elementsOf_h h
  obtain ⟨e0, e1⟩ := abs_lt.mp he
  have he2 : 0 < 1 - defl.e ^ 2 := by nlinarith
  have ha : 0 < defl.a := by
    by_contra hn
    have h2 : 0 < defl.h ^ 2 := by positivity
    rw [hel.2] at h2
    have : defl.a * O.P.GM * (1 - defl.e ^ 2) ≤ 0 := by
      have := mul_nonpos_of_nonpos_of_nonneg (not_lt.mp hn) (mul_pos hGM he2).le
      linarith
    linarith
  obtain ⟨u, w, uu, ww, uw, hfr⟩ := conicUnit_frame defl.o self.o.omega
  have hp : defl.h ^ 2 / O.P.GM = defl.a * (1 - defl.e ^ 2) := by rw [hel.2]; field_simp
  have hpos : ∀ t, posDefl O.P.GM self defl t = some (cPos (defl.h ^ 2 / O.P.GM) defl.e u (V3.cross w u) t) := by
    intro t
    unfold posDefl
    rw [npDiv_some (conic_rad (t := t) e0 e1 ha hp).1.ne']
    simp only [bind, Option.bind, pure, hfr]
    rfl
  obtain ⟨s1, s2, s3⟩ := sweep_of (P := O.P) hRP uu ww uw e0 e1 ha hp hpos 0 (2 * π) hn
  have hper : cPos (defl.h ^ 2 / O.P.GM) defl.e u (V3.cross w u) (2 * π) =
      cPos (defl.h ^ 2 / O.P.GM) defl.e u (V3.cross w u) 0 := by
    unfold cPos; rw [cos_two_pi, sin_two_pi, cos_zero, sin_zero]
  rw [hper] at s3
  have hc0 : cPos (defl.h ^ 2 / O.P.GM) defl.e u (V3.cross w u) 0 = (defl.a * (1 - defl.e)) • u := by
    unfold cPos
    rw [hp, cos_zero, sin_zero]
    have : 0 < 1 + defl.e := by linarith
    rw [show defl.a * (1 - defl.e ^ 2) / (1 + defl.e * 1) = defl.a * (1 - defl.e) by field_simp; ring]
    congr 1; ext <;> simp
  rw [hc0] at s2 s3
  have hem : 0 < 1 - defl.e := by linarith
  refine ⟨w, _, ?_, V3.norm_of_dot_one ww, ?_, s2, s3⟩
  · rw [V3.norm_smul, V3.norm_of_dot_one uu, abs_of_pos (mul_pos ha hem), mul_one]
  · have h1 : (-(2 * defl.e / (1 - defl.e))) • ((defl.a * (1 - defl.e)) • u) = (-(2 * defl.a * defl.e)) • u := by
      rw [V3.smul_smul]; congr 1; field_simp
    rw [h1, show defl.a * (1 - defl.e) + defl.a * (1 + defl.e) = 2 * defl.a by ring]
    rw [sub_zero] at s1
    exact s1

/-- C136, finding: on an unbound deflected orbit the stored positions still run through all anomalies from `0` to `2 π`.  For an
odd number of positions the one in the middle lies on the ray from the centre through the periapsis, but farther out than the
periapsis, where the orbiter never comes: no position with an anomaly between the asymptotes is there. -/
theorem C136_escape_wrong_branch (O : Orbiter) (name : String) (hP : Planet.init name = .ok O.P) (self defl : Elements)
    (hh : 0 < defl.h) (he : 1 < defl.e) (k : ℕ) (hk : 1 ≤ k) :
    ∃ Rp S : V3, Spec.At O.P.RP (O.deflArr self defl (2 * k + 1)) 0 Rp ∧ Spec.At O.P.RP (O.deflArr self defl (2 * k + 1)) k S ∧
      Rp ≠ 0 ∧ ∃ c : ℝ, 1 < c ∧ S = c • Rp ∧ ∀ t, 0 < 1 + defl.e * cos t → posDefl O.P.GM self defl t ≠ some S := by
  obtain ⟨_, hRP, hGM, _⟩ := C01_planet_consistent name O.P hP
  obtain ⟨u, w, uu, ww, uw, hfr⟩ := conicUnit_frame defl.o self.o.omega
  obtain ⟨p, hp⟩ : ∃ p, p = defl.h ^ 2 / O.P.GM := ⟨_, rfl⟩
  have hp0 : 0 < p := by rw [hp]; positivity
  have hpos : ∀ t, 1 + defl.e * cos t ≠ 0 →
      posDefl O.P.GM self defl t = some ((p / (1 + defl.e * cos t)) • (cos t • u + sin t • V3.cross w u)) := by
    intro t ht
    unfold posDefl
    rw [npDiv_some ht]
    simp only [bind, Option.bind, pure, hfr, ← hp]
  have hem : 0 < defl.e - 1 := by linarith
  have hep : 0 < 1 + defl.e := by linarith
  have h0 : posDefl O.P.GM self defl 0 = some ((p / (1 + defl.e)) • u) := by
    rw [hpos 0 (by rw [cos_zero]; linarith), cos_zero, sin_zero, mul_one]
    congr 2; ext <;> simp
  have hpi : posDefl O.P.GM self defl π = some ((p / (defl.e - 1)) • u) := by
    rw [hpos π (by rw [cos_pi]; intro h; linarith), cos_pi, sin_pi]
    congr 1
    have : p / (1 + defl.e * -1) = -(p / (defl.e - 1)) := by
      rw [show 1 + defl.e * -1 = -(defl.e - 1) by ring, div_neg]
    rw [this]
    ext <;> simp
  have hkR : (1:ℝ) ≤ k := by exact_mod_cast hk
  refine ⟨(p / (1 + defl.e)) • u, (p / (defl.e - 1)) • u, ?_, ?_, ?_, (1 + defl.e) / (defl.e - 1), ?_, ?_, ?_⟩
  · apply orbitArr_get _ _ _ _ (by omega)
    simpa using h0
  · apply orbitArr_get _ _ _ _ (by omega)
    have : (0:ℝ) + (k:ℝ) * ((2 * π - 0) / (((2 * k + 1 : ℕ) : ℝ) - 1)) = π := by
      push_cast; field_simp; ring
    rw [this]; exact hpi
  · intro h
    have h1 := congrArg V3.norm h
    rw [V3.norm_smul, V3.norm_of_dot_one uu, V3.norm_eq_zero.mpr rfl, abs_of_pos (by positivity), mul_one] at h1
    have : 0 < p / (1 + defl.e) := by positivity
    linarith
  · rw [lt_div_iff₀ hem]; linarith
  · rw [V3.smul_smul]; congr 1; field_simp
  · intro t ht hS
    rw [hpos t ht.ne'] at hS
    have hv := Option.some.inj hS
    have hn : V3.norm (cos t • u + sin t • V3.cross w u) = 1 := by
      apply V3.norm_of_dot_one; rw [(polar_pair uu ww uw t t).1, sub_self, cos_zero]
    have h1 := congrArg V3.norm hv
    rw [V3.norm_smul, V3.norm_smul, hn, V3.norm_of_dot_one uu, abs_of_pos (by positivity), abs_of_pos (by positivity)] at h1
    have h2 := congrArg (fun x => V3.dot x u) hv
    have h3 := (polar_pair uu ww uw t 0).1
    rw [cos_zero, sin_zero, zero_sub, cos_neg, show (1:ℝ) • u + (0:ℝ) • V3.cross w u = u by ext <;> simp] at h3
    simp only [V3.dot_smul_left, h3, uu, mul_one] at h2 h1
    rw [h1] at h2
    have hq : 0 < p / (defl.e - 1) := by positivity
    have hct : cos t = 1 := by
      have : p / (defl.e - 1) * (cos t - 1) = 0 := by linarith
      rcases mul_eq_zero.mp this with h | h <;> linarith
    rw [hct, mul_one, div_eq_div_iff (by linarith) (by linarith)] at h1
    nlinarith

/-- Case for `C136_propulsive_orbit`: the polar arrival at Earth, 601 positions. -/
example : ∃ (A : Approach) (O : PropOrbiter) (arr : List (Option V3)), Approach.init "EARTH" ⟨0, 10 * 1, 0⟩ 6771e3 0 false none = .ok A ∧
    PropOrbiter.init A 35786 = .ok O ∧ O.orbitTraj 601 = some arr ∧ arr.length = 601 ∧ arr[0]? = arr[600]? := by
  obtain ⟨A, Hv, hA, hv, hH, hne, hra⟩ := earth_capture
  obtain ⟨O, arr, Rp, h1, h2, -, -, h3, h4, h5⟩ :=
    C136_propulsive_orbit "EARTH" _ 6771e3 0 35786 none A Hv hA hv (by norm_num) hH hne _ hra rfl 601 (by norm_num)
  exact ⟨A, O, arr, hA, h1, h2, h3.length, h4.trans h5.symm⟩

/-- Case for `C136_aerocapture_orbit_partial`: the exit at Mars with a periapsis raised to 400 km altitude. -/
example : ∃ (O : Orbiter) (coast orb : List (Option V3)), Planet.init "MARS" = .ok O.P ∧ O.coastArr 301 = some coast ∧
    O.orbitTraj 601 = some orb ∧ Spec.At O.P.RP coast 0 ⟨3509500, 0, 0⟩ ∧ coast[300]? = orb[0]? := by
  obtain ⟨O, hP, hr, hq, -, h⟩ := mars_exit 400 (by norm_num)
  obtain ⟨hE, hy, hecc, hout, hR, -⟩ := h _ _ rfl rfl
  obtain ⟨coast, orb, Ap, S, ra, d, c1, c2, -, -, -, -, -, s0, -, s2, s3, -, -, o1, -⟩ :=
    C136_aerocapture_orbit_partial "MARS" O hP hr _ _ rfl rfl hE (Or.inr hy) hecc _ rfl hq 301 601 (by norm_num) (by norm_num)
      _ rfl _ rfl
  have hS := (s2 hout).trans hR
  subst hS
  exact ⟨O, coast, orb, hP, c1, c2, s0, s3.trans o1.symm⟩

/-- Case for `C136_deflected_orbit`: the deflection without a burn of `C117_zero_burn`. -/
example : ∃ (O : Orbiter) (self probe defl : Elements), Planet.init "MARS" = .ok O.P ∧ O.deflElements self probe π 0 = some defl ∧
    0 < defl.h ∧ |defl.e| < 1 := by
  obtain ⟨O, R1, U1, U2, hP, h, -⟩ := mars_release (π / 2)
  obtain ⟨_, hRP, hGM, _⟩ := C01_planet_consistent "MARS" O.P hP
  obtain ⟨self, probe, defl, R, h1, h2, h3, -, h5, h6, -⟩ := C117_zero_burn "MARS" O hP R1 U1 U2 h
  obtain ⟨el, probe', u, w, up, F⟩ := release_facts hP h
  obtain rfl : probe' = probe := Option.some.inj (F.elements.symm.trans h2)
  have ha : 0 < defl.a := by rw [h5]; exact F.S.ok.apos
  refine ⟨O, self, probe', defl, hP, h3, h6, ?_⟩
  unfold Orbiter.deflElements burnElements at h3
  simp only [Option.bind_eq_bind, Option.bind_eq_some_iff] at h3
  obtain ⟨_, -, _, -, _, -, _, -, h7⟩ := h3
  have h8 := (elementsOf_h h7).2
  rw [← sq_lt_one_iff_abs_lt_one]
  by_contra hn
  have : defl.a * O.P.GM * (1 - defl.e ^ 2) ≤ 0 :=
    mul_nonpos_of_nonneg_of_nonpos (by positivity) (by linarith)
  have : 0 < defl.h ^ 2 := by positivity
  linarith

/-- Case for `C136_escape_wrong_branch`: a hyperbola at Mars with eccentricity 2. -/
example : ∃ (O : Orbiter) (defl : Elements), Planet.init "MARS" = .ok O.P ∧ 0 < defl.h ∧ 1 < defl.e := by
  obtain ⟨O, hP, -⟩ := mars_exit 400 (by norm_num)
  exact ⟨O, ⟨-4000000, 2, 22669346, ⟨1, 1, 1⟩⟩, hP, by norm_num, by norm_num⟩

end AMAT.Props
