import Verif.Props.ArrivalFlown
import Verif.Props.ManeuverProps

/-
Property C151: flights after a deflection manoeuvre.  The probe, and the spacecraft after the burn, reach their target points
after the reported times of flight; the target point of the spacecraft is not the periapsis of its orbit.
-/

noncomputable section

open Real

namespace AMAT.Props

open Real AMAT AMAT.Spec AMAT.Lits

/-- The angular momentum of a two-body motion is constant. -/
theorem cross_const {GM : ℝ} {R U : ℝ → V3} (h : TwoBodyMotion GM R U) (t : ℝ) :
    V3.cross (R t) (U t) = V3.cross (R 0) (U 0) := by
  have key : ∀ f : ℝ → ℝ, (∀ s, HasDerivAt f 0 s) → f t = f 0 := fun f hf =>
    is_const_of_deriv_eq_zero (fun s => (hf s).differentiableAt) (fun s => (hf s).deriv) t 0
  ext
  · refine key (fun s => (V3.cross (R s) (U s)).x) fun s => ?_
    obtain ⟨⟨rx, ry, rz⟩, ux, uy, uz⟩ := h s
    refine ((ry.mul uz).sub (rz.mul uy)).congr_deriv ?_
    simp only [V3.smul_y, V3.smul_z]; ring
  · refine key (fun s => (V3.cross (R s) (U s)).y) fun s => ?_
    obtain ⟨⟨rx, ry, rz⟩, ux, uy, uz⟩ := h s
    refine ((rz.mul ux).sub (rx.mul uz)).congr_deriv ?_
    simp only [V3.smul_x, V3.smul_z]; ring
  · refine key (fun s => (V3.cross (R s) (U s)).z) fun s => ?_
    obtain ⟨⟨rx, ry, rz⟩, ux, uy, uz⟩ := h s
    refine ((rx.mul uy).sub (ry.mul ux)).congr_deriv ?_
    simp only [V3.smul_x, V3.smul_y]; ring

/-- A motion with angular momentum does not meet the centre. -/
theorem out_of_cross {GM : ℝ} {R U : ℝ → V3} (h : TwoBodyMotion GM R U) (h0 : V3.cross (R 0) (U 0) ≠ 0) (t : ℝ) :
    0 < V3.norm (R t) := by
  apply V3.norm_pos
  intro hz
  apply h0
  rw [← cross_const h t, hz]
  ext <;> simp [V3.cross]

theorem motion_shift {GM : ℝ} {R U : ℝ → V3} (h : TwoBodyMotion GM R U) (c : ℝ) :
    TwoBodyMotion GM (fun t => R (t + c)) (fun t => U (t + c)) := by
  intro t
  obtain ⟨⟨rx, ry, rz⟩, ux, uy, uz⟩ := h (t + c)
  exact ⟨⟨rx.comp_add_const t c, ry.comp_add_const t c, rz.comp_add_const t c⟩, ux.comp_add_const t c, uy.comp_add_const t c,
    uz.comp_add_const t c⟩

/-- Every motion from the start of a transfer with angular momentum makes the transfer. -/
theorem transfer_all {GM : ℝ} {R1 V1 R2 : V3} {T : ℝ} (h : Transfer GM R1 V1 R2 T) (hc : V3.cross R1 V1 ≠ 0) :
    (∃ R U, StartsAt GM R1 V1 R U) ∧ ∀ R U, StartsAt GM R1 V1 R U → R T = R2 := by
  obtain ⟨M, N, m1, m2, m3, m4, -⟩ := h
  refine ⟨⟨M, N, m1, m2, m3⟩, fun R U hRU => ?_⟩
  rw [← m4]
  exact (twoBody_unique hRU.1 m1 (out_of_cross hRU.1 (by rw [hRU.2.1, hRU.2.2]; exact hc)) 0
    (hRU.2.1.trans m2.symm) (hRU.2.2.trans m3.symm) T).1

/-- A motion with the excess speed `V` that has no radial speed at the distance `ρ`: where it is at any other time. -/
theorem peri_conic {GM : ℝ} (hGM : 0 < GM) {R U : ℝ → V3} (h : TwoBodyMotion GM R U) {T ρ V : ℝ} (hρ : 0 < ρ) (hV : 0 < V)
    (hR : V3.norm (R T) = ρ) (hp : V3.dot (R T) (U T) = 0) (hE : energy GM (R T) (U T) = V ^ 2 / 2) (s : ℝ) :
    ρ * V3.norm (R s) + (1 + ρ * V ^ 2 / GM) * V3.dot (R s) (R T) = ρ ^ 2 * (2 + ρ * V ^ 2 / GM) := by
  set y := V3.norm (U T) with hy
  have hy2 : y ^ 2 = V ^ 2 + 2 * GM / ρ := by
    unfold energy at hE
    rw [hR, ← hy] at hE
    linear_combination 2 * hE
  have hy0 : 0 < y := by
    refine lt_of_le_of_ne (V3.norm_nonneg _) fun h0 => ?_
    rw [← h0] at hy2
    have : 0 < V ^ 2 + 2 * GM / ρ := by positivity
    rw [← hy2] at this
    norm_num at this
  set e := 1 + ρ * V ^ 2 / GM with he
  have he1 : 1 < e := by have : 0 < ρ * V ^ 2 / GM := by positivity
                         linarith
  set u := (1 / ρ) • R T with hu
  set w := (1 / (ρ * y)) • V3.cross (R T) (U T) with hw
  have hRR : V3.dot (R T) (R T) = ρ ^ 2 := by rw [← V3.norm_sq, hR]
  have hUU : V3.dot (U T) (U T) = y ^ 2 := by rw [← V3.norm_sq]
  have uu : V3.dot u u = 1 := by rw [hu, V3.dot_smul_left, V3.dot_smul_right, hRR]; field_simp
  have ww : V3.dot w w = 1 := by
    rw [hw, V3.dot_smul_left, V3.dot_smul_right, V3.dot_cross_self, hRR, hUU, hp]; field_simp; ring
  have uw : V3.dot u w = 0 := by rw [hu, hw, V3.dot_smul_left, V3.dot_smul_right, V3.dot_cross_left]; ring
  have hq : V3.cross w u = (1 / y) • U T := by
    have id1 : V3.cross (V3.cross (R T) (U T)) (R T) = V3.dot (R T) (R T) • U T - V3.dot (R T) (U T) • R T := by
      ext <;> simp only [V3.cross, V3.dot, V3.sub_x, V3.sub_y, V3.sub_z, V3.smul_x, V3.smul_y, V3.smul_z] <;> ring
    rw [hu, hw, V3.cross_smul_left, V3.cross_smul_right, id1, hp, hRR]
    ext <;> simp only [V3.sub_x, V3.sub_y, V3.sub_z, V3.smul_x, V3.smul_y, V3.smul_z] <;> field_simp <;> ring
  have hpar : (ρ * y) ^ 2 / GM = ρ * (1 + e) := by
    rw [mul_pow, hy2, he]; field_simp; ring
  have i1 : cPos ((ρ * y) ^ 2 / GM) e u (V3.cross w u) 0 = R T := by
    unfold cPos
    rw [hpar, cos_zero, sin_zero, mul_one, mul_div_cancel_right₀ _ (by linarith), hu]
    ext <;> simp only [V3.add_x, V3.add_y, V3.add_z, V3.smul_x, V3.smul_y, V3.smul_z] <;> field_simp <;> ring
  have i2 : cVel (GM / (ρ * y)) e u (V3.cross w u) 0 = U T := by
    unfold cVel
    rw [cos_zero, sin_zero, hq]
    have : GM / (ρ * y) * (e + 1) * (1 / y) = 1 := by
      have h1 : GM * (e + 1) = ρ * y ^ 2 := by rw [hy2, he]; field_simp; ring
      field_simp
      linarith
    ext <;> simp only [V3.add_x, V3.add_y, V3.add_z, V3.smul_x, V3.smul_y, V3.smul_z]
    · linear_combination (U T).x * this
    · linear_combination (U T).y * this
    · linear_combination (U T).z * this
  obtain ⟨-, hcl⟩ := hyper_clock (e := e) hGM (mul_pos hρ hy0) he1 uu ww uw
  obtain ⟨τ, -, -, ts, tc⟩ := hcl _ _ (motion_shift h T) (by rw [zero_add, i1]) (by rw [zero_add, i2])
  obtain ⟨t, ht, hts⟩ := ts (s - T)
  have hc := asym_pos he1 ht
  have hst : R s = cPos ((ρ * y) ^ 2 / GM) e u (V3.cross w u) t := by
    rw [← (tc t ht).1, hts, sub_add_cancel]
  have uq : V3.dot u (V3.cross w u) = 0 := V3.dot_cross_right _ _
  have qq : V3.dot (V3.cross w u) (V3.cross w u) = 1 := by rw [V3.dot_cross_self, ww, uu, V3.dot_comm, uw]; norm_num
  have hun : V3.dot (cos t • u + sin t • V3.cross w u) (cos t • u + sin t • V3.cross w u) = 1 := by
    have : V3.dot (cos t • u + sin t • V3.cross w u) (cos t • u + sin t • V3.cross w u) =
        cos t ^ 2 * V3.dot u u + 2 * (cos t * sin t) * V3.dot u (V3.cross w u) + sin t ^ 2 * V3.dot (V3.cross w u) (V3.cross w u) := by
      simp only [V3.dot, V3.add_x, V3.add_y, V3.add_z, V3.smul_x, V3.smul_y, V3.smul_z]; ring
    rw [this, uu, uq, qq]; linarith [sin_sq_add_cos_sq t]
  have hdu : V3.dot (cos t • u + sin t • V3.cross w u) u = cos t := by
    have : V3.dot (cos t • u + sin t • V3.cross w u) u = cos t * V3.dot u u + sin t * V3.dot u (V3.cross w u) := by
      simp only [V3.dot, V3.add_x, V3.add_y, V3.add_z, V3.smul_x, V3.smul_y, V3.smul_z]; ring
    rw [this, uu, uq]; ring
  have hRT : R T = ρ • u := by rw [hu, V3.smul_smul, mul_one_div_cancel hρ.ne']; ext <;> simp
  have hpp : 0 < ρ * (1 + e) / (1 + e * cos t) := by positivity
  rw [hst]
  unfold cPos
  rw [hpar, V3.norm_smul, V3.norm_of_dot_one hun, abs_of_pos hpp, hRT, V3.dot_smul_left, V3.dot_smul_right, hdu]
  have : 2 + ρ * V ^ 2 / GM = 1 + e := by rw [he]; ring
  rw [this]
  field_simp

theorem cross_of_transfer {GM : ℝ} {R1 V1 R2 : V3} {T : ℝ} (h : Transfer GM R1 V1 R2 T) (hc : V3.cross R1 R2 ≠ 0) :
    V3.cross R1 V1 ≠ 0 := by
  obtain ⟨M, N, -, -, -, m4, f, g, -, -, m5, -⟩ := h
  intro h0
  apply hc
  rw [← m4, m5]
  have : V3.cross R1 (f • R1 + g • V1) = g • V3.cross R1 V1 := by
    ext <;> simp only [V3.cross, V3.add_x, V3.add_y, V3.add_z, V3.smul_x, V3.smul_y, V3.smul_z] <;> ring
  rw [this, h0]
  ext <;> simp

/-- A motion that is not moving across the radius passes closer to the centre. -/
theorem lower_pass {GM : ℝ} {R U : ℝ → V3} (h : TwoBodyMotion GM R U) {T : ℝ} (hp : V3.dot (R T) (U T) ≠ 0) :
    ∃ s, V3.norm (R s) < V3.norm (R T) := by
  by_contra hc
  push Not at hc
  have hd : HasDerivAt (fun s => V3.dot (R s) (R s)) (2 * V3.dot (R T) (U T)) T := by
    obtain ⟨⟨rx, ry, rz⟩, -⟩ := h T
    refine (((rx.mul rx).add (ry.mul ry)).add (rz.mul rz)).congr_deriv ?_
    simp only [V3.dot]; ring
  have hm : IsLocalMin (fun s => V3.dot (R s) (R s)) T := Filter.Eventually.of_forall fun s => by
    change V3.dot (R T) (R T) ≤ V3.dot (R s) (R s)
    rw [← V3.norm_sq, ← V3.norm_sq]
    exact pow_le_pow_left₀ (V3.norm_nonneg _) (hc s) 2
  have := hm.hasDerivAt_eq_zero hd
  exact hp (by linarith)

/-- The manoeuvre point on the first arrival and the periapsis direction of the second, in the plane across the common
arrival direction. -/
theorem manoeuvre_dot {A S : Approach} {V e b h V' e' b' h' : ℝ} {d u w d' u' w' : V3} (H : ApproachCore A V e b h d u w)
    (H' : ApproachCore S V' e' b' h' d' u' w') (hP : S.P = A.P) (hv : S.vInfIcrfKms = A.vInfIcrfKms) {r a n k δ : ℝ}
    (L : LegCore A e h r a n k δ) :
    V3.dot (cPos (h ^ 2 / A.P.GM) e u (V3.cross w u) (-δ)) u' =
      r * (cos (b + δ) * cos b' + sin (b + δ) * (sin b' * cos (S.psi - A.psi))) := by
  have hbi : S.vInfBi = A.vInfBi := by unfold Approach.vInfBi Approach.vInfBiKms; rw [hP, hv]
  have h1 : S.phi1 = A.phi1 := by unfold Approach.phi1; rw [hbi]
  have h2 : S.phi2 = A.phi2 := by unfold Approach.phi2 Approach.vInfBiPrime; rw [h1, hbi]
  have hrot : ∀ X, S.biToBiDprime X = A.biToBiDprime X := fun X => by unfold Approach.biToBiDprime; rw [h1, h2]
  have hd : ∀ X Y, V3.dot (A.biToBiDprime X) (A.biToBiDprime Y) = V3.dot X Y := (dprime_rot A).dot
  have huu : V3.dot u u' = sin b * sin b' * cos (S.psi - A.psi) + cos b * cos b' := by
    have q := H'.udp
    rw [hrot] at q
    rw [← hd, H.udp, q, cos_sub]
    simp only [V3.dot]; ring
  have hdu : V3.dot d u' = cos b' := by
    have q := H'.udp
    rw [hrot] at q
    rw [← hd, H.ddp, q]
    simp only [V3.dot]; ring
  have hsb := H.sb
  have hq : sin b * V3.dot (V3.cross w u) u' = V3.dot d u' - cos b * V3.dot u u' := by
    have e1 : sin b * V3.dot (V3.cross w u) u' = V3.dot (V3.cross (sin b • w) u) u' := by
      rw [V3.cross_smul_left, V3.dot_smul_left]
    have e2 : V3.dot (V3.cross (V3.cross u d) u) u' = V3.dot u u * V3.dot d u' - V3.dot u d * V3.dot u u' := by
      simp only [V3.cross, V3.dot]; ring
    rw [e1, ← H.ws, e2, H.uu, H.ud, one_mul]
  have hq' : V3.dot (V3.cross w u) u' = sin b * cos b' - cos b * (sin b' * cos (S.psi - A.psi)) := by
    apply mul_left_cancel₀ hsb.ne'
    rw [hq, hdu, huu]
    linear_combination (- cos b') * sin_sq_add_cos_sq b
  have hrad : h ^ 2 / A.P.GM / (1 + e * cos (-δ)) = r := by rw [L.semi, cos_neg, ← L.hr]
  unfold cPos
  rw [hrad, V3.dot_smul_left]
  congr 1
  have : V3.dot (cos (-δ) • u + sin (-δ) • V3.cross w u) u' = cos (-δ) * V3.dot u u' + sin (-δ) * V3.dot (V3.cross w u) u' := by
    simp only [V3.dot, V3.add_x, V3.add_y, V3.add_z, V3.smul_x, V3.smul_y, V3.smul_z]; ring
  rw [this, huu, hq', cos_neg, sin_neg, cos_add, sin_add]
  ring

theorem esin {A : Approach} {V e b h : ℝ} {d u w : V3} (H : ApproachCore A V e b h d u w) : A.P.GM * (e * sin b) = V * h := by
  have hg := H.gm; have he := H.e1; have hs := H.sb; have hV := H.vpos; have hh := H.hpos
  apply (pow_left_inj₀ (by positivity) (by positivity) two_ne_zero).mp
  have c1 : e * cos b = 1 := by rw [H.cb]; field_simp
  have h1 : (e * sin b) ^ 2 = e ^ 2 - 1 := by
    have := sin_sq_add_cos_sq b
    linear_combination e ^ 2 * this - (e * cos b + 1) * c1
  have h2 : A.P.GM * (e - 1) = A.rp * V ^ 2 := by rw [H.heq]; field_simp; ring
  rw [mul_pow, h1, mul_pow, H.hsq]
  linear_combination A.P.GM * (1 + e) * h2

/-- The condition under which the periapsis of the second arrival would be the periapsis of an orbit through the manoeuvre
point does not hold when the second periapsis is not lower than the first. -/
theorem not_apse {A S : Approach} {V e b h V' e' b' h' : ℝ} {d u w d' u' w' : V3} (H : ApproachCore A V e b h d u w)
    (H' : ApproachCore S V' e' b' h' d' u' w') (hP : S.P = A.P) (hv : S.vInfIcrfKms = A.vInfIcrfKms) {r a n k δ : ℝ}
    (L : LegCore A e h r a n k δ) (hle : A.rp ≤ S.rp) (hns : ¬ (A.rp = S.rp ∧ cos (S.psi - A.psi) = 1)) {R U : ℝ → V3} {T : ℝ}
    (hm : TwoBodyMotion A.P.GM R U) (h0 : R 0 = cPos (h ^ 2 / A.P.GM) e u (V3.cross w u) (-δ)) (hT : R T = S.rp • u')
    (hE : energy A.P.GM (R T) (U T) = V ^ 2 / 2) : V3.dot (R T) (U T) ≠ 0 := by
  intro hp
  have hg := H.gm; have hV := H.vpos; have hrp := H.rp; have hrs := H'.rp; have he := H.e1; have he' := H'.e1
  have hh := H.hpos; have hh' := H'.hpos
  have hVV : V' = V := by rw [H'.hV, H.hV]; unfold Approach.vInfMag; rw [hv]
  have hr0 := L.rpos
  have hn : V3.norm (R T) = S.rp := by
    rw [hT, V3.norm_smul, V3.norm_of_dot_one H'.uu, mul_one, abs_of_pos hrs]
  have key := peri_conic hg hm hrs hV hn hp hE 0
  have hee : e' = 1 + S.rp * V ^ 2 / A.P.GM := by rw [H'.heq, hVV, hP]
  rw [h0, L.rnorm H, hT, V3.dot_smul_right, manoeuvre_dot H H' hP hv L, ← hee,
    show 2 + S.rp * V ^ 2 / A.P.GM = 1 + e' by rw [hee]; ring] at key
  set κ := cos (S.psi - A.psi) with hκ
  have hκ1 : κ ≤ 1 := cos_le_one _
  have c1 : e * cos b = 1 := by rw [H.cb]; field_simp
  have c1' : e' * cos b' = 1 := by rw [H'.cb]; field_simp
  have s1 := esin H
  have s1' := esin H'
  rw [hP, hVV] at s1'
  -- the second orbit
  have k2 : r * (1 + cos (b + δ) + e' * sin b' * κ * sin (b + δ)) = S.rp * (1 + e') := by
    apply mul_left_cancel₀ hrs.ne'
    linear_combination key - S.rp * r * cos (b + δ) * c1'
  -- the first orbit
  have k1 : r * (1 + cos (b + δ) + e * sin b * sin (b + δ)) = A.rp * (1 + e) := by
    have hrad : h ^ 2 / A.P.GM / (1 + e * cos (-δ)) = r := by rw [L.semi, cos_neg, ← L.hr]
    have hd := L.den'
    rw [div_eq_iff hd.ne', H.hsq, cos_neg] at hrad
    have h1 : A.P.GM * A.rp * (1 + e) / A.P.GM = A.rp * (1 + e) := by field_simp
    rw [h1] at hrad
    have h2 : e * cos δ = cos (b + δ) + e * sin b * sin (b + δ) := by
      rw [cos_add, sin_add]
      linear_combination (e * cos δ) * (-1) * sin_sq_add_cos_sq b + (cos b * cos δ - sin b * sin δ) * c1
    rw [hrad, h2]; ring
  set sA := sin (b + δ) with hsA
  set cA := cos (b + δ) with hcA
  have hd0 := L.d0; have hb0 := H.b0
  have hin : δ < π - b := by
    have h1 : -δ ∈ Set.Ioo (-asymptote e) (asymptote e) :=
      (asym_iff he (by linarith [L.dpi]) (by linarith [pi_pos])).mpr L.den'
    rw [asymptote_beta H.cb H.b0 H.bpi] at h1
    linarith [h1.1]
  have hsA0 : 0 < sA := sin_pos_of_pos_of_lt_pi (by linarith) (by linarith)
  have hcA1 : 0 < 1 + cA := by
    have h1 := sin_sq_add_cos_sq (b + δ)
    rw [← hsA, ← hcA] at h1
    have h2 : 0 < sA ^ 2 := by positivity
    have h3 : (1 + cA) * (1 - cA) = sA ^ 2 := by linear_combination -h1
    have h4 : 0 ≤ 1 + cA := by linarith [neg_one_le_cos (b + δ)]
    refine lt_of_le_of_ne h4 fun h5 => ?_
    rw [← h5, zero_mul] at h3
    linarith
  set x := V * r * sA with hx
  have hx0 : 0 < x := by positivity
  have m1 : h ^ 2 - x * h = A.P.GM * r * (1 + cA) := by
    rw [H.hsq, hx]
    linear_combination (-A.P.GM) * k1 + r * sA * s1
  have m2 : h' ^ 2 - x * κ * h' = A.P.GM * r * (1 + cA) := by
    rw [H'.hsq, hP, hx]
    linear_combination (-A.P.GM) * k2 + r * sA * κ * s1'
  have hpos : 0 < A.P.GM * r * (1 + cA) := by positivity
  have hxh : x < h := by
    have h1 : 0 < h * (h - x) := by rw [show h * (h - x) = h ^ 2 - x * h by ring, m1]; exact hpos
    linarith [(mul_pos_iff_of_pos_left hh).mp h1]
  have hsq : h ^ 2 + A.P.GM * (S.rp - A.rp) * (1 + e) ≤ h' ^ 2 := by
    rw [H.hsq, H'.hsq, hP]
    have : e ≤ e' := by
      rw [H.heq, hee]
      have : A.rp * V ^ 2 / A.P.GM ≤ S.rp * V ^ 2 / A.P.GM := by gcongr
      linarith
    have h2 : A.P.GM * S.rp * e ≤ A.P.GM * S.rp * e' := by gcongr
    linear_combination h2
  have hxx : x * κ * h' ≤ x * h' := by
    linear_combination mul_le_mul_of_nonneg_left hκ1 (mul_pos hx0 hh').le
  have hle' : h ≤ h' := by
    refine (pow_le_pow_iff_left₀ hh.le hh'.le two_ne_zero).mp ?_
    have : 0 ≤ A.P.GM * (S.rp - A.rp) * (1 + e) := mul_nonneg (mul_nonneg hg.le (by linarith)) (by linarith)
    linarith
  -- equality throughout
  have heq : h' = h := by
    by_contra hc
    have hlt : h < h' := lt_of_le_of_ne hle' (Ne.symm hc)
    have h1 := mul_pos (sub_pos.mpr hlt) (by linarith : 0 < h' + h - x)
    have h2 : (h' - h) * (h' + h - x) = x * κ * h' - x * h' := by linear_combination m2 - m1
    linarith
  apply hns
  constructor
  · rw [heq] at hsq
    have h1 : A.P.GM * (S.rp - A.rp) * (1 + e) ≤ 0 := by linarith
    by_contra hc
    have : A.rp < S.rp := lt_of_le_of_ne hle hc
    have : 0 < A.P.GM * (S.rp - A.rp) * (1 + e) := mul_pos (mul_pos hg (by linarith)) (by linarith)
    linarith
  · rw [heq] at m2
    have : x * h * (κ - 1) = 0 := by linear_combination m1 - m2
    rcases mul_eq_zero.mp this with h1 | h1
    · have := mul_pos hx0 hh; linarith
    · linarith

theorem energy_keeps {GM : ℝ} {R U : ℝ → V3} (h : TwoBodyMotion GM R U) (hpos : ∀ t, 0 < V3.norm (R t)) (t : ℝ) :
    energy GM (R t) (U t) = energy GM (R 0) (U 0) := by
  have hd : ∀ s, HasDerivAt (fun s => energy GM (R s) (U s)) 0 s := fun s => by
    have := (twoBody_rates h (hpos s)).2
    simpa only [energy, V3.norm_sq] using this
  exact is_const_of_deriv_eq_zero (fun s => (hd s).differentiableAt) (fun s => (hd s).deriv) t 0

/-- The undeflected flight: every motion through the manoeuvre state has its periapsis after the time of flight. -/
theorem undeflected {name : String} {v : V3} {rp psi : ℝ} {bb : Bool} {hEI : Option ℝ} {A : Approach} {Hv : V3}
    (hA : Approach.init name v rp psi bb hEI = .ok A) (hv : v ≠ 0) (hrp : 0 < rp) (hH : A.hVec = some Hv)
    (hne : Hv.x ≠ 0 ∨ Hv.y ≠ 0) {r th T : ℝ} {R1 V1 Rp : V3} (hr : A.rp < r) (hth : Maneuver.thetaDv A r = some th)
    (hR1 : Maneuver.rVecDv A r = some R1) (hV1 : A.velVec th = some V1) (hn : V3.norm Rp = rp)
    (hT : Transfer A.P.GM R1 V1 Rp T) :
    (∃ R U, StartsAt A.P.GM R1 V1 R U) ∧ ∀ R U, StartsAt A.P.GM R1 V1 R U →
      R T = Rp ∧ (∀ s, s ≠ T → rp < V3.norm (R s)) ∧
      Filter.Tendsto (fun s => V3.norm (U s - A.vInfBi)) Filter.atBot (nhds 0) := by
  obtain ⟨β, P0, U0, hβ, -, -, hP0, ⟨M, N, m⟩, k⟩ := C149_arrival_flown_partial name v rp psi bb hEI A Hv hA hv hrp hH hne
  obtain ⟨k1, k2, ⟨τ, -, -, -, k3⟩, -⟩ := k M N m
  obtain ⟨V, e, b, h, d, u, w, H, -, -⟩ := approach_facts hA hv hrp hH hne
  obtain ⟨a, n, kk, δ, L, -⟩ := leg_core H (r := r) hr
  have hδ : th = -δ := Option.some.inj (hth.symm.trans L.th)
  have hb : β = b := Option.some.inj (hβ.symm.trans H.hb)
  have hin : th ∈ Set.Ioc (-(π - β)) 0 := by
    have h1 : -δ ∈ Set.Ioo (-asymptote e) (asymptote e) :=
      (asym_iff H.e1 (by linarith [L.dpi]) (by linarith [pi_pos, L.d0])).mpr L.den'
    rw [asymptote_beta H.cb H.b0 H.bpi] at h1
    rw [hδ, hb]
    exact ⟨h1.1, by linarith [L.d0]⟩
  obtain ⟨q1, q2⟩ := k3 th hin
  set c := τ th
  have e1 : M c = R1 := by
    unfold Maneuver.rVecDv at hR1
    rw [hth] at hR1
    exact Option.some.inj (q1.symm.trans hR1)
  have e2 : N c = V1 := Option.some.inj (q2.symm.trans hV1)
  have hMpos : ∀ t, 0 < V3.norm (M t) := fun t => by
    by_cases ht : t = 0
    · rw [ht, m.2.1, hP0]; exact hrp
    · exact lt_trans hrp (k1 t ht)
  have hsh := motion_shift m.1 c
  have huniq : ∀ R U, StartsAt A.P.GM R1 V1 R U → ∀ t, M (t + c) = R t ∧ N (t + c) = U t := fun R U hs =>
    twoBody_unique hsh hs.1 (fun t => hMpos _) 0 (by rw [hs.2.1, zero_add, e1]) (by rw [hs.2.2, zero_add, e2])
  obtain ⟨M', N', t1, t2, t3, t4, -⟩ := hT
  have hc : T + c = 0 := by
    by_contra hc
    have h1 := k1 _ hc
    rw [(huniq M' N' ⟨t1, t2, t3⟩ T).1, t4, hn] at h1
    exact lt_irrefl _ h1
  refine ⟨⟨M', N', t1, t2, t3⟩, fun R U hs => ⟨?_, fun s hsT => ?_, ?_⟩⟩
  · rw [← (huniq R U hs T).1, (huniq M' N' ⟨t1, t2, t3⟩ T).1, t4]
  · rw [← (huniq R U hs s).1]
    exact k1 _ fun h0 => hsT (by linarith)
  · refine (k2.comp (Filter.tendsto_atBot_add_const_right _ c Filter.tendsto_id)).congr fun s => ?_
    simp only [Function.comp, id]
    rw [(huniq R U hs s).2]

/-- C151 for `ProbeOrbiterDeflection`: every two-body motion from the manoeuvre point with the velocity before the burn has come
from the arrival velocity and passes its periapsis, the aim point of the probe, `TOF_probe` days later.  Every motion from there
with that velocity plus the reported burn is at the aim point of the orbiter `TOF_space` days later.

Partial: the documentation calls that time the one until periapsis and `rp_space` the periapsis radius, which is
false (`C151_below_aim`); probe orbits in the equatorial plane, and an aim point in line with the planet and the manoeuvre point,
are excluded, as nothing is computed for them. -/
theorem C151_deflection_flown_partial (name : String) (v : V3) (rp psi rs ps ρ : ℝ) (hEI : Option ℝ) (D : ProbeOrbiter) (Hv : V3)
    (hD : ProbeOrbiter.init name v rp psi hEI rs ps ρ = .ok D) (hv : v ≠ 0) (hrp : 0 < rp) (hrs : 0 < rs)
    (hH : D.probe.hVec = some Hv) (hne : Hv.x ≠ 0 ∨ Hv.y ≠ 0) (hr : rp < ρ * D.P.RP) :
    ∃ (R1 V1 Rp Rs : V3) (T1 : ℝ), D.rVec = some R1 ∧ V3.norm R1 = ρ * D.P.RP ∧ D.vDvProbe = some V1 ∧
      D.probe.rpVec = some Rp ∧ D.space.rpVec = some Rs ∧ V3.norm Rp = rp ∧ V3.norm Rs = rs ∧ D.tofProbeDays = some T1 ∧ 0 < T1 ∧
      (∃ R U, StartsAt D.P.GM R1 V1 R U) ∧
      (∀ R U, StartsAt D.P.GM R1 V1 R U → R (T1 * 86400) = Rp ∧ (∀ s, s ≠ T1 * 86400 → rp < V3.norm (R s)) ∧
        Filter.Tendsto (fun s => V3.norm (U s - D.probe.vInfBi)) Filter.atBot (nhds 0)) ∧
      (V3.cross R1 Rs ≠ 0 → ∃ (dv : V3) (T2 : ℝ), D.dvVec = some dv ∧ D.dvMag = some (V3.norm dv) ∧ D.tofSpaceDays = some T2 ∧
        0 < T2 ∧ (∃ R U, StartsAt D.P.GM R1 (V1 + dv) R U) ∧
        ∀ R U, StartsAt D.P.GM R1 (V1 + dv) R U → R (T2 * 86400) = Rs) := by
  obtain ⟨R1, V1, Rp, Rs, T1, th, f1, f2, f3, f4, f5, f6, f7, f8, f9, f10, f11, -, -, f14, f15⟩ :=
    C57_probe_orbiter name v rp psi rs ps ρ hEI D Hv hD hv hrp hrs hH hne hr
  obtain ⟨hP, hA, hS, hρ⟩ := probeOrbiter_inv hD
  obtain ⟨aP, sP, av, sv, arp, srp, -, -⟩ := same_arrival hP hA hS
  have hrd : D.rDv = ρ * D.P.RP := by unfold ProbeOrbiter.rDv; rw [hρ]
  have hu := undeflected hA hv hrp hH hne (r := D.rDv) (by rw [arp, hrd]; exact hr) f10 f1 f11 f4 (by rw [aP]; exact f14)
  rw [aP] at hu
  refine ⟨R1, V1, Rp, Rs, T1, f1, f2, f7, f3, f5, f4, f6, f8, f9, hu.1, hu.2, fun hc => ?_⟩
  obtain ⟨V2, T2, g1, g2, g3, -, g5, g6, g7⟩ := f15 hc
  have hV2 : V1 + (V2 - V1) = V2 := by ext <;> simp
  refine ⟨V2 - V1, T2, g6, g7, g2, g3, ?_⟩
  rw [hV2]
  exact transfer_all g5 (cross_of_transfer g5 hc)

/-- The two arrivals of a manoeuvre, as used below. -/
theorem below_aim_core {name : String} {v : V3} {rp psi rs ps : ℝ} {b1 b2 : Bool} {h1 h2 : Option ℝ} {A S : Approach} {P : Planet}
    (hP : Planet.init name = .ok P) (hA : Approach.init name v rp psi b1 h1 = .ok A)
    (hS : Approach.init name v rs ps b2 h2 = .ok S) (hv : v ≠ 0) (hrp : 0 < rp) {Hv : V3}
    (hH : A.hVec = some Hv) (hne : Hv.x ≠ 0 ∨ Hv.y ≠ 0) {r : ℝ} (hr : rp < r) (hle : rp ≤ rs)
    (hns : ¬ (rp = rs ∧ cos (ps - psi) = 1)) {R1 V2 Rs : V3} {T : ℝ} (hR1 : Maneuver.rVecDv A r = some R1)
    (hRs : S.rpVec = some Rs) (hc : V3.cross R1 Rs ≠ 0)
    (hE : V3.norm V2 ^ 2 / 2 - P.GM / V3.norm R1 = (V3.norm v * 1e3) ^ 2 / 2) (hT : Transfer P.GM R1 V2 Rs T)
    {R U : ℝ → V3} (hs : StartsAt P.GM R1 V2 R U) :
    V3.dot (R T) (U T) ≠ 0 ∧ ∃ s, V3.norm (R s) < rs := by
  obtain ⟨aP, sP, av, sv, arp, srp, apsi, spsi⟩ := same_arrival hP hA hS
  have hrs : 0 < rs := by linarith
  obtain ⟨V, e, b, h, d, u, w, H⟩ := core_of hP aP hv av (by rw [arp]; exact hrp)
  obtain ⟨V', e', b', h', d', u', w', H'⟩ := core_of hP sP hv sv (by rw [srp]; exact hrs)
  have hw := core_w H hH hne
  obtain ⟨a, n, k, δ, L, -⟩ := leg_core H (r := r) (by rw [arp]; exact hr)
  have e1 : R1 = cPos (h ^ 2 / A.P.GM) e u (V3.cross w u) (-δ) := Option.some.inj (hR1.symm.trans (L.rvec H hw))
  have e2 : Rs = S.rp • u' := Option.some.inj (hRs.symm.trans (LegCore.rpVec H'))
  have hVe : V = V3.norm v * 1e3 := by rw [H.hV]; unfold Approach.vInfMag; rw [av]
  have hcr := cross_of_transfer hT hc
  have hRT := (transfer_all hT hcr).2 R U hs
  have hpos := out_of_cross hs.1 (by rw [hs.2.1, hs.2.2]; exact hcr)
  have hen : energy A.P.GM (R T) (U T) = V ^ 2 / 2 := by
    rw [aP, energy_keeps hs.1 hpos T, hs.2.1, hs.2.2, hVe]
    exact hE
  have hd := not_apse H H' (by rw [aP, sP]) (by rw [av, sv]) L (by rw [arp, srp]; exact hle) (by rw [arp, srp, apsi, spsi]; exact hns)
    (T := T) (by rw [aP]; exact hs.1) (by rw [hs.2.1, e1]) (by rw [hRT, e2]) hen
  refine ⟨hd, ?_⟩
  obtain ⟨s, hs'⟩ := lower_pass hs.1 hd
  refine ⟨s, ?_⟩
  rwa [hRT, e2, V3.norm_smul, V3.norm_of_dot_one H'.uu, mul_one, srp, abs_of_pos hrs] at hs'

/-- C151 fails for `ProbeOrbiterDeflection`: whenever the requested periapsis radius of the orbiter is above the one of the probe (or
equal to it, on another side of the planet), the orbiter still has a radial speed `TOF_space` days after the reported burn, and
passes the planet below the requested radius. -/
theorem C151_below_aim (name : String) (v : V3) (rp psi rs ps ρ : ℝ) (hEI : Option ℝ) (D : ProbeOrbiter) (Hv R1 V1 Rs dv : V3) (T2 : ℝ)
    (hD : ProbeOrbiter.init name v rp psi hEI rs ps ρ = .ok D) (hv : v ≠ 0) (hrp : 0 < rp) (hle : rp ≤ rs)
    (hns : ¬ (rp = rs ∧ cos (ps - psi) = 1))
    (hH : D.probe.hVec = some Hv) (hne : Hv.x ≠ 0 ∨ Hv.y ≠ 0) (hr : rp < ρ * D.P.RP) (hR1 : D.rVec = some R1)
    (hV1 : D.vDvProbe = some V1) (hRs : D.space.rpVec = some Rs) (hc : V3.cross R1 Rs ≠ 0) (hdv : D.dvVec = some dv)
    (hT2 : D.tofSpaceDays = some T2) (R U : ℝ → V3) (hs : StartsAt D.P.GM R1 (V1 + dv) R U) :
    V3.dot (R (T2 * 86400)) (U (T2 * 86400)) ≠ 0 ∧ ∃ s, V3.norm (R s) < rs := by
  obtain ⟨R1', V1', Rp, Rs', T1, th, f1, f2, f3, f4, f5, f6, f7, f8, f9, f10, f11, -, -, f14, f15⟩ :=
    C57_probe_orbiter name v rp psi rs ps ρ hEI D Hv hD hv hrp (by linarith) hH hne hr
  obtain ⟨hP, hA, hS, hρ⟩ := probeOrbiter_inv hD
  have hrd : D.rDv = ρ * D.P.RP := by unfold ProbeOrbiter.rDv; rw [hρ]
  obtain rfl := Option.some.inj (f1.symm.trans hR1)
  obtain rfl := Option.some.inj (f5.symm.trans hRs)
  obtain rfl := Option.some.inj (f7.symm.trans hV1)
  obtain ⟨V2, T2', g1, g2, g3, g4, g5, g6, g7⟩ := f15 hc
  obtain rfl := Option.some.inj (g2.symm.trans hT2)
  obtain rfl := Option.some.inj (g6.symm.trans hdv)
  have hV2 : V1' + (V2 - V1') = V2 := by ext <;> simp
  rw [hV2] at hs
  exact below_aim_core hP hA hS hv hrp hH hne (r := D.rDv) (by rw [hrd]; exact hr) hle hns hR1 hRs hc g4 g5 hs

/-- C151 fails for `OrbiterOrbiterDeflection` in the same way. -/
theorem C151_second_below_aim (name : String) (v : V3) (rp psi rs ps ρ : ℝ) (D : OrbiterOrbiter) (Hv R1 V1 Rs dv : V3) (T2 : ℝ)
    (hD : OrbiterOrbiter.init name v rp psi rs ps ρ = .ok D) (hv : v ≠ 0) (hrp : 0 < rp) (hle : rp ≤ rs)
    (hns : ¬ (rp = rs ∧ cos (ps - psi) = 1))
    (hH : D.space1.hVec = some Hv) (hne : Hv.x ≠ 0 ∨ Hv.y ≠ 0) (hr : rp < ρ * D.P.RP) (hR1 : D.rVec = some R1)
    (hV1 : D.vDv1 = some V1) (hRs : D.space2.rpVec = some Rs) (hc : V3.cross R1 Rs ≠ 0) (hdv : D.dvVec = some dv)
    (hT2 : D.tof2Days = some T2) (R U : ℝ → V3) (hs : StartsAt D.P.GM R1 (V1 + dv) R U) :
    V3.dot (R (T2 * 86400)) (U (T2 * 86400)) ≠ 0 ∧ ∃ s, V3.norm (R s) < rs := by
  obtain ⟨R1', V1', Rp, Rs', T1, th, f1, f2, f3, f5, f7, f8, f9, f10, f11, f14, f15⟩ :=
    C57_orbiter_orbiter name v rp psi rs ps ρ D Hv hD hv hrp (by linarith) hH hne hr
  obtain ⟨hP, hA, hS, hρ⟩ := orbiterOrbiter_inv hD
  have hrd : D.rDv = ρ * D.P.RP := by unfold OrbiterOrbiter.rDv; rw [hρ]
  obtain rfl := Option.some.inj (f1.symm.trans hR1)
  obtain rfl := Option.some.inj (f5.symm.trans hRs)
  obtain rfl := Option.some.inj (f7.symm.trans hV1)
  obtain ⟨V2, T2', g1, g2, g3, g4, g5, g6, g7⟩ := f15 hc
  obtain rfl := Option.some.inj (g2.symm.trans hT2)
  obtain rfl := Option.some.inj (g6.symm.trans hdv)
  have hV2 : V1' + (V2 - V1') = V2 := by ext <;> simp
  rw [hV2] at hs
  exact below_aim_core hP hA hS hv hrp hH hne (r := D.rDv) (by rw [hrd]; exact hr) hle hns hR1 hRs hc g4 g5 hs

/-- C151 for `OrbiterOrbiterDeflection`: the flights before and after the burn, as for the probe and the orbiter.

Partial: as `C151_deflection_flown_partial`; see `C151_second_below_aim`. -/
theorem C151_orbiters_flown_partial (name : String) (v : V3) (rp psi rs ps ρ : ℝ) (D : OrbiterOrbiter) (Hv : V3)
    (hD : OrbiterOrbiter.init name v rp psi rs ps ρ = .ok D) (hv : v ≠ 0) (hrp : 0 < rp) (hrs : 0 < rs)
    (hH : D.space1.hVec = some Hv) (hne : Hv.x ≠ 0 ∨ Hv.y ≠ 0) (hr : rp < ρ * D.P.RP) :
    ∃ (R1 V1 Rp Rs : V3) (T1 : ℝ), D.rVec = some R1 ∧ V3.norm R1 = ρ * D.P.RP ∧ D.vDv1 = some V1 ∧
      D.space1.rpVec = some Rp ∧ D.space2.rpVec = some Rs ∧ V3.norm Rp = rp ∧ V3.norm Rs = rs ∧ D.tof1Days = some T1 ∧ 0 < T1 ∧
      (∃ R U, StartsAt D.P.GM R1 V1 R U) ∧
      (∀ R U, StartsAt D.P.GM R1 V1 R U → R (T1 * 86400) = Rp ∧ (∀ s, s ≠ T1 * 86400 → rp < V3.norm (R s)) ∧
        Filter.Tendsto (fun s => V3.norm (U s - D.space1.vInfBi)) Filter.atBot (nhds 0)) ∧
      (V3.cross R1 Rs ≠ 0 → ∃ (dv : V3) (T2 : ℝ), D.dvVec = some dv ∧ D.dvMag = some (V3.norm dv) ∧ D.tof2Days = some T2 ∧
        0 < T2 ∧ (∃ R U, StartsAt D.P.GM R1 (V1 + dv) R U) ∧
        ∀ R U, StartsAt D.P.GM R1 (V1 + dv) R U → R (T2 * 86400) = Rs) := by
  obtain ⟨R1, V1, Rp, Rs, T1, th, f1, f2, f3, f5, f7, f8, f9, f10, f11, f14, f15⟩ :=
    C57_orbiter_orbiter name v rp psi rs ps ρ D Hv hD hv hrp hrs hH hne hr
  obtain ⟨hP, hA, hS, hρ⟩ := orbiterOrbiter_inv hD
  obtain ⟨aP, sP, av, sv, arp, srp, -, -⟩ := same_arrival hP hA hS
  have hrd : D.rDv = ρ * D.P.RP := by unfold OrbiterOrbiter.rDv; rw [hρ]
  obtain ⟨V, e, b, h, d, u, w, H⟩ := core_of hP aP hv av (by rw [arp]; exact hrp)
  obtain ⟨V', e', b', h', d', u', w', H'⟩ := core_of hP sP hv sv (by rw [srp]; exact hrs)
  have n1 : V3.norm Rp = rp := by
    rw [← Option.some.inj ((LegCore.rpVec H).symm.trans f3), V3.norm_smul, V3.norm_of_dot_one H.uu, mul_one, arp, abs_of_pos hrp]
  have n2 : V3.norm Rs = rs := by
    rw [← Option.some.inj ((LegCore.rpVec H').symm.trans f5), V3.norm_smul, V3.norm_of_dot_one H'.uu, mul_one, srp, abs_of_pos hrs]
  have hu := undeflected hA hv hrp hH hne (r := D.rDv) (by rw [arp, hrd]; exact hr) f10 f1 f11 n1 (by rw [aP]; exact f14)
  rw [aP] at hu
  refine ⟨R1, V1, Rp, Rs, T1, f1, f2, f7, f3, f5, n1, n2, f8, f9, hu.1, hu.2, fun hc => ?_⟩
  obtain ⟨V2, T2, g1, g2, g3, -, g5, g6, g7⟩ := f15 hc
  have hV2 : V1 + (V2 - V1) = V2 := by ext <;> simp
  refine ⟨V2 - V1, T2, g6, g7, g2, g3, ?_⟩
  rw [hV2]
  exact transfer_all g5 (cross_of_transfer g5 hc)

/-- Case for the statements about the probe and the orbiter: at Earth, a probe aimed at 6371 km and an orbiter aimed at 8000 km, a
quarter turn away; the orbiter passes below 8000 km. -/
example : ∃ (D : ProbeOrbiter) (R1 V1 dv : V3) (R U : ℝ → V3) (s : ℝ),
    ProbeOrbiter.init "EARTH" ⟨0, 10, 0⟩ 6371e3 0 (some 120e3) 8000e3 (π / 2) 50 = .ok D ∧ D.rVec = some R1 ∧
    D.vDvProbe = some V1 ∧ D.dvVec = some dv ∧ StartsAt D.P.GM R1 (V1 + dv) R U ∧ V3.norm (R s) < 8000e3 := by
  obtain ⟨D, Hv, R1, Rs, hD, hv, hH, hne, hr, hR1, hRs, hc⟩ := earth_probe_orbiter
  obtain ⟨R1', V1, Rp, Rs', T1, f1, -, f3, -, f5, -, -, -, -, -, -, f⟩ :=
    C151_deflection_flown_partial _ _ _ _ _ _ _ _ D Hv hD hv (by norm_num) (by norm_num) hH hne hr
  obtain rfl := Option.some.inj (f1.symm.trans hR1)
  obtain rfl := Option.some.inj (f5.symm.trans hRs)
  obtain ⟨dv, T2, g1, -, g2, -, ⟨R, U, m⟩, -⟩ := f hc
  obtain ⟨-, s, hs⟩ := C151_below_aim _ _ _ _ _ _ _ _ D Hv _ V1 _ dv T2 hD hv (by norm_num) (by norm_num) (by norm_num) hH hne hr hR1 f3
    hRs hc g1 g2 R U m
  exact ⟨D, R1', V1, dv, R, U, s, hD, hR1, f3, g1, m, hs⟩

/-- Two orbiters at Earth, aimed at 6371 km and, a quarter turn away, at 8000 km. -/
theorem earth_orbiters : ∃ (D : OrbiterOrbiter) (Hv R1 Rs : V3),
    OrbiterOrbiter.init "EARTH" ⟨0, 10, 0⟩ 6371e3 0 8000e3 (π / 2) 50 = .ok D ∧ (⟨0, 10, 0⟩ : V3) ≠ 0 ∧
    D.space1.hVec = some Hv ∧ (Hv.x ≠ 0 ∨ Hv.y ≠ 0) ∧ (6371e3 : ℝ) < 50 * D.P.RP ∧ D.rVec = some R1 ∧ D.space2.rpVec = some Rs ∧
    V3.cross R1 Rs ≠ 0 := by
  obtain ⟨A, V, e, b, h, d, u, w, hA, H, hu, hw, hRP, harp, -, -⟩ :=
    earth_aim (rp := 6371e3) (psi := 0) false none (by simp) (by norm_num)
  obtain ⟨S, V', e', b', h', d', u', w', hS, H', hu', hw', hRP', hsrp, -, -⟩ :=
    earth_aim (rp := 8000e3) (psi := π / 2) false none (by simp) (by norm_num)
  obtain ⟨P, hP, hAP, -⟩ := approach_init_inv hA
  have hv0 : (⟨0, 10, 0⟩ : V3) ≠ 0 := by
    intro h0
    have := congrArg V3.y h0
    simp at this
  have hn : w.x ≠ 0 ∨ w.y ≠ 0 := by right; rw [hw]; simp
  obtain ⟨a, n, k, δ, L, -⟩ := leg_core H (r := 50 * P.RP) (by rw [harp, ← hAP, hRP]; norm_num)
  have hR := L.rvec H hn
  have hRn := L.rnorm H
  have hk : A.rp * V * sin b ≠ 0 := by have := H.rp; have := H.vpos; have := H.sb; positivity
  refine ⟨⟨P, A, S, 50⟩, (A.rp * V * sin b) • w, _, S.rp • u', ?_, hv0, H.hhv, ?_, ?_, hR, LegCore.rpVec H', ?_⟩
  · unfold OrbiterOrbiter.init
    rw [hP, hA, hS]
    rfl
  · right
    rw [hw]
    simp only [V3.smul_y, cos_zero]
    have := neg_ne_zero.mpr hk
    rwa [mul_neg_one]
  · change (6371e3:ℝ) < 50 * P.RP
    rw [← hAP, hRP]; norm_num
  · intro h0
    have hy : (cPos (h ^ 2 / A.P.GM) e u (V3.cross w u) (-δ)).y = 0 := by
      unfold cPos
      rw [hu, hw]
      simp [V3.cross]
    have hsb' := H'.sb
    have hSp := H'.rp
    have hx := congrArg V3.x h0
    have hz := congrArg V3.z h0
    have hr0 := L.rpos
    generalize cPos (h ^ 2 / A.P.GM) e u (V3.cross w u) (-δ) = R1 at *
    rw [hu'] at hx hz
    simp only [V3.cross, V3.smul_x, V3.smul_y, V3.smul_z, V3.zero_x, V3.zero_z, hy, sin_pi_div_two] at hx hz
    have hq : S.rp * (sin b' * 1) ≠ 0 := by positivity
    have h1 : R1.z = 0 := by
      have : R1.z * (S.rp * (sin b' * 1)) = 0 := by linarith
      exact (mul_eq_zero.mp this).resolve_right hq
    have h2 : R1.x = 0 := by
      have : R1.x * (S.rp * (sin b' * 1)) = 0 := by linarith
      exact (mul_eq_zero.mp this).resolve_right hq
    have h3 : R1 = 0 := by ext <;> simp [h1, h2, hy]
    rw [h3, V3.norm_eq_zero.mpr rfl] at hRn
    linarith

/-- Case for the statements about two orbiters: the second passes below 8000 km. -/
example : ∃ (D : OrbiterOrbiter) (R1 V1 dv : V3) (R U : ℝ → V3) (s : ℝ),
    OrbiterOrbiter.init "EARTH" ⟨0, 10, 0⟩ 6371e3 0 8000e3 (π / 2) 50 = .ok D ∧ D.rVec = some R1 ∧
    D.vDv1 = some V1 ∧ D.dvVec = some dv ∧ StartsAt D.P.GM R1 (V1 + dv) R U ∧ V3.norm (R s) < 8000e3 := by
  obtain ⟨D, Hv, R1, Rs, hD, hv, hH, hne, hr, hR1, hRs, hc⟩ := earth_orbiters
  obtain ⟨R1', V1, Rp, Rs', T1, f1, -, f3, -, f5, -, -, -, -, -, -, f⟩ :=
    C151_orbiters_flown_partial _ _ _ _ _ _ _ D Hv hD hv (by norm_num) (by norm_num) hH hne hr
  obtain rfl := Option.some.inj (f1.symm.trans hR1)
  obtain rfl := Option.some.inj (f5.symm.trans hRs)
  obtain ⟨dv, T2, g1, -, g2, -, ⟨R, U, m⟩, -⟩ := f hc
  obtain ⟨-, s, hs⟩ := C151_second_below_aim _ _ _ _ _ _ _ D Hv _ V1 _ dv T2 hD hv (by norm_num) (by norm_num) (by norm_num) hH hne hr
    hR1 f3 hRs hc g1 g2 R U m
  exact ⟨D, R1', V1, dv, R, U, s, hD, hR1, f3, g1, m, hs⟩

end AMAT.Props
