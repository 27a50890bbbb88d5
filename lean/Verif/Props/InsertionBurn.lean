import Verif.Props.PropulsiveOrbit

/-
C127: the direction of the orbit insertion burn.  `DV_OI_vec` is the approach velocity minus the orbit velocity, the opposite
of the burn that inserts the spacecraft.
-/

noncomputable section

open Classical

namespace AMAT.Props

open Real

/-- The velocities at periapsis: `a` along the hyperbola, `b` on the ellipse, turned by a small angle with cosine `k`. -/
theorem burn_facts {u q : V3} (c1 : V3.dot q q = 1) (c2 : V3.dot u q = 0) (cu : V3.dot u u = 1) {vh ve s k : ℝ}
    (hvep : 0 < ve) (hlt : ve < vh) (hkk : k < 1) (hsqk : s ^ 2 = 1 - k ^ 2) :
    let a := vh • q
    let b := ve • (s • u + k • q)
    V3.norm b < V3.norm a ∧ 0 < V3.dot a (a - b) ∧ V3.norm a < V3.norm (a + (a - b)) := by
  intro a b
  have hvh : 0 < vh := by linarith
  have haa : V3.dot a a = vh ^ 2 := by
    have : V3.dot a a = vh ^ 2 * V3.dot q q := by
      simp only [a, V3.dot, V3.smul_x, V3.smul_y, V3.smul_z]; ring
    rw [this, c1]; ring
  have hbb : V3.dot b b = ve ^ 2 := by
    have : V3.dot b b = ve ^ 2 * (s ^ 2 * V3.dot u u + 2 * s * k * V3.dot u q + k ^ 2 * V3.dot q q) := by
      simp only [b, V3.dot, V3.add_x, V3.add_y, V3.add_z, V3.smul_x, V3.smul_y, V3.smul_z]; ring
    rw [this, c1, c2, cu, hsqk]; ring
  have hab : V3.dot a b = vh * ve * k := by
    have : V3.dot a b = vh * ve * (s * V3.dot u q + k * V3.dot q q) := by
      simp only [a, b, V3.dot, V3.add_x, V3.add_y, V3.add_z, V3.smul_x, V3.smul_y, V3.smul_z]; ring
    rw [this, c1, c2]; ring
  have hkve : vh * ve * k < vh * ve := by
    have : 0 < vh * ve := by positivity
    nlinarith
  have had1 : V3.dot a (a - b) = vh ^ 2 - vh * ve * k := by
    rw [← haa, ← hab]; simp only [V3.dot, V3.sub_x, V3.sub_y, V3.sub_z]; ring
  have had2 : V3.dot (a + (a - b)) (a + (a - b)) = 4 * vh ^ 2 - 4 * (vh * ve * k) + ve ^ 2 := by
    rw [← haa, ← hab, ← hbb]
    simp only [V3.dot, V3.add_x, V3.add_y, V3.add_z, V3.sub_x, V3.sub_y, V3.sub_z]; ring
  have hba : V3.norm b < V3.norm a := Real.sqrt_lt_sqrt (V3.dot_self_nonneg _) (by rw [haa, hbb]; nlinarith)
  have hfast : V3.norm a < V3.norm (a + (a - b)) := Real.sqrt_lt_sqrt (V3.dot_self_nonneg _) (by rw [haa, had2]; nlinarith)
  exact ⟨hba, by rw [had1]; nlinarith, hfast⟩

/-- **C127** (finding).  Full claim: the approach velocity at periapsis plus the reported burn `DV_OI_vec` is the velocity on
the orbit.  In fact the orbit velocity `b` is slower than the approach velocity `a`, but the reported burn `d` points forwards
and applying it makes the spacecraft faster; the velocity on the orbit is reached by the opposite burn. -/
theorem C127_burn_reversed (name : String) (v : V3) (rp psi apo : ℝ) (hEI : Option ℝ) (A : Approach) (Hv : V3)
    (hA : Approach.init name v rp psi false hEI = .ok A) (hv : v ≠ 0) (hrp : 0 < rp) (hH : A.hVec = some Hv)
    (hne : Hv.x ≠ 0 ∨ Hv.y ≠ 0) (hra : 0 < A.P.RP + apo * 1000) :
    ∃ O a b d, PropOrbiter.init A apo = .ok O ∧ A.velVec 0 = some a ∧ O.vpVec = some b ∧ O.dvVec = some d ∧
      V3.norm b < V3.norm a ∧ 0 < V3.dot a d ∧ V3.norm a < V3.norm (a + d) ∧ a + d ≠ b ∧ a + (-1 : ℝ) • d = b := by
  obtain ⟨_, _, _, _, _, _, _, _, _, _, _, _, hdv0, hdv⟩ := C53_insertion_partial name v rp psi apo hEI A Hv hA hv hrp hH hne hra
  obtain ⟨V, e, bb, h, d, u, w, H, hn, hHw⟩ := approach_facts hA hv hrp hH hne
  obtain ⟨P, hP, hAP, rfl, rfl, rfl, -⟩ := approach_init_inv hA
  have hE0 : A.hEI = none := by
    unfold Approach.init at hA
    rw [hP] at hA
    simp only [bind, Except.bind, pure, Except.pure] at hA
    have := Except.ok.inj hA
    rw [← this]
  set ra := A.P.RP + apo * 1000 with hrad
  obtain ⟨el, hel, K, k1, k2, k3⟩ := prop_ellipse H hn hra hrad
  have hg := H.gm; have hrpp := H.rp
  obtain ⟨hvel, hvp⟩ := hyp_periapsis H hn
  obtain ⟨s1, s2⟩ := K.velocity_apsis (t := 0) sin_zero
  have hsp : EllipseOK.spd A.P.GM el 0 = Spec.visViva A.P.GM A.rp A.rp ra := by
    unfold EllipseOK.spd Spec.visViva
    congr 2
    have : EllipseOK.rad A.P.GM el 0 = A.rp := by
      rw [K.rad_eq, cos_zero, ← k1]
      have : 0 < 1 + el.e := by linarith [K.e0]
      field_simp; ring
    rw [this, k3]; field_simp
  have hvep := K.spd_pos 0
  rw [hsp] at s2 hvep
  set vh := sqrt (A.vInfMag ^ 2 + 2 * A.P.GM / A.rp) with hvhd
  set ve := Spec.visViva A.P.GM A.rp A.rp ra with hved
  have hlt : ve < vh := by linarith
  have hvh : 0 < vh := by linarith
  have hk := kap_gt
  obtain ⟨c1, c2⟩ := cross_unit H.uu H.ww H.uw
  have hkk : 1 / kap < 1 := by rw [div_lt_one (by linarith)]; exact hk
  have hkp : 0 < 1 / kap := by positivity
  have hk1 : 0 ≤ 1 - (1 / kap) ^ 2 := by nlinarith
  have hsqk := sq_sqrt hk1
  set s := sqrt (1 - (1 / kap) ^ 2) with hs
  rw [cos_zero, V3.one_smul, V3.one_smul] at s2
  obtain ⟨hba, hfwd, hfast⟩ := burn_facts c1 c2 H.uu hvep hlt hkk hsqk
  have hvp' : (PropOrbiter.mk A apo).vpVec = some (ve • (s • u + (1 / kap) • V3.cross w u)) := by
    unfold PropOrbiter.vpVec
    rw [hel]
    simp only [bind, Option.bind]
    rw [s2]
  generalize V3.cross w u = q at *
  generalize vh • q = a at *
  generalize ve • (s • u + (1 / kap) • q) = b at *
  refine ⟨⟨A, apo⟩, a, b, a - b, by unfold PropOrbiter.init; rw [hE0], hvel, ?_, ?_, hba, ?_, hfast, ?_, ?_⟩
  · exact hvp'
  · unfold PropOrbiter.dvVec
    rw [hvel, hvp']
    rfl
  · exact hfwd
  · intro h
    rw [h] at hfast
    linarith
  · ext <;> simp

/-- A case of `C127_burn_reversed`: the capture at Earth of C53. -/
example : ∃ (A : Approach) (O : PropOrbiter) (a b d : V3), PropOrbiter.init A 35786 = .ok O ∧ A.velVec 0 = some a ∧
    O.vpVec = some b ∧ O.dvVec = some d ∧ V3.norm a < V3.norm (a + d) ∧ a + d ≠ b := by
  obtain ⟨A, Hv, h1, h2, h3, h4, h5⟩ := earth_capture
  obtain ⟨O, a, b, d, g1, g2, g3, g4, -, -, g5, g6, -⟩ :=
    C127_burn_reversed _ _ _ _ 35786 _ A Hv h1 h2 (by norm_num) h3 h4 h5
  exact ⟨A, O, a, b, d, g1, g2, g3, g4, g5, g6⟩

end AMAT.Props
