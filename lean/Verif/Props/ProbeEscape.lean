import Verif.Props.OrbiterProps

/-
Property C55 for probes that the release burn puts on an escape orbit.  The formulas for the elements are the same; the only
orbit without elements is the parabola, whose semi-major axis is infinite.
-/

noncomputable section

open Real

namespace AMAT.Props

/-- Elements of every state that is not on a parabola, a circle or an equatorial orbit. -/
theorem elementsOf_conic {P : Planet} {R U : V3} {fpa : ℝ} (hGM : 0 < P.GM) (hE : Spec.energy P.GM R U ≠ 0)
    (hne : (V3.cross R U).x ≠ 0 ∨ (V3.cross R U).y ≠ 0) (hecc : Spec.eccVec P.GM R U ≠ 0)
    (hfpa : Planet.angMomScalar (V3.norm R) (V3.norm U) fpa = V3.norm (V3.cross R U)) :
    ∃ el, elementsOf P (V3.norm R) (V3.norm U) fpa R U = some el ∧ el.a = -P.GM / (2 * Spec.energy P.GM R U) ∧
      el.e = V3.norm (Spec.eccVec P.GM R U) ∧ el.h = V3.norm (V3.cross R U) ∧
      orient (V3.cross R U) ((1 / V3.norm (Spec.eccVec P.GM R U)) • Spec.eccVec P.GM R U) = some el.o := by
  have hH0 : V3.cross R U ≠ 0 := by rintro h; rw [h] at hne; simp at hne
  have hR : R ≠ 0 := by
    rintro rfl; apply hH0; ext <;> simp [V3.cross]
  have hHp := V3.norm_pos hH0
  set H := V3.norm (V3.cross R U) with hHd
  set E := Spec.energy P.GM R U with hEd
  have hEs : P.energyScalar (V3.norm R) (V3.norm U) = E := by rw [energyScalar_eq]; rfl
  have hep := V3.norm_pos hecc
  set e := V3.norm (Spec.eccVec P.GM R U) with hed
  have he2 : e ^ 2 = 1 + 2 * E * H ^ 2 / P.GM ^ 2 := by rw [V3.norm_sq, ecc_sq hGM hR]
  have hsma : P.semiMajorAxisScalar E = some (-P.GM / (2 * E)) := by
    unfold Planet.semiMajorAxisScalar; rw [if_neg hE, Lits.l10]; congr 1; ring
  have hee : P.eccScalar H E = some e := by
    unfold Planet.eccScalar
    rw [Lits.l10, ← he2, npSqrt_some (by positivity), sqrt_sq hep.le]
  have hsq : -P.GM / (2 * E) * P.GM * (1 - e ^ 2) = H ^ 2 := by
    rw [he2]; field_simp; ring
  have hu1 := V3.unit_dot_self hecc
  set u := (1 / e) • Spec.eccVec P.GM R U with hud
  have hpH : V3.dot u (V3.cross R U) = 0 := by rw [hud, V3.dot_smul_left, ecc_dot_cross, mul_zero]
  obtain ⟨o, ho, -, -, -, -⟩ := orient_spec hu1 hpH hne
  have hel : elementsOf P (V3.norm R) (V3.norm U) fpa R U = some ⟨-P.GM / (2 * E), e, H, o⟩ := by
    unfold elementsOf
    dsimp only
    rw [hfpa, hEs, eccVec_eq hGM, hsma, hee]
    simp only [bind, Option.bind, pure]
    rw [hsq, npSqrt_some (by positivity), sqrt_sq hHp.le, npUnit_some hecc]
    simp only []
    rw [← hud, ho]
  exact ⟨_, hel, rfl, rfl, rfl, ho⟩

/-- The state after a burn along the velocity. -/
theorem burn_state {O : Orbiter} {R U : V3} {coast el : Elements} {u w : V3} (S : StateCore O.P R U coast u w)
    (K : EllipseOK O.P.GM el u w) (hO : O.orbit = some el)
    (hne : (V3.cross R U).x ≠ 0 ∨ (V3.cross R U).y ≠ 0) {th dV : ℝ} {R1 U1 U2 : V3}
    (hR1 : O.pos th = some R1) (hU1 : O.vel th = some U1) (hdV : -V3.norm U1 < dV)
    (hU2 : U2 = U1 + (dV / V3.norm U1) • U1) :
    ∃ k g : ℝ, 0 < k ∧ V3.cross R1 U2 = k • w ∧ ((V3.cross R1 U2).x ≠ 0 ∨ (V3.cross R1 U2).y ≠ 0) ∧
      Spec.eccVec O.P.GM R1 U2 ≠ 0 ∧ Planet.angMomScalar (V3.norm R1) (V3.norm U2) g = V3.norm (V3.cross R1 U2) ∧
      O.probeElements th dV = elementsOf O.P (V3.norm R1) (V3.norm U2) g R1 U2 := by
  have hR1' : orbitPos O.P.GM el th = some R1 := by
    unfold Orbiter.pos at hR1; rw [hO] at hR1; exact hR1
  have hU1' : orbitVel O.P.GM el th = some U1 := by
    unfold Orbiter.vel at hU1; rw [hO] at hU1; exact hU1
  obtain ⟨r0, u0, d0, n0, x0, f0⟩ := ellipse_rv K hR1' hU1'
  have hUp := V3.norm_pos u0
  have hk := kap_gt
  set k := 1 + dV / V3.norm U1 with hkd
  have hk0 : 0 < k := by
    have : -1 < dV / V3.norm U1 := by rw [lt_div_iff₀ hUp]; linarith
    linarith
  have hU2k : U2 = k • U1 := by
    rw [hU2, hkd]; ext <;> simp only [V3.add_x, V3.add_y, V3.add_z, V3.smul_x, V3.smul_y, V3.smul_z] <;> ring
  have hcr : V3.cross R1 U2 = (k * (el.h / kap)) • w := by rw [hU2k, V3.cross_smul_right, x0, V3.smul_smul]
  have hkh : 0 < k * (el.h / kap) := by have := K.hpos; positivity
  have hwxy : w.x ≠ 0 ∨ w.y ≠ 0 := by
    rw [S.hw] at hne
    rcases hne with h | h
    · left; exact right_ne_zero_of_mul h
    · right; exact right_ne_zero_of_mul h
  have hne2 : (V3.cross R1 U2).x ≠ 0 ∨ (V3.cross R1 U2).y ≠ 0 := by
    rw [hcr]
    rcases hwxy with h | h
    · left; exact mul_ne_zero hkh.ne' h
    · right; exact mul_ne_zero hkh.ne' h
  have hU20 : U2 ≠ 0 := by
    intro h0; rw [h0] at hne2; simp [V3.cross] at hne2
  have hd2 : 0 < V3.dot R1 U2 := by rw [hU2k, V3.dot_smul_right]; positivity
  obtain ⟨g, hg, -, -, -, hgh⟩ := fpaOf_spec r0 hU20
  refine ⟨_, g, hkh, hcr, hne2, ecc_ne_zero K.gm (by rintro h0; rw [h0] at hne2; simp at hne2) hd2.ne', hgh, ?_⟩
  unfold Orbiter.probeElements burnElements burn
  rw [hR1, hU1]
  simp only [bind, Option.bind, pure]
  rw [npUnit_some u0]
  simp only []
  have : U1 + dV • (1 / V3.norm U1) • U1 = U2 := by
    rw [hU2, V3.smul_smul]; congr 2; ring
  rw [this, hg]

/-- C55: after any release burn along the velocity that does not reverse it, the probe has elements exactly when its orbit is
not a parabola.  They are those of the state after the burn, for bound and for escape orbits, and at every anomaly on the
orbit the returned probe position is at the conic radius of the probe orbit and in the probe's orbital plane.  Orbiters on
circular or equatorial orbits have no elements themselves (`C54_degenerate_fails`). -/
theorem C55_probe_position (name : String) (O : Orbiter) (hP : Planet.init name = .ok O.P) (hr : 0 < O.s.r) (R U : V3)
    (hR : R = Spec.pos O.s.r O.s.theta O.s.phi)
    (hUd : U = Spec.vel O.s.theta O.s.phi O.s.v O.s.psi O.s.g + V3.cross (Spec.spin O.P.OMEGA) R)
    (hE : Spec.energy O.P.GM R U < 0) (hne : (V3.cross R U).x ≠ 0 ∨ (V3.cross R U).y ≠ 0)
    (hecc : Spec.eccVec O.P.GM R U ≠ 0) (hq : 0 < O.P.RP + O.periAltKm * 1000)
    (th dV : ℝ) (R1 U1 U2 : V3) (hR1 : O.pos th = some R1) (hU1 : O.vel th = some U1) (hdV : -V3.norm U1 < dV)
    (hU2 : U2 = U1 + (dV / V3.norm U1) • U1) :
    (Spec.energy O.P.GM R1 U2 = 0 → O.probeElements th dV = none) ∧
    (Spec.energy O.P.GM R1 U2 ≠ 0 → ∃ self probe, O.orbit = some self ∧ O.probeElements th dV = some probe ∧
      probe.a = -O.P.GM / (2 * Spec.energy O.P.GM R1 U2) ∧ probe.h = Spec.angMom R1 U2 ∧
      probe.e = V3.norm (Spec.eccVec O.P.GM R1 U2) ∧
      ∀ t, 0 < 1 + V3.norm (Spec.eccVec O.P.GM R1 U2) * cos t → ∃ Rp, posProbe O.P.GM self probe t = some Rp ∧
        V3.norm Rp = Spec.angMom R1 U2 ^ 2 / O.P.GM / (1 + V3.norm (Spec.eccVec O.P.GM R1 U2) * cos t) ∧
        V3.dot Rp (V3.cross R1 U2) = 0) := by
  obtain ⟨_, hRP, hGM, _⟩ := C01_planet_consistent name O.P hP
  obtain ⟨coast, u, w, hc, S, hRn⟩ := coast_core hGM hr hR hUd hE hne hecc
  obtain ⟨-, el, hO, K, ho, -, -⟩ := prm_core S.ok hRP hc hq
  obtain ⟨k, g, hk, hcr, hne2, hecc2, hgh, hpe⟩ := burn_state S K hO hne hR1 hU1 hdV hU2
  constructor
  · intro h0
    rw [hpe]
    unfold elementsOf
    have hEs : O.P.energyScalar (V3.norm R1) (V3.norm U2) = 0 := by rw [energyScalar_eq]; exact h0
    dsimp only
    rw [hEs]
    unfold Planet.semiMajorAxisScalar
    rw [if_pos rfl]
    rfl
  · intro hE2
    obtain ⟨probe, hpr, ha, he, hh, hor⟩ := elementsOf_conic hGM hE2 hne2 hecc2 hgh
    refine ⟨el, probe, hO, hpe.trans hpr, ha, hh, he, fun t ht => ?_⟩
    have hch := S.ok.hpos
    have hang : probe.o.i = coast.o.i ∧ probe.o.OMEGA = coast.o.OMEGA := by
      have : V3.cross R1 U2 = (k / coast.h) • V3.cross R U := by
        rw [hcr, S.hw, V3.smul_smul]; congr 1; field_simp
      rw [this] at hor
      exact orient_dir (by positivity) S.ho hor
    have hun := K.unit t
    rw [ho] at hun
    have hden : 0 < 1 + probe.e * cos t := by rw [he]; exact ht
    have hpos : posProbe O.P.GM el probe t =
        some ((probe.h ^ 2 / O.P.GM / (1 + probe.e * cos t)) • (cos t • u + sin t • V3.cross w u)) := by
      unfold posProbe
      rw [npDiv_some hden.ne']
      simp only [bind, Option.bind, pure, Option.some.injEq]
      rw [← hun, ho, hang.1, hang.2]
      rfl
    refine ⟨_, hpos, ?_, ?_⟩
    · have hp : 0 < probe.h ^ 2 / O.P.GM / (1 + probe.e * cos t) := by
        have : 0 < probe.h := by rw [hh, hcr, V3.norm_smul, V3.norm_of_dot_one K.ww, abs_of_pos hk, mul_one]; exact hk
        positivity
      rw [V3.norm_smul, abs_of_pos hp]
      have h1 := EllipseOK.norm_polar K.uu K.ww K.uw 1 0 t
      have : (1:ℝ) • (cos t • u + sin t • V3.cross w u) + (0:ℝ) • ((-sin t) • u + cos t • V3.cross w u) =
          cos t • u + sin t • V3.cross w u := by ext <;> simp
      rw [this] at h1
      rw [h1]
      unfold Spec.angMom
      rw [← hh, ← he]
      norm_num
    · rw [hcr]
      have h1 : V3.dot (V3.cross w u) w = 0 := by rw [V3.dot_comm]; exact V3.dot_cross_left _ _
      rw [V3.dot_smul_left, V3.dot_smul_right]
      have : V3.dot (cos t • u + sin t • V3.cross w u) w = cos t * V3.dot u w + sin t * V3.dot (V3.cross w u) w := by
        generalize V3.cross w u = n
        simp only [V3.dot, V3.add_x, V3.add_y, V3.add_z, V3.smul_x, V3.smul_y, V3.smul_z]; ring
      rw [this, K.uw, h1]; ring

/-- Case for `C55_probe_position`: from the orbit of `mars_exit`, at any anomaly, there is a release burn that puts the probe
on an escape orbit, and one that puts it on a parabola. -/
example (th : ℝ) : ∃ (O : Orbiter) (R1 U1 : V3), Planet.init "MARS" = .ok O.P ∧ O.pos th = some R1 ∧ O.vel th = some U1 ∧
    (∃ dV, -V3.norm U1 < dV ∧ 0 < Spec.energy O.P.GM R1 (U1 + (dV / V3.norm U1) • U1) ∧
      ∃ probe, O.probeElements th dV = some probe ∧ 1 < probe.e ∧ probe.a < 0) ∧
    ∃ dV, 0 < dV ∧ O.probeElements th dV = none := by
  obtain ⟨O, hP, hr, hq, -, h⟩ := mars_exit 400 (by norm_num)
  obtain ⟨hE, hy, hecc, -, -⟩ := h _ _ rfl rfl
  obtain ⟨_, hRP, hGM, _⟩ := C01_planet_consistent "MARS" O.P hP
  obtain ⟨coast, u, w, hc, S, hRn⟩ := coast_core hGM hr rfl rfl hE (Or.inr hy) hecc
  obtain ⟨-, el, hO, K, ho, -, -⟩ := prm_core S.ok hRP hc hq
  obtain ⟨U, hU, hUn⟩ := K.velocity_norm th
  obtain ⟨r0, u0, d0, n0, x0, f0⟩ := ellipse_rv K (K.pos th) hU
  have hUp := V3.norm_pos u0
  have hRp := V3.norm_pos r0
  generalize hR1 : cPos (el.h ^ 2 / O.P.GM) el.e u (V3.cross w u) th = R1 at *
  have hpos : O.pos th = some R1 := by unfold Orbiter.pos; rw [hO, ← hR1]; exact K.pos th
  have hvel : O.vel th = some U := by unfold Orbiter.vel; rw [hO]; exact hU
  have main := fun dV hdV => C55_probe_position "MARS" O hP hr _ _ rfl rfl hE (Or.inr hy) hecc hq th dV R1 U _ hpos hvel hdV rfl
  have hen : ∀ x : ℝ, 0 < x → Spec.energy O.P.GM R1 (U + ((x - V3.norm U) / V3.norm U) • U) =
      x ^ 2 / 2 - O.P.GM / V3.norm R1 := by
    intro x hx
    have e : U + ((x - V3.norm U) / V3.norm U) • U = (x / V3.norm U) • U := by
      rw [sub_div, div_self hUp.ne']
      ext <;> simp only [V3.add_x, V3.add_y, V3.add_z, V3.smul_x, V3.smul_y, V3.smul_z] <;> ring
    unfold Spec.energy
    rw [e, V3.norm_smul, abs_of_pos (div_pos hx hUp), div_mul_cancel₀ _ hUp.ne']
  have hm : 0 < 2 * O.P.GM / V3.norm R1 := by positivity
  have hs := sq_sqrt hm.le
  have hs0 := sqrt_pos.mpr hm
  set x := sqrt (2 * O.P.GM / V3.norm R1) with hx
  have hbig : 0 < Spec.energy O.P.GM R1 (U + ((2 * x - V3.norm U) / V3.norm U) • U) := by
    rw [hen _ (by linarith)]
    have : O.P.GM / V3.norm R1 = x ^ 2 / 2 := by rw [hs]; ring
    rw [this]
    nlinarith
  refine ⟨O, R1, U, hP, hpos, hvel, ⟨2 * x - V3.norm U, by linarith, hbig, ?_⟩, x - V3.norm U, ?_, ?_⟩
  · obtain ⟨self, probe, -, hpr, ha, hh, he, -⟩ := (main (2 * x - V3.norm U) (by linarith)).2 hbig.ne'
    refine ⟨probe, hpr, ?_, ?_⟩
    · have hc : V3.cross R1 (U + ((2 * x - V3.norm U) / V3.norm U) • U) ≠ 0 := by
        obtain ⟨k, g, hk, hcr, hne2, -⟩ := burn_state S K hO (Or.inr hy) hpos hvel (dV := 2 * x - V3.norm U) (by linarith) rfl
        intro h0
        rw [h0] at hne2
        simp at hne2
      have hcp := V3.norm_pos hc
      have h2 := ecc_sq hGM r0 (U + ((2 * x - V3.norm U) / V3.norm U) • U)
      rw [← V3.norm_sq, ← he] at h2
      have h3 : 0 < 2 * Spec.energy O.P.GM R1 (U + ((2 * x - V3.norm U) / V3.norm U) • U) *
          V3.norm (V3.cross R1 (U + ((2 * x - V3.norm U) / V3.norm U) • U)) ^ 2 / O.P.GM ^ 2 :=
        div_pos (mul_pos (mul_pos two_pos hbig) (pow_pos hcp 2)) (pow_pos hGM 2)
      have h4 : 0 ≤ probe.e := by rw [he]; exact V3.norm_nonneg _
      nlinarith
    · rw [ha]
      exact div_neg_of_neg_of_pos (by linarith) (by linarith)
  · have h2 : EllipseOK.spd O.P.GM el th ^ 2 = O.P.GM * (2 / EllipseOK.rad O.P.GM el th - 1 / el.a) := by
      unfold EllipseOK.spd; rw [sq_sqrt (by rw [K.spd_sq]; positivity)]
    have h4 : 0 < O.P.GM / el.a := div_pos hGM K.apos
    have h5 : V3.norm U ^ 2 < x ^ 2 := by
      rw [hUn, h2, hs, n0, mul_sub, mul_one_div]
      have : O.P.GM * (2 / EllipseOK.rad O.P.GM el th) = 2 * O.P.GM / EllipseOK.rad O.P.GM el th := by ring
      linarith
    have := lt_of_pow_lt_pow_left₀ 2 hs0.le h5
    linarith
  · exact (main _ (by linarith)).1 (by rw [hen _ hs0, hs]; ring)

end AMAT.Props
