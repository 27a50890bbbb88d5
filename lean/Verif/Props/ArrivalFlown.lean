import Verif.Props.OrbitTrim
import Verif.Props.PropulsiveOrbit
import Verif.Lemmas.HyperClock

/-
Property C149: a spacecraft that passes the periapsis of the approach with the computed velocity has come in with the arrival
velocity, through the computed states of the incoming branch in their order, and has crossed the entry interface in the
computed entry state.
-/

noncomputable section

open Real

namespace AMAT.Props

open Real AMAT AMAT.Spec AMAT.Lits

theorem asymptote_beta {e b : ℝ} (cb : cos b = 1 / e) (b0 : 0 < b) (bpi : b < π / 2) : asymptote e = π - b := by
  unfold asymptote
  rw [← cb, arccos_neg, arccos_cos b0.le (by linarith [pi_pos])]

/-- C149: every two-body motion through the computed periapsis state is farther out at all other times, comes from the arrival
velocity, passes through the computed states of the incoming branch one after the other and through no others, and is in the
computed entry state when it crosses the interface.

Partial: approaches in the equatorial plane are excluded, as for them nothing is computed (`C49_equatorial_fails`). -/
theorem C149_arrival_flown_partial (name : String) (v : V3) (rp psi : ℝ) (b : Bool) (hEI : Option ℝ) (A : Approach) (Hv : V3)
    (hA : Approach.init name v rp psi b hEI = .ok A) (hv : v ≠ 0) (hrp : 0 < rp) (hH : A.hVec = some Hv)
    (hne : Hv.x ≠ 0 ∨ Hv.y ≠ 0) :
    ∃ β Rp Up, A.beta = some β ∧ A.posVec 0 = some Rp ∧ A.velVec 0 = some Up ∧ V3.norm Rp = rp ∧
      (∃ R U, StartsAt A.P.GM Rp Up R U) ∧ ∀ R U, StartsAt A.P.GM Rp Up R U →
      (∀ s, s ≠ 0 → rp < V3.norm (R s)) ∧
      Filter.Tendsto (fun s => V3.norm (U s - A.vInfBi)) Filter.atBot (nhds 0) ∧
      (∃ τ : ℝ → ℝ, τ 0 = 0 ∧ StrictMonoOn τ (Set.Ioc (-(π - β)) 0) ∧ (∀ s ≤ 0, ∃ t ∈ Set.Ioc (-(π - β)) 0, τ t = s) ∧
        ∀ t ∈ Set.Ioc (-(π - β)) 0, A.posVec t = some (R (τ t)) ∧ A.velVec t = some (U (τ t))) ∧
      ∀ hE, rp < A.P.RP + hE → ∃ s < 0, A.rVecEntry hE = some (R s) ∧ A.vVecEntry hE = some (U s) ∧
        (∀ s' < s, A.P.RP + hE < V3.norm (R s')) ∧ ∀ s', s < s' → s' ≤ 0 → V3.norm (R s') < A.P.RP + hE := by
  obtain ⟨V, e, bb, h, d, u, w, H, hn, hHw⟩ := approach_facts hA hv hrp hH hne
  obtain ⟨P, hP, hAP, rfl, rfl, rfl, -⟩ := approach_init_inv hA
  have hg := H.gm; have hh := H.hpos; have he := H.e1; have hb0 := H.b0; have hbp := H.bpi
  have hpi := pi_pos
  have has := asymptote_beta H.cb hb0 hbp
  have hpp : 0 < h ^ 2 / A.P.GM := by positivity
  have hp : h ^ 2 / A.P.GM = A.rp * (1 + e) := by rw [H.hsq]; field_simp
  obtain ⟨hex, hcl⟩ := hyper_clock (e := e) hg hh he H.uu H.ww H.uw
  have c0 : 0 < 1 + e * cos 0 := by rw [cos_zero]; linarith
  have hpos0 := Core.pos_eq H hn c0
  have hvel0 := Core.vel_eq H hn (t := 0) (by simp) c0
  have hnorm : ∀ t, 0 < 1 + e * cos t →
      V3.norm (cPos (h ^ 2 / A.P.GM) e u (V3.cross w u) t) = h ^ 2 / A.P.GM / (1 + e * cos t) := fun t hc => (Core.laws H hc).1
  refine ⟨bb, _, _, H.hb, hpos0, hvel0, ?_, ?_, fun R U m => ?_⟩
  · rw [hnorm 0 c0, hp, cos_zero, mul_one, mul_div_cancel_right₀ _ (by linarith)]
  · exact hex
  obtain ⟨τ, t0, tm, ts, tc⟩ := hcl R U m.1 m.2.1 m.2.2
  rw [has] at tm ts tc
  have hin : ∀ t ∈ Set.Ioo (-(π - bb)) (π - bb), 0 < 1 + e * cos t := fun t ht => asym_pos he (by rw [has]; exact ht)
  have hsub : Set.Ioc (-(π - bb)) 0 ⊆ Set.Ioo (-(π - bb)) (π - bb) := fun t ht => ⟨ht.1, by linarith [ht.2]⟩
  have h0 : (0:ℝ) ∈ Set.Ioo (-(π - bb)) (π - bb) := ⟨by linarith, by linarith⟩
  have hrad : ∀ t ∈ Set.Ioo (-(π - bb)) (π - bb), V3.norm (R (τ t)) = h ^ 2 / A.P.GM / (1 + e * cos t) := fun t ht => by
    rw [(tc t ht).1, hnorm t (hin t ht)]
  have hsur : ∀ s ≤ 0, ∃ t ∈ Set.Ioc (-(π - bb)) 0, τ t = s := by
    intro s hs
    obtain ⟨t, ht, rfl⟩ := ts s
    refine ⟨t, ⟨ht.1, ?_⟩, rfl⟩
    by_contra hc
    have := tm h0 ht (not_le.mp hc)
    rw [t0] at this
    linarith
  have hanti : ∀ x ∈ Set.Ioc (-(π - bb)) 0, ∀ y ∈ Set.Ioc (-(π - bb)) 0, x < y → V3.norm (R (τ y)) < V3.norm (R (τ x)) := by
    intro x hx y hy hxy
    rw [hrad x (hsub hx), hrad y (hsub hy)]
    have h1 : cos x < cos y := by
      rw [← cos_neg x, ← cos_neg y]
      exact cos_lt_cos_of_nonneg_of_le_pi (by linarith [hy.2]) (by linarith [hx.1]) (by linarith)
    exact div_lt_div_of_pos_left hpp (hin x (hsub hx)) (by nlinarith)
  refine ⟨fun s hs => ?_, ?_, ⟨τ, t0, tm.mono hsub, hsur, fun t ht => ?_⟩, fun hE hlt => ?_⟩
  · obtain ⟨t, ht, rfl⟩ := ts s
    have htne : t ≠ 0 := by rintro rfl; exact hs t0
    have hc : cos t < 1 := by
      refine lt_of_le_of_ne (cos_le_one t) fun h1 => htne ?_
      exact (cos_eq_one_iff_of_lt_of_lt (by linarith [ht.1]) (by linarith [ht.2])).mp h1
    rw [hrad t ht, hp, lt_div_iff₀ (hin t ht)]
    have := H.rp
    apply mul_lt_mul_of_pos_left _ this
    nlinarith
  · have hcont : Continuous (fun t => V3.norm (cVel (A.P.GM / h) e u (V3.cross w u) t - A.vInfBi)) := by
      unfold V3.norm V3.dot cVel
      simp only [V3.sub_x, V3.sub_y, V3.sub_z, V3.add_x, V3.add_y, V3.add_z, V3.smul_x, V3.smul_y, V3.smul_z]
      fun_prop
    have hl := hcont.tendsto (-(π - bb))
    simp only [Core.asym H] at hl
    rw [show V3.norm (A.vInfBi - A.vInfBi) = 0 by rw [V3.norm_eq_zero]; ext <;> simp] at hl
    choose θ hθ1 hθ2 using ts
    have hθ : Filter.Tendsto θ Filter.atBot (nhds (-(π - bb))) := by
      rw [tendsto_order]
      refine ⟨fun a ha => Filter.Eventually.of_forall fun s => lt_trans ha (hθ1 s).1, fun a ha => ?_⟩
      have hm : min a 0 > -(π - bb) := lt_min ha (by linarith)
      have hmi : min a 0 ∈ Set.Ioo (-(π - bb)) (π - bb) := ⟨hm, by linarith [min_le_right a 0]⟩
      filter_upwards [Filter.eventually_lt_atBot (τ (min a 0))] with s hs
      rw [← hθ2 s] at hs
      exact lt_of_lt_of_le ((tm.lt_iff_lt (hθ1 s) hmi).mp hs) (min_le_left a 0)
    refine (hl.comp hθ).congr fun s => ?_
    simp only [Function.comp]
    rw [← (tc _ (hθ1 s)).2, hθ2]
  · have hs : sin t ≤ 0 := sin_nonpos_of_nonpos_of_neg_pi_le ht.2 (by linarith [ht.1])
    have hc := hin t (hsub ht)
    rw [(tc t (hsub ht)).1, (tc t (hsub ht)).2]
    exact ⟨Core.pos_eq H hn hc, Core.vel_eq H hn hs hc⟩
  · have hEr : A.rEI hE = A.P.RP + hE := rfl
    obtain ⟨t, -, t1, t2, tc', tr, tR, tU⟩ := Core.entry H hn (hE := hE) (by rw [hEr]; exact hlt.le)
    have ht1 : -π < t := by
      refine lt_of_le_of_ne t1 fun hq => ?_
      rw [← hq, cos_neg, cos_pi] at tc'; linarith
    have hti : t ∈ Set.Ioo (-(π - bb)) (π - bb) := by
      have := (asym_iff he ht1 (by linarith)).mpr tc'
      rwa [has] at this
    have htc : t ∈ Set.Ioc (-(π - bb)) 0 := ⟨hti.1, t2⟩
    have hRr : V3.norm (R (τ t)) = A.P.RP + hE := by rw [hrad t hti, tr, hEr]
    have htn : t ≠ 0 := by
      rintro rfl
      rw [hrad 0 h0, hp, cos_zero, mul_one, mul_div_cancel_right₀ _ (by linarith)] at hRr
      linarith
    refine ⟨τ t, ?_, by rw [(tc t hti).1]; exact tR, by rw [(tc t hti).2]; exact tU, fun s' hs' => ?_, fun s' h1 h2 => ?_⟩
    · rw [← t0]; exact tm hti h0 (lt_of_le_of_ne t2 htn)
    · have : τ t ≤ 0 := by rw [← t0]; exact tm.monotoneOn hti h0 t2
      obtain ⟨x, hx, rfl⟩ := hsur s' (by linarith)
      rw [← hRr]
      exact hanti x hx t htc ((tm.lt_iff_lt (hsub hx) hti).mp hs')
    · obtain ⟨x, hx, rfl⟩ := hsur s' h2
      rw [← hRr]
      exact hanti t htc x hx ((tm.lt_iff_lt hti (hsub hx)).mp h1)

/-- Case for `C149_arrival_flown_partial`: an arrival at Earth with 10 km/s crosses the interface at 120 km. -/
example : ∃ (A : Approach) (R U : ℝ → V3) (s : ℝ), Approach.init "EARTH" ⟨0, 10, 0⟩ 6371e3 0 true (some 120e3) = .ok A ∧
    TwoBodyMotion A.P.GM R U ∧ A.posVec 0 = some (R 0) ∧ s < 0 ∧ A.rVecEntry 120e3 = some (R s) ∧
    Filter.Tendsto (fun s => V3.norm (U s - A.vInfBi)) Filter.atBot (nhds 0) := by
  obtain ⟨A, Hv, hA, hv, hH, hne, -, hRP⟩ := demo_arrival
  obtain ⟨β, Rp, Up, -, h1, -, -, ⟨R, U, m⟩, k⟩ := C149_arrival_flown_partial _ _ _ _ _ _ A Hv hA hv (by norm_num) hH hne
  obtain ⟨-, k2, -, k4⟩ := k R U m
  obtain ⟨s, hs, k5, -⟩ := k4 120e3 (by rw [hRP]; norm_num)
  exact ⟨A, R, U, s, hA, m.1, by rw [h1, m.2.1], hs, k5, k2⟩

end AMAT.Props
