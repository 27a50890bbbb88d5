import Verif.Spec.Near
import Verif.Lemmas.Dependence
import Verif.Props.Continuation
import Verif.Props.Sampling

/-
Property C102: small changes of the entry state and small errors of the integration change a flight little.
-/

noncomputable section

open Real

namespace AMAT.Props

open Real AMAT AMAT.Spec AMAT.Data AMAT.Spline AMAT.Lits AMAT.Piecewise

/-! ### Tolerances as norms -/

theorem near_iff (δ : ℝ) (s s' : FState) : Near δ s s' ↔ ‖s.toR7 - s'.toR7‖ ≤ δ := by
  simp only [FState.toR7, Prod.mk_sub_mk, norm_prod_le_iff, Real.norm_eq_abs]
  exact ⟨fun h => ⟨h.r, h.theta, h.phi, h.v, h.psi, h.gamma, h.drange⟩,
    fun h => ⟨h.1, h.2.1, h.2.2.1, h.2.2.2.1, h.2.2.2.2.1, h.2.2.2.2.2.1, h.2.2.2.2.2.2⟩⟩

theorem nearFlight_follows {V : Vehicle} {d : ℝ} {z : ℝ → FState} {a b δ : ℝ} {S : Finset ℝ}
    (h : NearFlight (fun t s => V.EOM s t d) z a b S δ) : Follows (V.field d) (fun t => (z t).toR7) a b δ := by
  refine ⟨?_, S, fun t => deriv (fun t => (z t).toR7) t, fun t ht hS => ?_⟩
  · exact h.r.prodMk (h.theta.prodMk (h.phi.prodMk (h.v.prodMk (h.psi.prodMk (h.gamma.prodMk h.drange)))))
  · obtain ⟨w, h1, h2⟩ := h.rates t ht hS
    have h3 := (solvesAt_iff _ _ _).mp h1
    simp only [h3.deriv]
    exact ⟨h3, (near_iff _ _ _).mp h2⟩

theorem flight_nearFlight {F : ℝ → FState → FState} {y : ℝ → FState} {a b : ℝ} {S : Finset ℝ}
    (h : SwitchedFlight F y a b S) {δ : ℝ} (hδ : 0 ≤ δ) : NearFlight F y a b S δ := by
  refine ⟨h.r, h.theta, h.phi, h.v, h.psi, h.gamma, h.drange, fun t ht hS => ⟨F t (y t), ?_, ?_⟩⟩
  · have := h.solves t ht hS
    exact ⟨this.r, this.theta, this.phi, this.v, this.psi, this.gamma, this.drange⟩
  · rw [near_iff, sub_self, norm_zero]; exact hδ

section

variable {name : String} {F : AtmFile} (hF : (name, F) ∈ shippedFiles) {P : Planet}
  (hP : Planet.init name = .ok P) {atm : Atmosphere} (hatm : LoadedCubic P F.km (fileRows F) atm)
  (m beta LD A alpha RN : ℝ) (u : Bool) (f : ℝ → ℝ) (st : InitState) (hf : u = true → ContDiff ℝ 1 f)

include hF hP hatm hf

/-- Near every regular state the right-hand side is Lipschitz on each side of the edge of the atmosphere. -/
theorem field_locally_lipschitz (d : ℝ) {s : FState} (hs : Departure P s) :
    ∃ U ∈ nhds s.toR7, ∃ K : ℝ, ∀ x ∈ U, ∀ x' ∈ U,
      ((x.1 * P.RP - P.RP < P.hThres ∧ x'.1 * P.RP - P.RP < P.hThres) ∨
        (P.hThres < x.1 * P.RP - P.RP ∧ P.hThres < x'.1 * P.RP - P.RP)) →
      ‖(Vehicle.mk' m beta LD A alpha RN P atm u f st).field d x -
        (Vehicle.mk' m beta LD A alpha RN P atm u f st).field d x'‖ ≤ K * ‖x - x'‖ := by
  set V := Vehicle.mk' m beta LD A alpha RN P atm u f st with hV
  by_cases he : s.r * P.RP - P.RP = P.hThres
  · obtain ⟨a, c, hc0, hc, -, heq, hsm⟩ := below_smooth hF hP hatm m beta LD A alpha RN u f st
    have hab := above_smooth hP atm m beta LD A alpha RN u f st hs he d
    have hbe := hsm s hs he (fun hu => (hf hu).contDiffAt) d
    rw [← hV] at heq hab hbe
    obtain ⟨K₁, U₁, hU₁, h1⟩ := hab.exists_lipschitzOnWith
    obtain ⟨K₂, U₂, hU₂, h2⟩ := hbe.exists_lipschitzOnWith
    have hx : ContinuousAt (fun x : R7 => x.1 * P.RP - P.RP) s.toR7 := by fun_prop
    have hlow : {x : R7 | c < x.1 * P.RP - P.RP} ∈ nhds s.toR7 :=
      hx.eventually (lt_mem_nhds (show c < s.r * P.RP - P.RP by rw [he]; exact hc))
    have below : ∀ x : R7, c < x.1 * P.RP - P.RP → x.1 * P.RP - P.RP < P.hThres →
        V.field d x = (inAtmosphere V (P.hThres + 1) a).field d x := by
      intro x h3 h
      unfold Vehicle.field
      rw [heq (FState.ofR7 x) d 0 (le_of_lt h3) h.le]
    have above : ∀ x : R7, P.hThres < x.1 * P.RP - P.RP →
        V.field d x = (inAtmosphere V (P.hThres - 1) atm).field d x := by
      intro x h
      unfold Vehicle.field
      congr 1
      have z1 : P.density atm (x.1 * P.RP - P.RP) = 0 := by
        rw [Planet.density, if_neg (fun hc => absurd hc.2 (not_le.mpr h)), if_pos (show _ > P.hThres from h)]
      refine inAtmosphere_EOM _ _ _ (FState.ofR7 x) 0 d ?_ (Or.inl z1)
      refine Eq.trans ?_ z1.symm
      exact inAtmosphere_vacuum _ _ _ (show P.hThres - 1 < x.1 * P.RP - P.RP by linarith)
    refine ⟨U₁ ∩ U₂ ∩ {x | c < x.1 * P.RP - P.RP}, Filter.inter_mem (Filter.inter_mem hU₁ hU₂) hlow,
      max K₁ K₂, ?_⟩
    rintro x ⟨⟨hx1, hx2⟩, hx3⟩ x' ⟨⟨hx1', hx2'⟩, hx3'⟩ (⟨q, q'⟩ | ⟨q, q'⟩)
    · rw [below x hx3 q, below x' hx3' q']
      exact ((lipschitzOnWith_iff_norm_sub_le.mp h2) hx2 hx2').trans
        (mul_le_mul_of_nonneg_right (le_max_right _ _) (norm_nonneg _))
    · rw [above x q, above x' q']
      exact ((lipschitzOnWith_iff_norm_sub_le.mp h1) hx1 hx1').trans
        (mul_le_mul_of_nonneg_right (le_max_left _ _) (norm_nonneg _))
  · obtain ⟨K, U, hU, hl⟩ := (field_smooth (shipped_smoothDrag name F hF P hP atm hatm m beta LD A alpha RN u f
      st s (fun hu => (hf hu).contDiffAt) hs.alt he) (departure_r hP hs) hs.v hs.phi hs.gamma
      ((C88_shipped_density_smooth name F hF P hP atm hatm).1 _ hs.alt.ne' he) d).exists_lipschitzOnWith
    exact ⟨U, hU, K, fun x hx x' hx' _ => (lipschitzOnWith_iff_norm_sub_le.mp hl) hx hx'⟩

/-- Near each of its states, a flight is followed closely by curves with small defect. -/
theorem locally_close (d : ℝ) {y : ℝ → FState} {T : ℝ} {S : Finset ℝ}
    (hy : SwitchedFlight (fun t s => (Vehicle.mk' m beta LD A alpha RN P atm u f st).EOM s t d) y 0 T S)
    {t₀ : ℝ} (ht₀ : t₀ ∈ Set.Icc 0 T) (hs : Departure P (y t₀)) :
    ∃ η > 0, ∃ ρ > 0, ∃ C, 1 ≤ C ∧ ∀ s ∈ Set.Icc 0 T, ∀ s' ∈ Set.Icc 0 T, s ≤ s' →
      |s - t₀| < η → |s' - t₀| < η → ∀ (z : ℝ → R7) (δ : ℝ), 0 ≤ δ → δ ≤ ρ →
      Follows ((Vehicle.mk' m beta LD A alpha RN P atm u f st).field d) z s s' δ → ‖z s - (y s).toR7‖ ≤ ρ →
      ∀ r ∈ Set.Icc s s', ‖z r - (y r).toR7‖ + 2 * δ ≤ (‖z s - (y s).toR7‖ + 2 * δ) * C := by
  have hR : 0 < P.RP := (C01_planet_consistent name P hP).2.1
  obtain ⟨U, hU, K₀, hlip⟩ := field_locally_lipschitz hF hP hatm m beta LD A alpha RN u f st hf d hs
  obtain ⟨U', hU', M₀, hbd⟩ := field_locally_bounded hF hP hatm m beta LD A alpha RN u f st hf d hs
  set V := Vehicle.mk' m beta LD A alpha RN P atm u f st with hV
  set x₀ := (y t₀).toR7 with hx₀
  set K := max K₀ 1 with hK
  set M := max M₀ 0 with hM
  have hyF : ∀ δ, 0 ≤ δ → Follows (V.field d) (fun t => (y t).toR7) 0 T δ :=
    fun δ hδ => nearFlight_follows (flight_nearFlight hy hδ)
  have hyc := flight_continuousOn hy
  have rate : ∀ x : R7, (V.field d x).1 = x.2.2.2.1 * sin x.2.2.2.2.2.1 := fun x => rfl
  have rate_cont : Continuous fun x : R7 => x.2.2.2.1 * sin x.2.2.2.2.2.1 := by fun_prop
  -- common part: choose a ball, then a time
  have main : ∀ R > 0, ∀ ρ₁ > 0, ∀ C, 1 ≤ C → Metric.ball x₀ R ⊆ U ∩ U' → (∀ s s' δ (z : ℝ → R7), s ∈ Set.Icc 0 T →
      s' ∈ Set.Icc 0 T → s ≤ s' → s' - s ≤ 1 → 0 ≤ δ → δ ≤ ρ₁ → δ ≤ 1 → Follows (V.field d) z s s' δ →
      (∀ t ∈ Set.Icc s s', z t ∈ Metric.ball x₀ R ∧ (y t).toR7 ∈ Metric.ball x₀ R) →
      ∀ r ∈ Set.Icc s s', ‖z r - (y r).toR7‖ + 2 * δ ≤ (‖z s - (y s).toR7‖ + 2 * δ) * C) →
      ∃ η > 0, ∃ ρ > 0, ∃ C, 1 ≤ C ∧ ∀ s ∈ Set.Icc 0 T, ∀ s' ∈ Set.Icc 0 T, s ≤ s' →
      |s - t₀| < η → |s' - t₀| < η → ∀ (z : ℝ → R7) (δ : ℝ), 0 ≤ δ → δ ≤ ρ →
      Follows (V.field d) z s s' δ → ‖z s - (y s).toR7‖ ≤ ρ →
      ∀ r ∈ Set.Icc s s', ‖z r - (y r).toR7‖ + 2 * δ ≤ (‖z s - (y s).toR7‖ + 2 * δ) * C := by
    intro R hR0 ρ₁ hρ₁ C hC hsub hcl
    obtain ⟨η₁, hη₁, hy1⟩ := Metric.continuousWithinAt_iff.mp (hyc t₀ ht₀) (R / 4) (by positivity)
    have hM0 : 0 ≤ M := le_max_right _ _
    refine ⟨min η₁ (min (1 / 2) (R / (8 * (M + 1)))), lt_min hη₁ (lt_min (by norm_num) (by positivity)),
      min ρ₁ (min 1 (R / 4)), lt_min hρ₁ (lt_min one_pos (by positivity)), C, hC,
      fun s hs s' hs' hss hst hst' z δ hδ hδρ hz hzs => ?_⟩
    have yball : ∀ t ∈ Set.Icc s s', ‖(y t).toR7 - x₀‖ < R / 4 := by
      intro t ht
      have := hy1 (x := t) ⟨hs.1.trans ht.1, ht.2.trans hs'.2⟩ (by
        rw [Real.dist_eq, abs_lt]
        have h1 := (abs_lt.mp (hst.trans_le (min_le_left _ _))).1
        have h2 := (abs_lt.mp (hst'.trans_le (min_le_left _ _))).2
        constructor <;> linarith [ht.1, ht.2])
      rwa [dist_eq_norm] at this
    have hlen : s' - s ≤ 2 * (R / (8 * (M + 1))) ∧ s' - s ≤ 1 := by
      have a1 := (abs_lt.mp (hst.trans_le ((min_le_right _ _).trans (min_le_left _ _)))).1
      have a2 := (abs_lt.mp (hst'.trans_le ((min_le_right _ _).trans (min_le_left _ _)))).2
      have a3 := (abs_lt.mp (hst.trans_le ((min_le_right _ _).trans (min_le_right _ _)))).1
      have a4 := (abs_lt.mp (hst'.trans_le ((min_le_right _ _).trans (min_le_right _ _)))).2
      constructor <;> linarith
    have hδ1 : δ ≤ 1 := hδρ.trans ((min_le_right _ _).trans (min_le_left _ _))
    have zball := hz.stay (M := M + 1) (R := R) (x := x₀) (by linarith) (fun x' hx' => by
        have := hbd x' (hsub hx').2
        have : M₀ ≤ M := le_max_left _ _
        linarith) (by
      have h1 := norm_add_le (z s - (y s).toR7) ((y s).toR7 - x₀)
      rw [sub_add_sub_cancel] at h1
      have h2 := yball s ⟨le_rfl, hss⟩
      have h3 : ‖z s - (y s).toR7‖ ≤ R / 4 := hzs.trans ((min_le_right _ _).trans (min_le_right _ _))
      have h4 : (M + 1) * (s' - s) ≤ (M + 1) * (2 * (R / (8 * (M + 1)))) := mul_le_mul_of_nonneg_left hlen.1 (by linarith)
      have h5 : (M + 1) * (2 * (R / (8 * (M + 1)))) = R / 4 := by
        have : M + 1 ≠ 0 := by linarith
        field_simp
        norm_num
      linarith)
    refine hcl s s' δ z hs hs' hss hlen.2 hδ (hδρ.trans (min_le_left _ _)) hδ1 hz fun t ht => ⟨zball t ht, ?_⟩
    rw [Metric.mem_ball, dist_eq_norm]
    linarith [yball t ht]
  by_cases he : (y t₀).r * P.RP - P.RP = P.hThres
  · -- the flight crosses the edge
    have hr0 : (y t₀).v * sin (y t₀).gamma ≠ 0 := mul_ne_zero hs.v (hs.edge he)
    obtain ⟨σ, hσ, hσr⟩ : ∃ σ : ℝ, (σ = 1 ∨ σ = -1) ∧ 0 < σ * ((y t₀).v * sin (y t₀).gamma) := by
      rcases lt_or_gt_of_ne hr0 with h | h
      · exact ⟨-1, Or.inr rfl, by linarith⟩
      · exact ⟨1, Or.inl rfl, by linarith⟩
    set c := σ * ((y t₀).v * sin (y t₀).gamma) / 4 with hc
    have hc0 : 0 < c := by positivity
    have hcn : {x : R7 | 2 * c < σ * (x.2.2.2.1 * sin x.2.2.2.2.2.1)} ∈ nhds x₀ := by
      have : Continuous fun x : R7 => σ * (x.2.2.2.1 * sin x.2.2.2.2.2.1) := by fun_prop
      exact this.continuousAt.eventually (lt_mem_nhds (show 2 * c < σ * ((y t₀).v * sin (y t₀).gamma) by linarith))
    obtain ⟨R, hR0, hball⟩ := Metric.mem_nhds_iff.mp (Filter.inter_mem (Filter.inter_mem hU hU') hcn)
    set g : R7 → ℝ := fun x => σ * (x.1 - (1 + P.hThres / P.RP)) with hg
    have habs : |σ| = 1 := by rcases hσ with h | h <;> rw [h] <;> simp
    have g1 : ∀ x x', g x - g x' ≤ ‖x - x'‖ := by
      intro x x'
      have e1 : g x - g x' = σ * (x.1 - x'.1) := by simp only [hg]; ring
      rw [e1]
      refine (le_abs_self _).trans ?_
      rw [abs_mul, habs, one_mul]
      exact norm_fst_le (x - x')
    have mono : ∀ s s' δ (z : ℝ → R7), δ ≤ c → Follows (V.field d) z s s' δ →
        (∀ t ∈ Set.Icc s s', z t ∈ Metric.ball x₀ R) →
        ∀ r ∈ Set.Icc s s', ∀ t ∈ Set.Icc s s', r ≤ t → c * (t - r) ≤ g (z t) - g (z r) := by
      intro s s' δ z hδ hz hzb r hr t ht hrt
      obtain ⟨S', w, hw⟩ := hz.moves
      have hgc : Continuous g := by fun_prop
      have := antitoneOn_off (fun t => c * t - g (z t)) S' s s'
        ((show Continuous fun t : ℝ => c * t by fun_prop).continuousOn.sub (hgc.comp_continuousOn hz.cont))
        (fun t ht hS => by
          obtain ⟨h1, h2⟩ := hw t ht hS
          have h30 : HasDerivAt (fun t => (z t).1) (w t).1 t := h1.fst
          have h3 : HasDerivAt (fun t => g (z t)) (σ * (w t).1) t := (h30.sub_const _).const_mul σ
          have h4 : HasDerivAt (fun t => c * t) c t := by simpa using (hasDerivAt_id t).const_mul c
          refine ⟨_, ?_, h4.sub h3⟩
          have h5 : |(w t).1 - (V.field d (z t)).1| ≤ δ := (norm_fst_le (w t - V.field d (z t))).trans h2
          have h6 : 2 * c < σ * (V.field d (z t)).1 := (hball (hzb t (Set.Ioo_subset_Icc_self ht))).2
          have h7 : |σ * ((w t).1 - (V.field d (z t)).1)| ≤ δ := by rw [abs_mul, habs, one_mul]; exact h5
          have h8 := (abs_le.mp h7).1
          have h9 : σ * ((w t).1 - (V.field d (z t)).1) = σ * (w t).1 - σ * (V.field d (z t)).1 := by ring
          linarith)
      have h := this hr ht hrt
      simp only at h
      linarith
    have sides : ∀ x x' : R7, (g x < 0 ∧ g x' < 0) ∨ (0 < g x ∧ 0 < g x') →
        ((x.1 * P.RP - P.RP < P.hThres ∧ x'.1 * P.RP - P.RP < P.hThres) ∨
        (P.hThres < x.1 * P.RP - P.RP ∧ P.hThres < x'.1 * P.RP - P.RP)) := by
      have lo : ∀ x : R7, x.1 - (1 + P.hThres / P.RP) < 0 → x.1 * P.RP - P.RP < P.hThres := by
        intro x h
        have := mul_neg_of_neg_of_pos h hR
        have e : (x.1 - (1 + P.hThres / P.RP)) * P.RP = x.1 * P.RP - P.RP - P.hThres := by field_simp; ring
        linarith
      have hi : ∀ x : R7, 0 < x.1 - (1 + P.hThres / P.RP) → P.hThres < x.1 * P.RP - P.RP := by
        intro x h
        have := mul_pos h hR
        have e : (x.1 - (1 + P.hThres / P.RP)) * P.RP = x.1 * P.RP - P.RP - P.hThres := by field_simp; ring
        linarith
      intro x x' h
      simp only [hg] at h
      rcases hσ with h1 | h1 <;> rw [h1] at h
      · rcases h with ⟨a, b⟩ | ⟨a, b⟩
        · exact Or.inl ⟨lo x (by linarith), lo x' (by linarith)⟩
        · exact Or.inr ⟨hi x (by linarith), hi x' (by linarith)⟩
      · rcases h with ⟨a, b⟩ | ⟨a, b⟩
        · exact Or.inr ⟨hi x (by linarith), hi x' (by linarith)⟩
        · exact Or.inl ⟨lo x (by linarith), lo x' (by linarith)⟩
    have hM0 : 0 ≤ M := le_max_right _ _
    refine main R hR0 c hc0 (exp K * (1 + (2 * M + 2) / c) * exp K) ?_ (fun x hx => (hball hx).1) ?_
    · have e1 : 1 ≤ exp K := one_le_exp ((zero_le_one).trans (le_max_right _ _))
      have e2 : 1 ≤ 1 + (2 * M + 2) / c := by
        have : 0 ≤ (2 * M + 2) / c := by positivity
        linarith
      exact one_le_mul_of_one_le_of_one_le (one_le_mul_of_one_le_of_one_le e1 e2) e1
    · intro s s' δ z hs0 hs1 hss hlen hδ hδc hδ1 hz hb r hr
      have hyf := (hyF δ hδ).mono hs0.1 hs1.2
      have := Follows.cross (g := g) (K := K) (M := M) (c := c) hss hyf hz (le_max_right _ _) hδ hc0 hM0
        (by fun_prop) g1
        (fun t ht => ⟨(hbd _ (hball (hb t ht).2).1.2).trans (le_max_left _ _),
          (hbd _ (hball (hb t ht).1).1.2).trans (le_max_left _ _)⟩)
        (fun t ht hsd => by
          refine (hlip _ (hball (hb t ht).1).1.1 _ (hball (hb t ht).2).1.1 (sides _ _ ?_)).trans
            (mul_le_mul_of_nonneg_right (le_max_left _ _) (norm_nonneg _))
          rcases hsd with h | h
          · exact Or.inl ⟨h.2, h.1⟩
          · exact Or.inr ⟨h.2, h.1⟩)
        (mono s s' δ _ hδc hyf fun t ht => (hb t ht).2) (mono s s' δ _ hδc hz fun t ht => (hb t ht).1) r hr
      refine this.trans (mul_le_mul_of_nonneg_left ?_ (by have := norm_nonneg (z s - (y s).toR7); linarith))
      have hK1 : 1 ≤ K := le_max_right _ _
      have e1 : exp (K * (s' - s)) ≤ exp K := exp_le_exp.mpr (mul_le_of_le_one_right (by linarith) hlen)
      have e2 : 1 + (2 * M + 2 * δ) / c ≤ 1 + (2 * M + 2) / c := by
        have := div_le_div_of_nonneg_right (show 2 * M + 2 * δ ≤ 2 * M + 2 by linarith) hc0.le
        linarith
      have e3 : 0 ≤ 1 + (2 * M + 2 * δ) / c := by positivity
      exact mul_le_mul (mul_le_mul e1 e2 e3 (exp_pos _).le) e1 (exp_pos _).le (by positivity)
  · -- the flight is away from the edge
    have hne : {x : R7 | (y t₀).r * P.RP - P.RP < P.hThres → x.1 * P.RP - P.RP < P.hThres} ∩
        {x : R7 | P.hThres < (y t₀).r * P.RP - P.RP → P.hThres < x.1 * P.RP - P.RP} ∈ nhds x₀ := by
      have hx : ContinuousAt (fun x : R7 => x.1 * P.RP - P.RP) x₀ := by fun_prop
      refine Filter.inter_mem ?_ ?_
      · by_cases h : (y t₀).r * P.RP - P.RP < P.hThres
        · filter_upwards [hx.eventually (gt_mem_nhds h)] with x hx _ using hx
        · exact Filter.Eventually.of_forall fun x h' => absurd h' h
      · by_cases h : P.hThres < (y t₀).r * P.RP - P.RP
        · filter_upwards [hx.eventually (lt_mem_nhds h)] with x hx _ using hx
        · exact Filter.Eventually.of_forall fun x h' => absurd h' h
    obtain ⟨R, hR0, hball⟩ := Metric.mem_nhds_iff.mp (Filter.inter_mem (Filter.inter_mem hU hU') hne)
    refine main R hR0 1 one_pos (exp K) (one_le_exp ((zero_le_one).trans (le_max_right _ _))) (fun x hx => (hball hx).1) ?_
    intro s s' δ z hs0 hs1 hss hlen hδ _ _ hz hb r hr
    have hyf := (hyF δ hδ).mono hs0.1 hs1.2
    have := hyf.close hz (le_max_right K₀ 1) hδ (fun t ht => by
      have htI := Set.Ioo_subset_Icc_self ht
      have b1 := hball (hb t htI).1
      have b2 := hball (hb t htI).2
      refine (hlip _ b1.1.1 _ b2.1.1 ?_).trans (mul_le_mul_of_nonneg_right (le_max_left _ _) (norm_nonneg _))
      rcases lt_or_gt_of_ne he with h | h
      · exact Or.inl ⟨b1.2.1 h, b2.2.1 h⟩
      · exact Or.inr ⟨b1.2.2 h, b2.2.2 h⟩) r hr
    refine this.trans (mul_le_mul_of_nonneg_left ?_ (by have := norm_nonneg (z s - (y s).toR7); linarith))
    have hK1 : 1 ≤ K := le_max_right _ _
    exact exp_le_exp.mpr (mul_le_of_le_one_right (by linarith) (by linarith [hr.2]))

end

/-- C102: along a flight (constant bank angle) errors are multiplied by at most a constant.  Every curve that starts
within `δ₀` of the flight and follows the equations of motion with defect `δ` is, as long as both last, within
`C (δ₀ + 2 δ)` of the flight, also after passing the edge of the atmosphere. -/
theorem C102_errors_grow_linearly (name : String) (F : AtmFile) (hF : (name, F) ∈ shippedFiles) (P : Planet)
    (hP : Planet.init name = .ok P) (atm : Atmosphere) (hatm : LoadedCubic P F.km (fileRows F) atm)
    (m beta LD A alpha RN : ℝ) (u : Bool) (f : ℝ → ℝ) (st : InitState) (hf : u = true → ContDiff ℝ 1 f)
    (d T : ℝ) (hT : 0 ≤ T) (y : ℝ → FState) (S : Finset ℝ)
    (hy : SwitchedFlight (fun t s => (Vehicle.mk' m beta LD A alpha RN P atm u f st).EOM s t d) y 0 T S)
    (hreg : ∀ t ∈ Set.Icc 0 T, Departure P (y t)) :
    ∃ C ρ : ℝ, 1 ≤ C ∧ 0 < ρ ∧ ∀ (z : ℝ → FState) (b δ₀ δ : ℝ) (S' : Finset ℝ), 0 ≤ b → b ≤ T → 0 ≤ δ → δ ≤ ρ → δ₀ ≤ ρ →
      Near δ₀ (z 0) (y 0) →
      NearFlight (fun t s => (Vehicle.mk' m beta LD A alpha RN P atm u f st).EOM s t d) z 0 b S' δ →
      ∀ t ∈ Set.Icc 0 b, Near (C * (δ₀ + 2 * δ)) (z t) (y t) := by
  obtain ⟨ρ, hρ, C, hC, h⟩ := Follows.chain (F := (Vehicle.mk' m beta LD A alpha RN P atm u f st).field d)
    (y := fun t => (y t).toR7) hT
    (fun t ht => locally_close hF hP hatm m beta LD A alpha RN u f st hf d hy ht (hreg t ht))
  refine ⟨C, ρ, hC, hρ, fun z b δ₀ δ S' hb0 hbT hδ hδρ hδ₀ hz0 hz t ht => ?_⟩
  have h0 := (near_iff _ _ _).mp hz0
  have := h b ⟨hb0, hbT⟩ (fun t => (z t).toR7) δ hδ hδρ (nearFlight_follows hz) (h0.trans hδ₀) t ht
  rw [near_iff]
  have h1 : (‖(z 0).toR7 - (y 0).toR7‖ + 2 * δ) * C ≤ (δ₀ + 2 * δ) * C :=
    mul_le_mul_of_nonneg_right (by linarith) (by linarith)
  linarith

/-! ### Nearby flights exist -/

theorem cos_near (a b : ℝ) : cos b - |a - b| ≤ cos a := by
  have := abs_le.mp (abs_cos_sub_cos_le a b)
  linarith [this.1]

theorem safe_near {P : Planet} (hR : 0 < P.RP) {h0 h1 v0 v1 c η κ : ℝ} {s s' : FState} (hs : Safe P h0 h1 v0 v1 c η s)
    (hn : Near κ s' s) (k0 : κ * P.RP ≤ h0 / 2) (k1 : κ * P.RP ≤ 1) (k2 : κ * P.RP ≤ η / 2) (k3 : κ ≤ v0 / 2) (k4 : κ ≤ 1)
    (k5 : κ ≤ c / 2) : Safe P (h0 / 2) (h1 + 1) (v0 / 2) (v1 + 1) (c / 2) (η / 2) s' := by
  have hr : |s'.r * P.RP - s.r * P.RP| ≤ κ * P.RP := by
    rw [← sub_mul, abs_mul, abs_of_pos hR]; exact mul_le_mul_of_nonneg_right hn.r hR.le
  have hr' := abs_le.mp hr
  have hv' := abs_le.mp hn.v
  refine ⟨by linarith [hs.low], by linarith [hs.high], by linarith [hs.slow], by linarith [hs.fast], ?_, ?_, ?_⟩
  · have := cos_near s'.phi s.phi; linarith [hs.phi, hn.phi]
  · have := cos_near s'.gamma s.gamma; linarith [hs.gamma, hn.gamma]
  · rcases hs.edge with h | h
    · left
      have := abs_sub_abs_le_abs_sub (s.r * P.RP - P.RP - P.hThres) (s'.r * P.RP - P.RP - P.hThres)
      have e : s.r * P.RP - P.RP - P.hThres - (s'.r * P.RP - P.RP - P.hThres) = -(s'.r * P.RP - s.r * P.RP) := by ring
      rw [e, abs_neg] at this
      linarith
    · right
      have := abs_sub_abs_le_abs_sub (sin s.gamma) (sin s'.gamma)
      have h2 := abs_sin_sub_sin_le s.gamma s'.gamma
      rw [abs_sub_comm s.gamma] at h2
      linarith [hn.gamma]

/-- C102: if a flight at constant bank angle lasts for the time `T` at a distance from the obstacles of C100, every entry
state close enough to its own has a flight that lasts for the time `T` as well, and the two differ by at most a constant
times the difference of the entry states. -/
theorem C102_nearby_flights_exist (name : String) (F : AtmFile) (hF : (name, F) ∈ shippedFiles) (P : Planet)
    (hP : Planet.init name = .ok P) (atm : Atmosphere) (hatm : LoadedCubic P F.km (fileRows F) atm)
    (m beta LD A alpha RN : ℝ) (u : Bool) (f : ℝ → ℝ) (st : InitState) (hf : u = true → ContDiff ℝ 1 f)
    (d T h0 h1 v0 v1 c η : ℝ) (hT : 0 < T) (hh : 0 < h0) (hv : 0 < v0) (hc : 0 < c) (hη : 0 < η)
    (y : ℝ → FState) (S : Finset ℝ)
    (hy : SwitchedFlight (fun t s => (Vehicle.mk' m beta LD A alpha RN P atm u f st).EOM s t d) y 0 T S)
    (hreg : ∀ t ∈ Set.Icc 0 T, Safe P h0 h1 v0 v1 c η (y t)) :
    ∃ C ρ : ℝ, 1 ≤ C ∧ 0 < ρ ∧ ∀ (s : FState) (δ₀ : ℝ), δ₀ ≤ ρ → Near δ₀ s (y 0) →
      ∃ (z : ℝ → FState) (S' : Finset ℝ), z 0 = s ∧
        SwitchedFlight (fun t s => (Vehicle.mk' m beta LD A alpha RN P atm u f st).EOM s t d) z 0 T S' ∧
        ∀ t ∈ Set.Icc 0 T, Near (C * δ₀) (z t) (y t) := by
  have hR : 0 < P.RP := (C01_planet_consistent name P hP).2.1
  obtain ⟨C, ρ, hC, hρ, hclose⟩ := C102_errors_grow_linearly name F hF P hP atm hatm m beta LD A alpha RN u f st hf d T
    hT.le y S hy (fun t ht => (hreg t ht).departure hh hv hc hη)
  set κ := min (min (min (h0 / 2 / P.RP) (1 / P.RP)) (min (η / 2 / P.RP) (v0 / 2))) (min 1 (c / 2)) with hκ
  have hκ0 : 0 < κ := by
    rw [hκ]; simp only [lt_min_iff]
    exact ⟨⟨⟨by positivity, by positivity⟩, ⟨by positivity, by positivity⟩⟩, by positivity, by positivity⟩
  obtain ⟨⟨⟨k0, k1⟩, ⟨k2, k3⟩⟩, k4, k5⟩ : ((κ ≤ h0 / 2 / P.RP ∧ κ ≤ 1 / P.RP) ∧ (κ ≤ η / 2 / P.RP ∧ κ ≤ v0 / 2)) ∧
      κ ≤ 1 ∧ κ ≤ c / 2 := by
    have := le_refl κ
    nth_rewrite 2 [hκ] at this
    simpa only [le_min_iff] using this
  rw [le_div_iff₀ hR] at k0 k1 k2
  have hC0 : 0 < C := by linarith
  refine ⟨C, min ρ (κ / C), hC, lt_min hρ (by positivity), fun s δ₀ hδ hs => ?_⟩
  have hδ1 : δ₀ ≤ ρ := hδ.trans (min_le_left _ _)
  have hδ2 : C * δ₀ ≤ κ := by
    have := hδ.trans (min_le_right _ _)
    rw [le_div_iff₀ hC0] at this
    linarith
  have hδ0 : 0 ≤ δ₀ := (abs_nonneg _).trans hs.r
  have mono : ∀ {a b : FState} {x : ℝ}, Near x a b → x ≤ κ → Near κ a b := fun hn hx =>
    ⟨hn.r.trans hx, hn.theta.trans hx, hn.phi.trans hx, hn.v.trans hx, hn.psi.trans hx, hn.gamma.trans hx,
      hn.drange.trans hx⟩
  have hs0 : Safe P (h0 / 2) (h1 + 1) (v0 / 2) (v1 + 1) (c / 2) (η / 2) s :=
    safe_near hR (hreg 0 ⟨le_rfl, hT.le⟩) (mono hs (by nlinarith)) k0 k1 k2 k3 k4 k5
  obtain ⟨z, b, S', hb0, hbT, z0, hz, hcase⟩ := C100_flight_continues name F hF P hP atm hatm m beta LD A alpha RN u f st
    hf d T (h0 / 2) (h1 + 1) (v0 / 2) (v1 + 1) (c / 2) (η / 2) hT (by linarith) (by linarith) (by linarith) (by linarith)
    s hs0
  have hnear : ∀ t ∈ Set.Icc 0 b, Near (C * δ₀) (z t) (y t) := by
    have := hclose z b δ₀ 0 S' hb0.le hbT le_rfl hρ.le hδ1 (by rw [z0]; exact hs) (flight_nearFlight hz le_rfl)
    simpa using this
  rcases hcase with ⟨rfl, -⟩ | ⟨τ, hτ, -, hleave⟩
  · exact ⟨z, S', z0, hz, hnear⟩
  · exfalso
    obtain ⟨t, ht, htb, hns⟩ := hleave 1 one_pos
    have ht0 : t ∈ Set.Icc 0 b := ⟨hτ.1.trans ht.1.le, htb⟩
    exact hns (safe_near hR (hreg t ⟨ht0.1, htb.trans hbT⟩) (mono (hnear t ht0) hδ2) k0 k1 k2 k3 k4 k5)

/-! ### Verdicts -/

/-- Two altitudes lie on the same side of the surface and of the two altitudes used to classify flights. -/
structure SameSide (P : Planet) (x y : ℝ) : Prop where
  ground : 0 ≤ x ↔ 0 ≤ y
  above : P.hSkip < x ↔ P.hSkip < y
  below : x < P.hSkip ↔ y < P.hSkip
  trapped : x < P.hTrap ↔ y < P.hTrap
  atTrap : x ≤ P.hTrap ↔ y ≤ P.hTrap

theorem classify_congr (P : Planet) {ι : Type} (l : List ι) (r r' : ι → ℝ)
    (h : ∀ i ∈ l, SameSide P (P.computeH (r i)) (P.computeH (r' i))) :
    P.classifyTrajectory (l.map r) = P.classifyTrajectory (l.map r') := by
  rcases eq_or_ne l [] with rfl | hne
  · rfl
  have e1 : (l.map r).map P.computeH ≠ [] := by simpa using hne
  have e2 : (l.map r').map P.computeH ≠ [] := by simpa using hne
  obtain ⟨M, hM, hMm, hMb⟩ := pyMax_spec e1
  obtain ⟨m, hm, hmm, hmb⟩ := pyMin_spec e1
  obtain ⟨M', hM', hMm', hMb'⟩ := pyMax_spec e2
  obtain ⟨m', hm', hmm', hmb'⟩ := pyMin_spec e2
  simp only [List.map_map, List.mem_map, Function.comp_apply, forall_exists_index, and_imp,
    forall_apply_eq_imp_iff₂] at hMm hMb hmm hmb hMm' hMb' hmm' hmb'
  obtain ⟨iM, hiM, eM⟩ := hMm
  obtain ⟨im, him, em⟩ := hmm
  obtain ⟨jM, hjM, eM'⟩ := hMm'
  obtain ⟨jm, hjm, em'⟩ := hmm'
  have c1 : 0 ≤ m ↔ 0 ≤ m' :=
    ⟨fun hx => by rw [← em']; exact (h jm hjm).ground.mp (hx.trans (hmb jm hjm)),
      fun hx => by rw [← em]; exact (h im him).ground.mpr (hx.trans (hmb' im him))⟩
  have c2 : P.hSkip < M ↔ P.hSkip < M' :=
    ⟨fun hx => lt_of_lt_of_le ((h iM hiM).above.mp (eM ▸ hx)) (hMb' iM hiM),
      fun hx => lt_of_lt_of_le ((h jM hjM).above.mpr (eM' ▸ hx)) (hMb jM hjM)⟩
  have c3 : P.hTrap ≤ m ↔ P.hTrap ≤ m' := by
    rw [← not_lt, ← not_lt, not_iff_not]
    exact ⟨fun hx => lt_of_le_of_lt (hmb' im him) ((h im him).trapped.mp (em ▸ hx)),
      fun hx => lt_of_le_of_lt (hmb jm hjm) ((h jm hjm).trapped.mpr (em' ▸ hx))⟩
  have c4 : M < P.hSkip ↔ M' < P.hSkip :=
    ⟨fun hx => by rw [← eM']; exact (h jM hjM).below.mp ((hMb jM hjM).trans_lt hx),
      fun hx => by rw [← eM]; exact (h iM hiM).below.mpr ((hMb' iM hiM).trans_lt hx)⟩
  have c5 : m ≤ P.hTrap ↔ m' ≤ P.hTrap :=
    ⟨fun hx => (hmb' im him).trans ((h im him).atTrap.mp (em ▸ hx)),
      fun hx => (hmb jm hjm).trans ((h jm hjm).atTrap.mpr (em' ▸ hx))⟩
  have b1 : ((l.map r).map P.computeH).map (fun x => decide (x > P.hSkip)) =
      ((l.map r').map P.computeH).map fun x => decide (x > P.hSkip) := by
    simp only [List.map_map]
    exact List.map_congr_left fun i hi => decide_eq_decide.mpr (h i hi).above
  have b2 : ((l.map r).map P.computeH).map (fun x => decide (x < P.hTrap)) =
      ((l.map r').map P.computeH).map fun x => decide (x < P.hTrap) := by
    simp only [List.map_map]
    exact List.map_congr_left fun i hi => decide_eq_decide.mpr (h i hi).trapped
  rw [classify_eq P hM hm, classify_eq P hM' hm', b1, b2]
  simp only [ge_iff_le, gt_iff_lt, c1, c2, c3, c4, c5, List.length_map]

theorem sameSide_near {P : Planet} {x y ε : ℝ} (h : |x - y| < ε) (h0 : ε ≤ |y|) (h1 : ε ≤ |y - P.hTrap|)
    (h2 : ε ≤ |y - P.hSkip|) : SameSide P x y := by
  have key : ∀ c, ε ≤ |y - c| → (c < x ↔ c < y) ∧ (x < c ↔ y < c) := by
    intro c hc
    have hd := abs_lt.mp h
    rcases le_abs.mp hc with h' | h'
    · exact ⟨⟨fun _ => by linarith, fun _ => by linarith⟩, ⟨fun _ => by linarith, fun _ => by linarith⟩⟩
    · exact ⟨⟨fun _ => by linarith, fun _ => by linarith⟩, ⟨fun _ => by linarith, fun _ => by linarith⟩⟩
  have k0 := key 0 (by simpa using h0)
  have k1 := key _ h1
  have k2 := key _ h2
  exact ⟨by rw [← not_lt, ← not_lt, not_iff_not]; exact k0.2, k2.1, k2.2, k1.2,
    by rw [← not_lt, ← not_lt, not_iff_not]; exact k1.1⟩

theorem SameSide.rfl' {P : Planet} (x : ℝ) : SameSide P x x := ⟨Iff.rfl, Iff.rfl, Iff.rfl, Iff.rfl, Iff.rfl⟩

theorem list_margin {ι : Type} (l : List ι) (g : ι → ℝ) (h : ∀ i ∈ l, 0 < g i) : ∃ ε > 0, ∀ i ∈ l, ε ≤ g i := by
  induction l with
  | nil => exact ⟨1, one_pos, by simp⟩
  | cons a l ih =>
    obtain ⟨ε, hε, hall⟩ := ih fun i hi => h i (List.mem_cons_of_mem _ hi)
    refine ⟨min ε (g a), lt_min hε (h a List.mem_cons_self), fun i hi => ?_⟩
    rcases List.mem_cons.mp hi with rfl | hi
    · exact min_le_right _ _
    · exact (min_le_left _ _).trans (hall i hi)

/-- C102: the verdict of `propogateEntry` is the verdict on the exact flight, and stays the same under small changes.  If
the exact flight is, after its start, at none of the output times at one of the altitudes that separate the verdicts, then
every run from an entry state close enough (at the same entry altitude) whose samples are close enough to a flight that
follows the equations of motion closely enough returns the same index and the same exit flag. -/
theorem C102_verdict_stable (name : String) (F : AtmFile) (hF : (name, F) ∈ shippedFiles) (P : Planet)
    (hP : Planet.init name = .ok P) (atm : Atmosphere) (hatm : LoadedCubic P F.km (fileRows F) atm)
    (m beta LD A alpha RN : ℝ) (u : Bool) (f : ℝ → ℝ) (st : InitState) (hf : u = true → ContDiff ℝ 1 f)
    (tSec dt deltaDeg : ℝ) (ht : 0 ≤ tSec) (hdt : 0 < dt) (y : ℝ → FState) (S : Finset ℝ)
    (hy0 : y 0 = P.nonDimState (Vehicle.entryState P st))
    (hy : SwitchedFlight (fun t s => (Vehicle.mk' m beta LD A alpha RN P atm u f st).EOM s t (deltaDeg * π / 180.0)) y 0
      ((tSec + dt) / P.tau) S)
    (hreg : ∀ t ∈ Set.Icc 0 ((tSec + dt) / P.tau), Departure P (y t))
    (hoff : ∀ t ∈ Vehicle.tGrid P tSec dt, t ≠ 0 →
      (y t).r * P.RP - P.RP ≠ P.hTrap ∧ (y t).r * P.RP - P.RP ≠ P.hSkip) :
    ∃ ρ > 0, ∀ (W : Vehicle) (I : Integrator) (mode : ScipyMode) (out : PropOut) (z : ℝ → FState) (S' : Finset ℝ),
      OdeintLike I → W.planet = P → W.init.h0Km = st.h0Km →
      z 0 = P.nonDimState (Vehicle.entryState P W.init) → Near ρ (z 0) (y 0) →
      NearFlight (fun t s => (Vehicle.mk' m beta LD A alpha RN P atm u f st).EOM s t (deltaDeg * π / 180.0)) z 0
        ((tSec + dt) / P.tau) S' ρ →
      (∀ p ∈ samples W I tSec dt deltaDeg, Near ρ p.2 (z p.1)) →
      W.propogateEntry mode I tSec dt deltaDeg = .ok out →
      P.classifyTrajectory ((Vehicle.tGrid P tSec dt).map fun t => (y t).r * P.RP) = .ok (out.index, out.exitflag) := by
  obtain ⟨_, hR, _, _, _, _, _, _, _, htau, _⟩ := C01_planet_consistent name P hP
  have hT : 0 ≤ (tSec + dt) / P.tau := by positivity
  obtain ⟨C, ρ, hC, hρ, hclose⟩ := C102_errors_grow_linearly name F hF P hP atm hatm m beta LD A alpha RN u f st hf
    (deltaDeg * π / 180.0) _ hT y S hy hreg
  obtain ⟨g1, g2⟩ := tGrid_get name P hP tSec dt ht hdt
  have hgrid : ∀ t ∈ Vehicle.tGrid P tSec dt, t ∈ Set.Icc 0 ((tSec + dt) / P.tau) := by
    intro t hmem
    obtain ⟨k, hk⟩ := List.mem_iff_getElem?.mp hmem
    have hkl : k < ⌈tSec / dt⌉₊ + 1 := by
      by_contra hn
      rw [List.getElem?_eq_none (by omega)] at hk
      simp at hk
    rw [g2 k hkl] at hk
    obtain rfl := Option.some.inj hk
    refine ⟨by positivity, ?_⟩
    have h1 : (k:ℝ) ≤ ⌈tSec / dt⌉₊ := by exact_mod_cast Nat.lt_succ_iff.mp hkl
    have h2 := Nat.ceil_lt_add_one (show 0 ≤ tSec / dt by positivity)
    have h3 : (k:ℝ) * dt ≤ tSec + dt := by
      have := mul_le_mul_of_nonneg_right (h1.trans h2.le) hdt.le
      rwa [add_mul, div_mul_cancel₀ _ hdt.ne', one_mul] at this
    exact div_le_div_of_nonneg_right h3 htau.le
  set alt : ℝ → ℝ := fun t => (y t).r * P.RP - P.RP with halt
  obtain ⟨ε, hε, hmargin⟩ := list_margin (Vehicle.tGrid P tSec dt)
    (fun t => if t = 0 then 1 else min |alt t| (min |alt t - P.hTrap| |alt t - P.hSkip|)) (by
      intro t hmem
      split_ifs with h0
      · exact one_pos
      · obtain ⟨n1, n2⟩ := hoff t hmem h0
        have n0 := (hreg t (hgrid t hmem)).alt
        exact lt_min (abs_pos.mpr n0.ne') (lt_min (abs_pos.mpr (sub_ne_zero.mpr n1)) (abs_pos.mpr (sub_ne_zero.mpr n2))))
  refine ⟨min ρ (ε / (2 * (1 + 3 * C) * P.RP)), lt_min hρ (by positivity), ?_⟩
  intro W I mode out z S' hI hW hh0 hz0 hnear hzf hsamp hrun
  set κ := min ρ (ε / (2 * (1 + 3 * C) * P.RP)) with hκ
  have hκ0 : 0 ≤ κ := (abs_nonneg _).trans hnear.r
  have hκρ : κ ≤ ρ := min_le_left _ _
  have hκε : (1 + 3 * C) * κ * P.RP < ε := by
    have h1 : κ ≤ ε / (2 * (1 + 3 * C) * P.RP) := min_le_right _ _
    rw [le_div_iff₀ (by positivity)] at h1
    linarith
  have hzy := hclose z _ κ κ S' hT le_rfl hκ0 hκρ hκρ hnear hzf
  have hp : W.postProcess mode (TrajArrays.ofSamples (samples W I tSec dt deltaDeg)) (deltaDeg * π / 180.0) 0
    = .ok out := hrun
  obtain ⟨idx, flag, qc, qr, heat, hc, -, -, -, rfl⟩ := postProcess_inv hp
  have hrr : (W.planet.dimensionalizeArr (TrajArrays.ofSamples (samples W I tSec dt deltaDeg))).r
      = (samples W I tSec dt deltaDeg).map (fun p => p.2.r * P.RP) := by
    simp [Planet.dimensionalizeArr, TrajArrays.ofSamples, Function.comp_def, hW]
  obtain ⟨i1, i2⟩ := hI (fun t y => W.EOM y t (deltaDeg * π / 180.0))
    (W.planet.nonDimState (Vehicle.entryState W.planet W.init)) (Vehicle.tGrid W.planet tSec dt)
  have j1 : (samples W I tSec dt deltaDeg).map Prod.fst = Vehicle.tGrid P tSec dt := by rw [← hW]; exact i1
  have j2 : ∀ p, (samples W I tSec dt deltaDeg).head? = some p →
      p.2 = P.nonDimState (Vehicle.entryState P W.init) := by rw [← hW]; exact i2
  rw [hrr, hW] at hc
  rw [← j1, List.map_map]
  refine Eq.trans ?_ hc
  refine (classify_congr P _ _ _ fun p hmem => ?_).symm
  have hpg : p.1 ∈ Vehicle.tGrid P tSec dt := by rw [← j1]; exact List.mem_map_of_mem hmem
  simp only [Planet.computeH, Function.comp_apply]
  rcases eq_or_ne p.1 0 with h0 | h0
  · -- the first sample is the entry state
    obtain ⟨k, hk⟩ := List.mem_iff_getElem?.mp hmem
    have hk' : (Vehicle.tGrid P tSec dt)[k]? = some p.1 := by rw [← j1, List.getElem?_map, hk]; rfl
    have hkl : k < ⌈tSec / dt⌉₊ + 1 := by
      by_contra hn
      rw [List.getElem?_eq_none (by omega)] at hk'
      simp at hk'
    rw [g2 k hkl, h0] at hk'
    have hk0 : k = 0 := by
      have := Option.some.inj hk'
      rcases div_eq_zero_iff.mp this with h | h
      · rcases mul_eq_zero.mp h with h | h
        · exact_mod_cast h
        · exact absurd h hdt.ne'
      · exact absurd h htau.ne'
    subst hk0
    have hhead : (samples W I tSec dt deltaDeg).head? = some p := by rw [List.head?_eq_getElem?]; exact hk
    have e : p.2.r = (y p.1).r := by
      rw [j2 p hhead, h0, hy0]
      simp only [Planet.nonDimState, Vehicle.entryState, hh0]
    rw [e]
    exact SameSide.rfl' _
  · have hm := hmargin p.1 hpg
    simp only [h0, if_false, le_min_iff] at hm
    have a1 := (hsamp p hmem).r
    have a2 := (hzy p.1 (hgrid p.1 hpg)).r
    have a3 : |p.2.r - (y p.1).r| ≤ (1 + 3 * C) * κ := by
      have := abs_sub_le p.2.r (z p.1).r (y p.1).r
      linarith
    refine sameSide_near (ε := ε) ?_ hm.1 hm.2.1 hm.2.2
    have e : p.2.r * P.RP - P.RP - ((y p.1).r * P.RP - P.RP) = (p.2.r - (y p.1).r) * P.RP := by ring
    rw [e, abs_mul, abs_of_pos hR]
    exact (mul_le_mul_of_nonneg_right a3 hR.le).trans_lt hκε

/-! ### Other vehicles and bank angles -/

theorem density_bounded {name : String} {F : AtmFile} (hF : (name, F) ∈ shippedFiles) {P : Planet}
    (hP : Planet.init name = .ok P) {atm : Atmosphere} (hatm : LoadedCubic P F.km (fileRows F) atm) {h0 : ℝ} (hh : 0 < h0) :
    ∃ B : ℝ, 0 ≤ B ∧ ∀ h, h0 ≤ h → |P.density atm h| ≤ B := by
  obtain ⟨_, _, _, _, _, hTr, hTS, hST, _⟩ := C01_planet_consistent name P hP
  have hT : 0 < P.hThres := by linarith
  obtain ⟨r, hr, r', hr', e0, e1⟩ := table_covers hF hP
  obtain ⟨p, hp, c₁, hc₁, hpe⟩ := interp_left_polynomial hatm.2.2.1 (t := P.hThres) (List.mem_map.mpr ⟨r, hr, rfl⟩)
    (List.mem_map.mpr ⟨r', hr', rfl⟩) (lt_of_le_of_lt e0 hT) e1
  obtain ⟨B1, hB1⟩ := (isCompact_Icc (a := c₁) (b := P.hThres)).exists_bound_of_continuousOn hp.continuous.continuousOn
  obtain ⟨B2, hB2⟩ := (isCompact_Icc (a := h0) (b := c₁)).exists_bound_of_continuousOn (f := P.density atm)
    (fun h hmem => (((C88_shipped_density_smooth name F hF P hP atm hatm).1 h (by linarith [hmem.1])
      (by linarith [hmem.2])).continuousAt).continuousWithinAt)
  refine ⟨max 0 (max B1 B2), le_max_left _ _, fun h hge => ?_⟩
  rcases lt_or_ge P.hThres h with hgt | hle
  · rw [Planet.density, if_neg (fun hc => absurd hc.2 (not_le.mpr hgt)), if_pos (show h > P.hThres from hgt)]
    norm_num
  · rcases le_or_gt h c₁ with hc | hc
    · exact (hB2 h ⟨hge, hc⟩).trans ((le_max_right _ _).trans (le_max_right _ _))
    · rw [Planet.density, if_pos ⟨by linarith, hle⟩, hpe h hc.le hle]
      exact (hB1 h ⟨hc.le, hle⟩).trans ((le_max_left _ _).trans (le_max_right _ _))

theorem lift_closed {P : Planet} (hR : 0 < P.RP) (hrho : 0 < P.rho0) (atm : Atmosphere) {m A beta : ℝ} (hm : 0 < m)
    (hA : 0 < A) (hb : 0 < beta) (LD alpha RN : ℝ) (u : Bool) (f : ℝ → ℝ) (st : InitState) (s : FState) (x : ℝ) :
    ((Vehicle.mk' m beta LD A alpha RN P atm u f st).Lbar s.r s.theta s.phi s.v + 0.0 * sin alpha) * x /
      (Vehicle.mk' m beta LD A alpha RN P atm u f st).mbar =
      1 / 2 * P.density atm (s.r * P.RP - P.RP) * s.v ^ 2 * P.RP * (LD * x / beta) := by
  have e0 : (0.0 : ℝ) = 0 := by norm_num
  have e5 : (0.5 : ℝ) = 1 / 2 := by norm_num
  have hrb : P.rhobar atm s.r s.theta s.phi = P.density atm (s.r * P.RP - P.RP) / P.rho0 := rfl
  simp only [Vehicle.Lbar, Vehicle.mk', hrb, e0, e5, zero_mul, add_zero]
  field_simp

theorem drag_closed {P : Planet} (hR : 0 < P.RP) (hrho : 0 < P.rho0) (atm : Atmosphere) {m A beta : ℝ} (hm : 0 < m)
    (hA : 0 < A) (hb : 0 < beta) (LD alpha RN : ℝ) (f : ℝ → ℝ) (st : InitState) (s : FState) (d : ℝ) :
    (Vehicle.mk' m beta LD A alpha RN P atm false f st).a_sbar s.r s.theta s.phi s.v d =
      -(1 / 2 * P.density atm (s.r * P.RP - P.RP) * s.v ^ 2 * P.RP * (1 / beta)) := by
  have e0 : (0.0 : ℝ) = 0 := by norm_num
  have e5 : (0.5 : ℝ) = 1 / 2 := by norm_num
  have hrb : P.rhobar atm s.r s.theta s.phi = P.density atm (s.r * P.RP - P.RP) / P.rho0 := rfl
  simp only [Vehicle.a_sbar, Vehicle.Dbar, Vehicle.mk', hrb, e0, e5, zero_mul, zero_sub, Bool.false_eq_true, if_false]
  field_simp

theorem shared_terms3 (a a' g x p q r : ℝ) :
    (a' + g) / x - p + q + r - ((a + g) / x - p + q + r) = a' / x - a / x := by ring

theorem shared_terms (a a' g x p q r : ℝ) :
    (a' + g) / x + p + q + r - ((a + g) / x + p + q + r) = a' / x - a / x := by ring

theorem eom_near {P : Planet} (hR : 0 < P.RP) (hrho : 0 < P.rho0) (atm : Atmosphere) {m A : ℝ} (hm : 0 < m) (hA : 0 < A)
    {beta beta' : ℝ} (hb : 0 < beta) (hb' : 0 < beta') (LD LD' alpha alpha' RN RN' : ℝ) (u : Bool) (f : ℝ → ℝ)
    (st st' : InitState) {B h0 h1 v0 v1 c η e : ℝ} (hv : 0 < v0) (hc : 0 < c) (hB0 : 0 ≤ B)
    (hB : ∀ h, h0 ≤ h → |P.density atm h| ≤ B) (d d' t : ℝ) {s : FState} (hs : Safe P h0 h1 v0 v1 c η s)
    (e1 : |1 / beta' - 1 / beta| ≤ e) (e2 : |LD' * cos d' / beta' - LD * cos d / beta| ≤ e)
    (e3 : |LD' * sin d' / beta' - LD * sin d / beta| ≤ e) :
    Near (B * P.RP * (v1 ^ 2 + v1 + v1 / c) * e) ((Vehicle.mk' m beta' LD' A alpha' RN' P atm u f st').EOM s t d')
      ((Vehicle.mk' m beta LD A alpha RN P atm u f st).EOM s t d) := by
  have hs0 := hs.slow
  have hs1 := hs.fast
  have hspos : 0 < s.v := hv.trans_le hs0
  have hv1 : 0 < v1 := hspos.trans_le hs1
  have he : 0 ≤ e := (abs_nonneg _).trans e1
  have hcg : 0 < cos s.gamma := hc.trans_le hs.gamma
  have hD := hB _ hs.low
  set D := P.density atm (s.r * P.RP - P.RP) with hDdef
  have hK : 0 ≤ B * P.RP * (v1 ^ 2 + v1 + v1 / c) * e := by positivity
  have z0 : ∀ a : ℝ, |a - a| ≤ B * P.RP * (v1 ^ 2 + v1 + v1 / c) * e := fun a => by
    rw [sub_self, abs_zero]; exact hK
  have hrb : P.rhobar atm s.r s.theta s.phi = D / P.rho0 := rfl
  have hvv : s.v ^ 2 ≤ v1 ^ 2 := pow_le_pow_left₀ hspos.le hs1 2
  refine ⟨z0 _, z0 _, z0 _, ?_, ?_, ?_, z0 _⟩
  · -- speed
    change |((Vehicle.mk' m beta' LD' A alpha' RN' P atm u f st').a_sbar s.r s.theta s.phi s.v d' + _ + _) -
      ((Vehicle.mk' m beta LD A alpha RN P atm u f st).a_sbar s.r s.theta s.phi s.v d + _ + _)| ≤ _
    have key : |(Vehicle.mk' m beta' LD' A alpha' RN' P atm u f st').a_sbar s.r s.theta s.phi s.v d' -
        (Vehicle.mk' m beta LD A alpha RN P atm u f st).a_sbar s.r s.theta s.phi s.v d| ≤
        B * P.RP * (v1 ^ 2 + v1 + v1 / c) * e := by
      cases u with
      | true =>
        have e00 : (0.0 : ℝ) = 0 := by norm_num
        have e : (Vehicle.mk' m beta' LD' A alpha' RN' P atm true f st').a_sbar s.r s.theta s.phi s.v d' =
            (Vehicle.mk' m beta LD A alpha RN P atm true f st).a_sbar s.r s.theta s.phi s.v d := by
          simp only [Vehicle.a_sbar, e00, zero_mul]
          rfl
        rw [e]
        exact z0 _
      | false =>
        rw [drag_closed hR hrho atm hm hA hb, drag_closed hR hrho atm hm hA hb', ← hDdef]
        have e : -(1 / 2 * D * s.v ^ 2 * P.RP * (1 / beta')) - -(1 / 2 * D * s.v ^ 2 * P.RP * (1 / beta)) =
          D * (s.v ^ 2 * (1 / 2 * P.RP)) * -(1 / beta' - 1 / beta) := by ring
        rw [e, abs_mul, abs_neg, abs_mul, abs_of_nonneg (show 0 ≤ s.v ^ 2 * (1 / 2 * P.RP) by positivity)]
        refine (mul_le_mul (mul_le_mul hD (mul_le_mul_of_nonneg_right hvv (by positivity)) (by positivity) hB0) e1
          (abs_nonneg _) (by positivity)).trans ?_
        refine mul_le_mul_of_nonneg_right ?_ he
        rw [mul_assoc B]
        refine mul_le_mul_of_nonneg_left ?_ hB0
        have : 0 ≤ P.RP * v1 + P.RP * (v1 / c) + P.RP * v1 ^ 2 / 2 := by positivity
        nlinarith
    convert key using 2
    exact (add_sub_add_right_eq_sub _ _ _).trans (add_sub_add_right_eq_sub _ _ _)
  · -- heading
    have key : |(1 / 2 * D * s.v ^ 2 * P.RP * (LD' * sin d' / beta')) / (s.v * (cos s.gamma + 1e-2)) -
        (1 / 2 * D * s.v ^ 2 * P.RP * (LD * sin d / beta)) / (s.v * (cos s.gamma + 1e-2))| ≤
        B * P.RP * (v1 ^ 2 + v1 + v1 / c) * e := by
      have e100 : (1e-2 : ℝ) = 1 / 100 := by norm_num
      rw [e100]
      have hden : 0 < cos s.gamma + 1 / 100 := by linarith
      have e : (1 / 2 * D * s.v ^ 2 * P.RP * (LD' * sin d' / beta')) / (s.v * (cos s.gamma + 1 / 100)) -
        (1 / 2 * D * s.v ^ 2 * P.RP * (LD * sin d / beta)) / (s.v * (cos s.gamma + 1 / 100)) =
        D * (s.v / (cos s.gamma + 1 / 100) * (1 / 2 * P.RP)) * (LD' * sin d' / beta' - LD * sin d / beta) := by
        field_simp
      have hq : s.v / (cos s.gamma + 1 / 100) ≤ v1 / c :=
        div_le_div₀ hv1.le hs1 hc (by linarith [hs.gamma])
      rw [e, abs_mul, abs_mul, abs_of_nonneg (show 0 ≤ s.v / (cos s.gamma + 1 / 100) * (1 / 2 * P.RP) by positivity)]
      refine (mul_le_mul (mul_le_mul hD (mul_le_mul_of_nonneg_right hq (by positivity)) (by positivity) hB0) e3
        (abs_nonneg _) (by positivity)).trans ?_
      refine mul_le_mul_of_nonneg_right ?_ he
      rw [mul_assoc B]
      refine mul_le_mul_of_nonneg_left ?_ hB0
      have : 0 ≤ P.RP * v1 + P.RP * (v1 / c) + P.RP * v1 ^ 2 := by positivity
      have : 0 ≤ P.RP * (v1 / c) := by positivity
      have : 0 ≤ P.RP * v1 := by positivity
      have : 0 ≤ P.RP * v1 ^ 2 := by positivity
      linarith
    rw [← lift_closed hR hrho atm hm hA hb' LD' alpha' RN' u f st' s (sin d'),
      ← lift_closed hR hrho atm hm hA hb LD alpha RN u f st s (sin d)] at key
    refine le_of_eq_of_le (congrArg abs ?_) key
    exact shared_terms3 _ _ _ _ _ _ _
  · -- flight path angle
    have key : |(1 / 2 * D * s.v ^ 2 * P.RP * (LD' * cos d' / beta')) / s.v -
        (1 / 2 * D * s.v ^ 2 * P.RP * (LD * cos d / beta)) / s.v| ≤ B * P.RP * (v1 ^ 2 + v1 + v1 / c) * e := by
      have e : (1 / 2 * D * s.v ^ 2 * P.RP * (LD' * cos d' / beta')) / s.v -
        (1 / 2 * D * s.v ^ 2 * P.RP * (LD * cos d / beta)) / s.v =
        D * (s.v * (1 / 2 * P.RP)) * (LD' * cos d' / beta' - LD * cos d / beta) := by
        field_simp
      rw [e, abs_mul, abs_mul, abs_of_nonneg (show 0 ≤ s.v * (1 / 2 * P.RP) by positivity)]
      refine (mul_le_mul (mul_le_mul hD (mul_le_mul_of_nonneg_right hs1 (by positivity)) (by positivity) hB0) e2
        (abs_nonneg _) (by positivity)).trans ?_
      refine mul_le_mul_of_nonneg_right ?_ he
      rw [mul_assoc B]
      refine mul_le_mul_of_nonneg_left ?_ hB0
      have : 0 ≤ P.RP * (v1 / c) := by positivity
      have : 0 ≤ P.RP * v1 := by positivity
      have : 0 ≤ P.RP * v1 ^ 2 := by positivity
      linarith
    rw [← lift_closed hR hrho atm hm hA hb' LD' alpha' RN' u f st' s (cos d'),
      ← lift_closed hR hrho atm hm hA hb LD alpha RN u f st s (cos d)] at key
    refine le_of_eq_of_le (congrArg abs ?_) key
    exact shared_terms _ _ _ _ _ _ _

theorem param_near {beta beta' LD LD' δ x x' : ℝ} (hb : 0 < beta) (hδb : δ ≤ beta / 2) (h1 : |beta' - beta| ≤ δ)
    (h2 : |LD' - LD| ≤ δ) (h3 : |x' - x| ≤ δ) (hx : |x| ≤ 1) (hx' : |x'| ≤ 1) :
    0 < beta' ∧ |1 / beta' - 1 / beta| ≤ (2 * (1 + |LD|) / beta + 2 * (1 + |LD|) / beta ^ 2) * δ ∧
    |LD' * x' / beta' - LD * x / beta| ≤ (2 * (1 + |LD|) / beta + 2 * (1 + |LD|) / beta ^ 2) * δ := by
  have hδ : 0 ≤ δ := (abs_nonneg _).trans h1
  have hL := abs_nonneg LD
  have a1 := abs_le.mp h1
  have hb2 : beta / 2 ≤ beta' := by linarith
  have hb' : 0 < beta' := by linarith
  have inv' : 1 / beta' ≤ 2 / beta := by
    rw [div_le_div_iff₀ hb' hb]; linarith
  have g1 : |1 / beta' - 1 / beta| ≤ 2 / beta ^ 2 * δ := by
    have e : 1 / beta' - 1 / beta = (1 / beta') * (1 / beta) * -(beta' - beta) := by field_simp; ring
    rw [e, abs_mul, abs_neg, abs_of_pos (show 0 < 1 / beta' * (1 / beta) by positivity)]
    have e2 : 2 / beta ^ 2 = 2 / beta * (1 / beta) := by field_simp
    rw [e2]
    exact mul_le_mul (mul_le_mul_of_nonneg_right inv' (by positivity)) h1 (abs_nonneg _) (by positivity)
  have p1 : 0 ≤ 2 * (1 + |LD|) / beta * δ := by positivity
  have p2 : 0 ≤ 2 * |LD| / beta ^ 2 * δ := by positivity
  have p3 : 0 ≤ 2 / beta ^ 2 * δ := by positivity
  have e4 : (2 * (1 + |LD|) / beta + 2 * (1 + |LD|) / beta ^ 2) * δ =
    2 * (1 + |LD|) / beta * δ + (2 / beta ^ 2 * δ + 2 * |LD| / beta ^ 2 * δ) := by ring
  refine ⟨hb', by rw [e4]; linarith, ?_⟩
  have e : LD' * x' / beta' - LD * x / beta = (1 / beta') * ((LD' - LD) * x' + LD * (x' - x)) + LD * x * (1 / beta' - 1 / beta) := by
    field_simp; ring
  have b1 : |(LD' - LD) * x' + LD * (x' - x)| ≤ (1 + |LD|) * δ := by
    refine (abs_add_le _ _).trans ?_
    rw [abs_mul, abs_mul]
    have := mul_le_mul h2 hx' (abs_nonneg _) hδ
    have := mul_le_mul_of_nonneg_left h3 hL
    linarith
  have b2 : |(1 / beta') * ((LD' - LD) * x' + LD * (x' - x))| ≤ 2 * (1 + |LD|) / beta * δ := by
    rw [abs_mul, abs_of_pos (show 0 < 1 / beta' by positivity)]
    refine (mul_le_mul inv' b1 (abs_nonneg _) (by positivity)).trans (le_of_eq (by ring))
  have b3 : |LD * x * (1 / beta' - 1 / beta)| ≤ 2 * |LD| / beta ^ 2 * δ := by
    rw [abs_mul, abs_mul]
    have := mul_le_mul (mul_le_mul_of_nonneg_left hx hL) g1 (abs_nonneg _) (by positivity)
    refine this.trans (le_of_eq (by ring))
  rw [e, e4]
  have := abs_add_le ((1 / beta') * ((LD' - LD) * x' + LD * (x' - x))) (LD * x * (1 / beta' - 1 / beta))
  linarith

theorem flight_state_cont {F : ℝ → FState → FState} {y : ℝ → FState} {a b : ℝ} {S : Finset ℝ}
    (h : SwitchedFlight F y a b S) : ContinuousOn (fun t => (y t).toR7) (Set.Icc a b) :=
  h.r.prodMk (h.theta.prodMk (h.phi.prodMk (h.v.prodMk (h.psi.prodMk (h.gamma.prodMk h.drange)))))

theorem Near.mono {x k : ℝ} {a b : FState} (hn : Near x a b) (hx : x ≤ k) : Near k a b :=
  ⟨hn.r.trans hx, hn.theta.trans hx, hn.phi.trans hx, hn.v.trans hx, hn.psi.trans hx, hn.gamma.trans hx,
    hn.drange.trans hx⟩

/-- C102: nor do small changes of the vehicle or of the bank angle matter much.  If a flight of a vehicle lasts for the time
`T` at a distance from the obstacles of C100, a vehicle whose ballistic coefficient and lift-to-drag ratio are almost the
same, flying from almost the same state at almost the same bank angle, flies for the time `T` as well; its flight differs
from the given one by at most a constant times the largest of the changes, and follows the equations of motion of the given
vehicle up to a defect of that size. -/
theorem C102_nearby_vehicles (name : String) (F : AtmFile) (hF : (name, F) ∈ shippedFiles) (P : Planet)
    (hP : Planet.init name = .ok P) (atm : Atmosphere) (hatm : LoadedCubic P F.km (fileRows F) atm)
    (m beta LD A alpha RN : ℝ) (u : Bool) (f : ℝ → ℝ) (st : InitState) (hm : 0 < m) (hA : 0 < A) (hb : 0 < beta)
    (hf : u = true → ContDiff ℝ 1 f)
    (d T h0 h1 v0 v1 c η : ℝ) (hT : 0 < T) (hh : 0 < h0) (hv : 0 < v0) (hc : 0 < c) (hη : 0 < η)
    (y : ℝ → FState) (S : Finset ℝ)
    (hy : SwitchedFlight (fun t s => (Vehicle.mk' m beta LD A alpha RN P atm u f st).EOM s t d) y 0 T S)
    (hreg : ∀ t ∈ Set.Icc 0 T, Safe P h0 h1 v0 v1 c η (y t)) :
    ∃ C ρ : ℝ, 1 ≤ C ∧ 0 < ρ ∧ ∀ (beta' LD' alpha' RN' d' : ℝ) (st' : InitState) (s : FState) (δ : ℝ), δ ≤ ρ →
      |beta' - beta| ≤ δ → |LD' - LD| ≤ δ → |d' - d| ≤ δ → Near δ s (y 0) →
      ∃ (z : ℝ → FState) (S' : Finset ℝ), z 0 = s ∧
        SwitchedFlight (fun t s => (Vehicle.mk' m beta' LD' A alpha' RN' P atm u f st').EOM s t d') z 0 T S' ∧
        NearFlight (fun t s => (Vehicle.mk' m beta LD A alpha RN P atm u f st).EOM s t d) z 0 T S' (C * δ) ∧
        ∀ t ∈ Set.Icc 0 T, Near (C * δ) (z t) (y t) := by
  obtain ⟨_, hR, _, hrho, _⟩ := C01_planet_consistent name P hP
  obtain ⟨C₀, ρ₀, hC₀, hρ₀, hclose⟩ := C102_errors_grow_linearly name F hF P hP atm hatm m beta LD A alpha RN u f st hf d T
    hT.le y S hy (fun t ht => (hreg t ht).departure hh hv hc hη)
  obtain ⟨B, hB0, hB⟩ := density_bounded hF hP hatm (show 0 < h0 / 2 by linarith)
  set κ := min (min (min (h0 / 2 / P.RP) (1 / P.RP)) (min (η / 2 / P.RP) (v0 / 2))) (min 1 (c / 2)) with hκ
  have hκ0 : 0 < κ := by
    rw [hκ]; simp only [lt_min_iff]
    exact ⟨⟨⟨by positivity, by positivity⟩, ⟨by positivity, by positivity⟩⟩, by positivity, by positivity⟩
  obtain ⟨⟨⟨k0, k1⟩, ⟨k2, k3⟩⟩, k4, k5⟩ : ((κ ≤ h0 / 2 / P.RP ∧ κ ≤ 1 / P.RP) ∧ (κ ≤ η / 2 / P.RP ∧ κ ≤ v0 / 2)) ∧
      κ ≤ 1 ∧ κ ≤ c / 2 := by
    have := le_refl κ
    nth_rewrite 2 [hκ] at this
    simpa only [le_min_iff] using this
  rw [le_div_iff₀ hR] at k0 k1 k2
  have hv1 : 0 ≤ v1 := by
    have := hreg 0 ⟨le_rfl, hT.le⟩
    linarith [this.slow, this.fast]
  set M := 2 * (1 + |LD|) / beta + 2 * (1 + |LD|) / beta ^ 2 with hM
  have hM0 : 0 ≤ M := by positivity
  set K := B * P.RP * ((v1 + 1) ^ 2 + (v1 + 1) + (v1 + 1) / (c / 2)) * M with hK
  have hK0 : 0 ≤ K := by positivity
  set C := C₀ * (1 + 2 * K) + K with hC
  have hC2 : 1 ≤ C₀ * (1 + 2 * K) := one_le_mul_of_one_le_of_one_le hC₀ (by linarith)
  have hC1 : 1 ≤ C := by linarith
  have hCC : C₀ * (1 + 2 * K) ≤ C := by linarith
  have hKC : K ≤ C := by linarith
  have hCpos : 0 < C := by linarith
  refine ⟨C, min (min (ρ₀ / C) (κ / (2 * C))) (beta / 2), hC1, by
    refine lt_min (lt_min ?_ ?_) ?_ <;> positivity, fun beta' LD' alpha' RN' d' st' s δ hδ p1 p2 p3 hs => ?_⟩
  have hδ0 : 0 ≤ δ := (abs_nonneg _).trans hs.r
  have q1 : C * δ ≤ ρ₀ := by
    have := hδ.trans ((min_le_left _ _).trans (min_le_left _ _))
    rw [le_div_iff₀ hCpos] at this; linarith
  have q2 : C * δ ≤ κ / 2 := by
    have := hδ.trans ((min_le_left _ _).trans (min_le_right _ _))
    rw [le_div_iff₀ (by positivity)] at this; linarith
  have q3 : δ ≤ beta / 2 := hδ.trans (min_le_right _ _)
  have hδC : δ ≤ C * δ := le_mul_of_one_le_left hδ0 hC1
  have hKδ : K * δ ≤ C * δ := mul_le_mul_of_nonneg_right hKC hδ0
  obtain ⟨hb', e1, e2⟩ := param_near hb q3 p1 p2 ((abs_cos_sub_cos_le d' d).trans p3) (abs_cos_le_one d) (abs_cos_le_one d')
  obtain ⟨-, -, e3⟩ := param_near hb q3 p1 p2 ((abs_sin_sub_sin_le d' d).trans p3) (abs_sin_le_one d) (abs_sin_le_one d')
  have hs0 : Safe P (h0 / 2) (h1 + 1) (v0 / 2) (v1 + 1) (c / 2) (η / 2) s :=
    safe_near hR (hreg 0 ⟨le_rfl, hT.le⟩) (Near.mono hs (by linarith)) k0 k1 k2 k3 k4 k5
  obtain ⟨z, b, S', hb0, hbT, z0, hz, hcase⟩ := C100_flight_continues name F hF P hP atm hatm m beta' LD' A alpha' RN' u f
    st' hf d' T (h0 / 2) (h1 + 1) (v0 / 2) (v1 + 1) (c / 2) (η / 2) hT (by linarith) (by linarith) (by linarith)
    (by linarith) s hs0
  have hen : ∀ (s : FState) (t : ℝ), Safe P (h0 / 2) (h1 + 1) (v0 / 2) (v1 + 1) (c / 2) (η / 2) s →
      Near (K * δ) ((Vehicle.mk' m beta' LD' A alpha' RN' P atm u f st').EOM s t d')
        ((Vehicle.mk' m beta LD A alpha RN P atm u f st).EOM s t d) := by
    intro s t hs
    have := eom_near hR hrho atm hm hA hb hb' LD LD' alpha alpha' RN RN' u f st st' (half_pos hv) (half_pos hc) hB0 hB
      d d' t hs e1 e2 e3
    rw [← mul_assoc] at this
    exact this
  -- while it is safe, the flight follows the equations of motion of the other vehicle closely
  have hfollow : ∀ τ, τ ≤ b → (∀ t ∈ Set.Icc 0 τ, Safe P (h0 / 2) (h1 + 1) (v0 / 2) (v1 + 1) (c / 2) (η / 2) (z t)) →
      NearFlight (fun t s => (Vehicle.mk' m beta LD A alpha RN P atm u f st).EOM s t d) z 0 τ S' (K * δ) := by
    intro τ hτb hsafe
    have hzτ := flight_mono hz le_rfl hτb
    refine ⟨hzτ.r, hzτ.theta, hzτ.phi, hzτ.v, hzτ.psi, hzτ.gamma, hzτ.drange, fun t ht hS =>
      ⟨(Vehicle.mk' m beta' LD' A alpha' RN' P atm u f st').EOM (z t) t d', ?_, hen (z t) t (hsafe t ⟨ht.1.le, ht.2.le⟩)⟩⟩
    have := hzτ.solves t ht hS
    exact ⟨this.r, this.theta, this.phi, this.v, this.psi, this.gamma, this.drange⟩
  have hnear : ∀ τ, 0 ≤ τ → τ ≤ b →
      (∀ t ∈ Set.Icc 0 τ, Safe P (h0 / 2) (h1 + 1) (v0 / 2) (v1 + 1) (c / 2) (η / 2) (z t)) →
      ∀ t ∈ Set.Icc 0 τ, Near (C * δ) (z t) (y t) := by
    intro τ hτ0 hτb hsafe t ht
    refine Near.mono (hclose z τ δ (K * δ) S' hτ0 (hτb.trans hbT) (by positivity) (by linarith) (by linarith)
      (by rw [z0]; exact hs) (hfollow τ hτb hsafe) t ht) ?_
    have := mul_le_mul_of_nonneg_right hCC hδ0
    linarith
  rcases hcase with ⟨rfl, hall⟩ | ⟨τ, hτ, hsafe, hleave⟩
  · have hn := hfollow b le_rfl hall
    exact ⟨z, S', z0, hz, ⟨hn.r, hn.theta, hn.phi, hn.v, hn.psi, hn.gamma, hn.drange, fun t ht hS => by
      obtain ⟨w, w1, w2⟩ := hn.rates t ht hS
      exact ⟨w, w1, Near.mono w2 hKδ⟩⟩, hnear b hb0.le le_rfl hall⟩
  · exfalso
    have hnτ := (near_iff _ _ _).mp (hnear τ hτ.1 hτ.2.le hsafe τ ⟨hτ.1, le_rfl⟩)
    have hcont : ContinuousOn (fun t => ‖(z t).toR7 - (y t).toR7‖) (Set.Icc 0 b) :=
      ((flight_state_cont hz).sub ((flight_state_cont hy).mono (Set.Icc_subset_Icc_right hbT))).norm
    have hev := (hcont τ ⟨hτ.1, hτ.2.le⟩).eventually (gt_mem_nhds (show ‖(z τ).toR7 - (y τ).toR7‖ < κ by linarith))
    rw [eventually_nhdsWithin_iff, Metric.eventually_nhds_iff] at hev
    obtain ⟨ε, hε, hev⟩ := hev
    obtain ⟨t, ht, htb, hns⟩ := hleave (ε / 2) (by linarith)
    have ht0 : t ∈ Set.Icc 0 b := ⟨hτ.1.trans ht.1.le, htb⟩
    have := hev (y := t) (by rw [Real.dist_eq, abs_of_pos (by linarith [ht.1])]; linarith [ht.2]) ht0
    exact hns (safe_near hR (hreg t ⟨ht0.1, htb.trans hbT⟩) ((near_iff _ _ _).mpr this.le) k0 k1 k2 k3 k4 k5)

/-! ### Case -/

/-- A vehicle 100 km above Mars, descending: its flight stays for a while, and at the two output times, away from all
obstacles and from the altitudes that separate the verdicts. -/
theorem mars_reference (u : Bool) : ∃ (P : Planet) (atm : Atmosphere) (y : ℝ → FState) (S : Finset ℝ) (dt : ℝ),
    Planet.init "MARS" = .ok P ∧ LoadedCubic P mars.km (fileRows mars) atm ∧ 0 < dt ∧
    y 0 = P.nonDimState (Vehicle.entryState P ⟨100, 0, 0, 4, 0, -10, 0, 0⟩) ∧
    SwitchedFlight (fun t s => (Vehicle.mk' 1000 100 0.2 10 0 1 P atm u demoCurve ⟨100, 0, 0, 4, 0, -10, 0, 0⟩).EOM s t
      (60 * π / 180.0)) y 0 ((dt + dt) / P.tau) S ∧
    (∀ t ∈ Set.Icc 0 ((dt + dt) / P.tau), Safe P 49999 100001 0.1 2.4 0.1 1 (y t)) ∧
    ∀ t ∈ Vehicle.tGrid P dt dt, t ≠ 0 → (y t).r * P.RP - P.RP ≠ P.hTrap ∧ (y t).r * P.RP - P.RP ≠ P.hSkip := by
  obtain ⟨P, hP⟩ := (C01_planet_names "MARS").1.mpr (by simp [Spec.bodies])
  have hF : ("MARS", mars) ∈ shippedFiles := by simp [shippedFiles]
  obtain ⟨atm, hatm⟩ := (C85_loads "MARS" mars hF P hP).1
  obtain ⟨_, hR, _, _, _, _, _, _, hV, htau, hVR, _⟩ := C01_planet_consistent "MARS" P hP
  have hRv : P.RP = 3389500 := by simp [Planet.init] at hP; subst hP; norm_num [Planet.withScales]
  have hGM : P.GM = 42828370000000 := by simp [Planet.init] at hP; subst hP; norm_num [Planet.withScales]
  have hTh : P.hThres = 120000 := by simp [Planet.init] at hP; subst hP; norm_num [Planet.withScales]
  have hSk : P.hSkip = 120000 := by simp [Planet.init] at hP; subst hP; norm_num [Planet.withScales]
  have hTr : P.hTrap = 10000 := by simp [Planet.init] at hP; subst hP; norm_num [Planet.withScales]
  rw [hRv, hGM] at hVR
  have hV1 : 3000 ≤ P.Vref := by
    by_contra hn
    have := pow_lt_pow_left₀ (not_le.mp hn) hV.le (two_ne_zero)
    norm_num at this
    linarith
  have hV2 : P.Vref ≤ 4000 := by
    by_contra hn
    have := pow_lt_pow_left₀ (not_le.mp hn) (by norm_num : (0:ℝ) ≤ 4000) (two_ne_zero)
    norm_num at this
    linarith
  set s0 : FState := P.nonDimState (Vehicle.entryState P ⟨100, 0, 0, 4, 0, -10, 0, 0⟩) with hs0def
  have halt : s0.r * P.RP - P.RP = 100000 := by
    change (P.RP + 100 * 1.0E3) / P.RP * P.RP - P.RP = 100000
    rw [div_mul_cancel₀ _ hR.ne']
    norm_num
  have hv0 : s0.v = 4000 / P.Vref := by
    change 4 * 1.000E3 / P.Vref = 4000 / P.Vref
    norm_num
  have hg0 : s0.gamma = -(π / 18) := by
    change -10 * π / 180.0 = -(π / 18)
    rw [show (180.0 : ℝ) = 180 by norm_num]; ring
  have hp0 : s0.phi = 0 := by
    change 0 * π / 180.0 = 0
    rw [zero_mul, zero_div]
  have hstart : Safe P 99998 100000 0.2 1.4 0.2 2 s0 := by
    refine ⟨by rw [halt]; norm_num, by rw [halt], ?_, ?_, ?_, ?_, Or.inl ?_⟩
    · rw [hv0, le_div_iff₀ hV]; norm_num; linarith
    · rw [hv0, div_le_iff₀ hV]; norm_num; linarith
    · rw [hp0, cos_zero]; norm_num
    · rw [hg0, cos_neg]
      have := one_sub_sq_div_two_le_cos (x := π / 18)
      have h4 := pi_le_four
      have : (π / 18) ^ 2 ≤ (4 / 18) ^ 2 := pow_le_pow_left₀ (by positivity) (by linarith) 2
      norm_num at this ⊢
      linarith
    · rw [halt, hTh]; norm_num
  obtain ⟨y, b, S, hb0, hb1, y0, hy, -⟩ := C100_flight_continues "MARS" mars hF P hP atm hatm 1000 100 0.2 10 0 1 u
    demoCurve ⟨100, 0, 0, 4, 0, -10, 0, 0⟩ (fun _ => demoCurve_smooth) (60 * π / 180.0) 1 99998 100000 0.2 1.4 0.2 2 one_pos
    (by norm_num) (by norm_num) (by norm_num) (by norm_num) s0 hstart
  set κ := min (1 / P.RP) 0.1 with hκ
  have hκ0 : 0 < κ := lt_min (by positivity) (by norm_num)
  have κ1 : κ * P.RP ≤ 1 := by
    rw [← le_div_iff₀ hR]; exact min_le_left _ _
  have κ2 : κ ≤ 0.1 := min_le_right _ _
  have hcont : ContinuousOn (fun t => ‖(y t).toR7 - (y 0).toR7‖) (Set.Icc 0 b) :=
    ((flight_state_cont hy).sub continuousOn_const).norm
  have hev := (hcont 0 ⟨le_rfl, hb0.le⟩).eventually (gt_mem_nhds (show ‖(y 0).toR7 - (y 0).toR7‖ < κ by simpa using hκ0))
  rw [eventually_nhdsWithin_iff, Metric.eventually_nhds_iff] at hev
  obtain ⟨ε, hε, hev⟩ := hev
  set T := min b (ε / 2) with hT
  have hT0 : 0 < T := lt_min hb0 (by linarith)
  have hTb : T ≤ b := min_le_left _ _
  have hTε : T ≤ ε / 2 := min_le_right _ _
  have hnear : ∀ t ∈ Set.Icc 0 T, Near κ (y t) s0 := by
    intro t ht
    have := hev (y := t) (by rw [Real.dist_eq, sub_zero, abs_of_nonneg ht.1]; linarith [ht.2]) ⟨ht.1, ht.2.trans hTb⟩
    rw [← y0]
    exact (near_iff _ _ _).mpr this.le
  have eT : (P.tau * T / 2 + P.tau * T / 2) / P.tau = T := by field_simp; norm_num
  have hgrid : ∀ t ∈ Vehicle.tGrid P (P.tau * T / 2) (P.tau * T / 2), t ∈ Set.Icc 0 T := by
    intro t hmem
    obtain ⟨g1, g2⟩ := tGrid_get "MARS" P hP (P.tau * T / 2) (P.tau * T / 2) (by positivity) (by positivity)
    rw [div_self (by positivity), Nat.ceil_one] at g1 g2
    obtain ⟨k, hk⟩ := List.mem_iff_getElem?.mp hmem
    have hkl : k < 1 + 1 := by
      by_contra hn
      rw [List.getElem?_eq_none (by omega)] at hk
      simp at hk
    rw [g2 k hkl] at hk
    obtain rfl := Option.some.inj hk
    have e : (k:ℝ) * (P.tau * T / 2) / P.tau = k * T / 2 := by field_simp
    rw [e]
    have : (k:ℝ) ≤ 1 := by exact_mod_cast (show k ≤ 1 by omega)
    exact ⟨by positivity, by nlinarith⟩
  refine ⟨P, atm, y, S, P.tau * T / 2, hP, hatm, by positivity, y0, ?_, ?_, ?_⟩
  · rw [eT]; exact flight_mono hy le_rfl hTb
  · rw [eT]
    intro t ht
    have := safe_near hR hstart (hnear t ht) (by linarith) κ1 (by linarith) (by norm_num at κ2 ⊢; linarith)
      (by norm_num at κ2; linarith) (by norm_num at κ2 ⊢; linarith)
    norm_num at this ⊢
    exact this
  · intro t hmem _
    have hr := (hnear t (hgrid t hmem)).r
    have : |(y t).r * P.RP - s0.r * P.RP| ≤ 1 := by
      rw [← sub_mul, abs_mul, abs_of_pos hR]
      exact (mul_le_mul_of_nonneg_right hr hR.le).trans κ1
    have := abs_le.mp this
    rw [hTr, hSk]
    exact ⟨fun h => by linarith, fun h => by linarith⟩

/-- Case for `C102_errors_grow_linearly`, `C102_nearby_flights_exist`, `C102_verdict_stable` and `C102_nearby_vehicles`: the
flight of `mars_reference`. -/
example : ∃ (P : Planet) (atm : Atmosphere) (y : ℝ → FState) (dt C ρ : ℝ), Planet.init "MARS" = .ok P ∧
    LoadedCubic P mars.km (fileRows mars) atm ∧ 0 < dt ∧ 0 < ρ ∧
    (∀ s δ, δ ≤ ρ → Near δ s (y 0) → ∃ (z : ℝ → FState) (S : Finset ℝ), z 0 = s ∧
      SwitchedFlight (fun t s => (Vehicle.mk' 1000 (100 + δ) 0.2 10 0 1 P atm true demoCurve
        ⟨100, 0, 0, 4, 0, -10, 0, 0⟩).EOM s t (60 * π / 180.0)) z 0 ((dt + dt) / P.tau) S ∧
      ∀ t ∈ Set.Icc 0 ((dt + dt) / P.tau), Near (C * δ) (z t) (y t)) ∧
    ∃ ρ' > 0, ∀ (W : Vehicle) (I : Integrator) (mode : ScipyMode) (out : PropOut) (z : ℝ → FState) (S' : Finset ℝ),
      OdeintLike I → W.planet = P → W.init.h0Km = 100 →
      z 0 = P.nonDimState (Vehicle.entryState P W.init) → Near ρ' (z 0) (y 0) →
      NearFlight (fun t s => (Vehicle.mk' 1000 100 0.2 10 0 1 P atm true demoCurve ⟨100, 0, 0, 4, 0, -10, 0, 0⟩).EOM s t
        (60 * π / 180.0)) z 0 ((dt + dt) / P.tau) S' ρ' →
      (∀ p ∈ samples W I dt dt 60, Near ρ' p.2 (z p.1)) → W.propogateEntry mode I dt dt 60 = .ok out →
      P.classifyTrajectory ((Vehicle.tGrid P dt dt).map fun t => (y t).r * P.RP) = .ok (out.index, out.exitflag) := by
  obtain ⟨P, atm, y, S, dt, hP, hatm, hdt, y0, hy, hsafe, hoff⟩ := mars_reference true
  have hF : ("MARS", mars) ∈ shippedFiles := by simp [shippedFiles]
  have htau : 0 < P.tau := (C01_planet_consistent "MARS" P hP).2.2.2.2.2.2.2.2.2.1
  obtain ⟨C, ρ, -, hρ, h⟩ := C102_nearby_vehicles "MARS" mars hF P hP atm hatm 1000 100 0.2 10 0 1 true demoCurve _
    (by norm_num) (by norm_num) (by norm_num) (fun _ => demoCurve_smooth) _ _ 49999 100001 0.1 2.4 0.1 1 (by positivity)
    (by norm_num) (by norm_num) (by norm_num) (by norm_num) y S hy hsafe
  refine ⟨P, atm, y, dt, C, ρ, hP, hatm, hdt, hρ, fun s δ hδ hs => ?_,
    C102_verdict_stable "MARS" mars hF P hP atm hatm 1000 100 0.2 10 0 1 true demoCurve _ (fun _ => demoCurve_smooth) dt dt
      60 hdt.le hdt y S y0 hy (fun t ht => (hsafe t ht).departure (by norm_num) (by norm_num) (by norm_num) (by norm_num))
      hoff⟩
  have hδ0 : 0 ≤ δ := (abs_nonneg _).trans hs.r
  obtain ⟨z, S', z0, hz, -, hn⟩ := h (100 + δ) 0.2 0 1 _ ⟨100, 0, 0, 4, 0, -10, 0, 0⟩ s δ hδ
    (by rw [add_sub_cancel_left, abs_of_nonneg hδ0]) (by rw [sub_self, abs_zero]; exact hδ0)
    (by rw [sub_self, abs_zero]; exact hδ0) hs
  exact ⟨z, S', z0, hz, hn⟩

end AMAT.Props
