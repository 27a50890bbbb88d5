import Mathlib.Topology.MetricSpace.Lipschitz
import Mathlib.Analysis.SpecialFunctions.Trigonometric.Angle
import Verif.Props.EdgeCrossing

/-
Property C100: a flight lasts for the requested time unless it comes near one of the named obstacles.
-/

noncomputable section

open Real

namespace AMAT.Props

open Real AMAT AMAT.Spec AMAT.Data AMAT.Spline AMAT.Lits AMAT.Piecewise

/-! ### Functions with bounded derivative off finitely many points -/

theorem lipschitz_off (g : ℝ → ℝ) (M : ℝ) (S : Finset ℝ) (a b : ℝ) (hc : ContinuousOn g (Set.Icc a b))
    (hd : ∀ t ∈ Set.Ioo a b, t ∉ S → ∃ d, |d| ≤ M ∧ HasDerivAt g d t) :
    ∀ x ∈ Set.Icc a b, ∀ y ∈ Set.Icc a b, x ≤ y → |g y - g x| ≤ M * (y - x) := by
  intro x hx y hy hxy
  have h1 := antitoneOn_off (fun t => g t - M * t) S a b (hc.sub (by fun_prop)) fun t ht hs => by
    obtain ⟨d, h1, h2⟩ := hd t ht hs
    have h3 : HasDerivAt (fun t => M * t) M t := by simpa using (hasDerivAt_id t).const_mul M
    exact ⟨d - M, by linarith [le_abs_self d], h2.sub h3⟩
  have h2 := antitoneOn_off (fun t => -g t - M * t) S a b (hc.neg.sub (by fun_prop)) fun t ht hs => by
    obtain ⟨d, h1, h2⟩ := hd t ht hs
    have h3 : HasDerivAt (fun t => M * t) M t := by simpa using (hasDerivAt_id t).const_mul M
    exact ⟨-d - M, by linarith [neg_le_abs d], h2.fun_neg.sub h3⟩
  have e1 := h1 hx hy hxy
  have e2 := h2 hx hy hxy
  simp only at e1 e2
  rw [abs_le]
  constructor <;> linarith

/-- Such a function on a half-open interval extends continuously. -/
theorem extend_off (g : ℝ → ℝ) (M β : ℝ) (hM : 0 ≤ M)
    (h : ∀ b, 0 ≤ b → b < β → ∃ S : Finset ℝ, ContinuousOn g (Set.Icc 0 b) ∧
      ∀ t ∈ Set.Ioo 0 b, t ∉ S → ∃ d, |d| ≤ M ∧ HasDerivAt g d t) :
    ∃ g' : ℝ → ℝ, Continuous g' ∧ ∀ t ∈ Set.Ico 0 β, g' t = g t := by
  have hl : LipschitzOnWith ⟨M, hM⟩ g (Set.Ico 0 β) := by
    refine LipschitzOnWith.of_dist_le_mul fun x hx y hy => ?_
    have key : ∀ x ∈ Set.Ico 0 β, ∀ y ∈ Set.Ico 0 β, x ≤ y → |g y - g x| ≤ M * (y - x) := by
      intro x hx y hy hxy
      obtain ⟨S, hc, hd⟩ := h y hy.1 hy.2
      exact lipschitz_off g M S 0 y hc hd x ⟨hx.1, hxy⟩ y ⟨hy.1, le_rfl⟩ hxy
    rw [Real.dist_eq, Real.dist_eq]
    rcases le_total x y with hxy | hxy
    · rw [abs_sub_comm, abs_sub_comm x y, abs_of_nonneg (sub_nonneg.mpr hxy)]
      exact key x hx y hy hxy
    · rw [abs_of_nonneg (sub_nonneg.mpr hxy)]
      exact key y hy x hx hxy
  obtain ⟨g', h1, h2⟩ := hl.extend_real
  exact ⟨g', h1.continuous, fun t ht => (h2 ht).symm⟩

/-- A continuous function whose derivative off finitely many points is a continuous function has that derivative
everywhere. -/
theorem removable {E : Type*} [NormedAddCommGroup E] [NormedSpace ℝ E] {g h : ℝ → E} {S : Finset ℝ} {a b t : ℝ}
    (ht : t ∈ Set.Ioo a b) (hg : ContinuousOn g (Set.Ioo a b)) (hh : ContinuousAt h t)
    (hd : ∀ s ∈ Set.Ioo a b, s ∉ S → HasDerivAt g (h s) s) : HasDerivAt g (h t) t := by
  have hnear : ∀ᶠ s in nhds t, s ∈ Set.Ioo a b ∧ (s ∈ S → s = t) := by
    have h1 : ((S.erase t : Finset ℝ) : Set ℝ)ᶜ ∈ nhds t :=
      (S.erase t).finite_toSet.isClosed.isOpen_compl.mem_nhds (by simp)
    filter_upwards [Ioo_mem_nhds ht.1 ht.2, h1] with s h2 h3
    refine ⟨h2, fun hs => ?_⟩
    by_contra hne
    exact h3 (by simp [hs, hne])
  obtain ⟨ε, hε, hball⟩ := Metric.eventually_nhds_iff.mp hnear
  have hin : ∀ s ∈ Set.Ioo (t - ε) (t + ε), s ∈ Set.Ioo a b ∧ (s ∈ S → s = t) := fun s hs =>
    hball (by rw [Real.dist_eq, abs_lt]; constructor <;> linarith [hs.1, hs.2])
  have hder : ∀ s ∈ Set.Ioo (t - ε) (t + ε), s ≠ t → HasDerivAt g (h s) s := fun s hs hne =>
    hd s (hin s hs).1 fun hS => hne ((hin s hs).2 hS)
  have hct : ContinuousAt g t := hg.continuousAt (Ioo_mem_nhds ht.1 ht.2)
  have lim : ∀ s : Set ℝ, (∀ x ∈ s, x ≠ t) → (∀ᶠ x in nhdsWithin t s, x ∈ Set.Ioo (t - ε) (t + ε)) →
      Filter.Tendsto (deriv g) (nhdsWithin t s) (nhds (h t)) := by
    intro s hs hev
    have h0 : Filter.Tendsto h (nhdsWithin t s) (nhds (h t)) := hh.tendsto.mono_left nhdsWithin_le_nhds
    refine h0.congr' ?_
    filter_upwards [hev, self_mem_nhdsWithin] with x h1 h2
    exact (hder x h1 (hs x h2)).deriv.symm
  have hI : Set.Ioo (t - ε) (t + ε) ∈ nhds t := Ioo_mem_nhds (by linarith) (by linarith)
  have hr : HasDerivWithinAt g (h t) (Set.Ici t) t :=
    hasDerivWithinAt_Ici_of_tendsto_deriv (s := Set.Ioo t (t + ε))
      (fun x hx => (hder x ⟨by linarith [hx.1], hx.2⟩ hx.1.ne').differentiableAt.differentiableWithinAt)
      hct.continuousWithinAt (Ioo_mem_nhdsGT (by linarith)) (lim _ (fun x hx => ne_of_gt hx) (nhdsWithin_le_nhds hI))
  have hl : HasDerivWithinAt g (h t) (Set.Iic t) t :=
    hasDerivWithinAt_Iic_of_tendsto_deriv (s := Set.Ioo (t - ε) t)
      (fun x hx => (hder x ⟨hx.1, by linarith [hx.2]⟩ hx.2.ne).differentiableAt.differentiableWithinAt)
      hct.continuousWithinAt (Ioo_mem_nhdsLT (by linarith)) (lim _ (fun x hx => ne_of_lt hx) (nhdsWithin_le_nhds hI))
  have := hr.union hl
  rwa [Set.Ici_union_Iic, hasDerivWithinAt_univ] at this

/-! ### The region in which flights are followed -/

/-- States at altitudes from `h0` to `h1`, with speeds from `v0` to `v1` (in units of the reference speed), away from the
poles and from vertical flight, and, within `η` of the edge of the atmosphere, away from horizontal flight. -/
structure Safe (P : Planet) (h0 h1 v0 v1 c η : ℝ) (s : FState) : Prop where
  low : h0 ≤ s.r * P.RP - P.RP
  high : s.r * P.RP - P.RP ≤ h1
  slow : v0 ≤ s.v
  fast : s.v ≤ v1
  phi : c ≤ cos s.phi
  gamma : c ≤ cos s.gamma
  edge : η ≤ |s.r * P.RP - P.RP - P.hThres| ∨ c ≤ |sin s.gamma|

theorem Safe.departure {P : Planet} {h0 h1 v0 v1 c η : ℝ} {s : FState} (hs : Safe P h0 h1 v0 v1 c η s) (hh : 0 < h0)
    (hv : 0 < v0) (hc : 0 < c) (hη : 0 < η) : Departure P s where
  v := (hv.trans_le hs.slow).ne'
  phi := (hc.trans_le hs.phi).ne'
  gamma := fun h => by have := hs.gamma; rw [h] at this; norm_num at this; linarith
  alt := hh.trans_le hs.low
  edge := fun h => by
    rcases hs.edge with h' | h'
    · rw [h, sub_self, abs_zero] at h'; linarith
    · intro h0; rw [h0, abs_zero] at h'; linarith

theorem safe_closed (P : Planet) (h0 h1 v0 v1 c η : ℝ) :
    IsClosed {x : R7 | Safe P h0 h1 v0 v1 c η (FState.ofR7 x)} := by
  have e : {x : R7 | Safe P h0 h1 v0 v1 c η (FState.ofR7 x)} =
      ({x : R7 | h0 ≤ x.1 * P.RP - P.RP} ∩ {x : R7 | x.1 * P.RP - P.RP ≤ h1} ∩ {x : R7 | v0 ≤ x.2.2.2.1} ∩
      {x : R7 | x.2.2.2.1 ≤ v1} ∩ {x : R7 | c ≤ cos x.2.2.1} ∩ {x : R7 | c ≤ cos x.2.2.2.2.2.1}) ∩
      ({x : R7 | η ≤ |x.1 * P.RP - P.RP - P.hThres|} ∪ {x : R7 | c ≤ |sin x.2.2.2.2.2.1|}) := by
    ext x
    constructor
    · intro h
      exact ⟨⟨⟨⟨⟨⟨h.low, h.high⟩, h.slow⟩, h.fast⟩, h.phi⟩, h.gamma⟩, h.edge⟩
    · rintro ⟨⟨⟨⟨⟨⟨a, b⟩, c⟩, d⟩, e⟩, f⟩, g⟩
      exact ⟨a, b, c, d, e, f, g⟩
  rw [e]
  refine ((((((isClosed_le ?_ ?_).inter (isClosed_le ?_ ?_)).inter (isClosed_le ?_ ?_)).inter (isClosed_le ?_ ?_)).inter
    (isClosed_le ?_ ?_)).inter (isClosed_le ?_ ?_)).inter ((isClosed_le ?_ ?_).union (isClosed_le ?_ ?_))
  all_goals fun_prop

/-- The equations of motion see the angles only through their sines and cosines, and neither longitude nor range. -/
theorem EOM_angles (V : Vehicle) (t d : ℝ) {x x' : FState} (hr : x.r = x'.r) (hv : x.v = x'.v)
    (c1 : cos x.phi = cos x'.phi) (s1 : sin x.phi = sin x'.phi) (c2 : cos x.psi = cos x'.psi)
    (s2 : sin x.psi = sin x'.psi) (c3 : cos x.gamma = cos x'.gamma) (s3 : sin x.gamma = sin x'.gamma) :
    V.EOM x t d = V.EOM x' t d := by
  simp only [Vehicle.EOM, Vehicle.a_sbar, Vehicle.a_nbar, Vehicle.a_wbar, Vehicle.Dbar, Vehicle.Lbar,
    Vehicle.cfvbar, Vehicle.cfpsibar, Vehicle.cfgammabar, Vehicle.copsibar, Vehicle.cogammabar, Vehicle.gnbar,
    Vehicle.gsbar, Vehicle.gwbar, Vehicle.grbar, Vehicle.gphibar, Vehicle.gthetabar, Planet.rhobar,
    Planet.rho2, Planet.rho, Real.tan_eq_sin_div_cos, hr, hv, c1, s1, c2, s2, c3, s3]

/-- Every angle has a representative in `[-π, π]`. -/
theorem angle_representative (a : ℝ) : ∃ b ∈ Set.Icc (-π) π, cos b = cos a ∧ sin b = sin a := by
  refine ⟨(a : Real.Angle).toReal, ⟨(Real.Angle.neg_pi_lt_toReal _).le, Real.Angle.toReal_le_pi _⟩, ?_, ?_⟩
  · rw [Real.Angle.cos_toReal, Real.Angle.cos_coe]
  · rw [Real.Angle.sin_toReal, Real.Angle.sin_coe]

section

variable {name : String} {F : AtmFile} (hF : (name, F) ∈ shippedFiles) {P : Planet}
  (hP : Planet.init name = .ok P) {atm : Atmosphere} (hatm : LoadedCubic P F.km (fileRows F) atm)
  (m beta LD A alpha RN : ℝ) (u : Bool) (f : ℝ → ℝ) (st : InitState) (hf : u = true → ContDiff ℝ 1 f)

include hF hP hatm hf

/-- Near every regular state the right-hand side is bounded. -/
theorem field_locally_bounded (d : ℝ) {s : FState} (hs : Departure P s) :
    ∃ U ∈ nhds s.toR7, ∃ M, ∀ x ∈ U, ‖(Vehicle.mk' m beta LD A alpha RN P atm u f st).field d x‖ ≤ M := by
  set V := Vehicle.mk' m beta LD A alpha RN P atm u f st with hV
  have bound : ∀ g : R7 → R7, ContinuousAt g s.toR7 → ∃ U ∈ nhds s.toR7, ∃ M, ∀ x ∈ U, ‖g x‖ ≤ M := by
    intro g hg
    refine ⟨{x | ‖g x‖ ≤ ‖g s.toR7‖ + 1}, ?_, _, fun x hx => hx⟩
    filter_upwards [hg.norm.eventually (gt_mem_nhds (show ‖g s.toR7‖ < ‖g s.toR7‖ + 1 by linarith))] with x hx
    exact hx.le
  by_cases he : s.r * P.RP - P.RP = P.hThres
  · obtain ⟨a, c, hc0, hc, -, heq, hsm⟩ := below_smooth hF hP hatm m beta LD A alpha RN u f st
    have hab := above_smooth hP atm m beta LD A alpha RN u f st hs he d
    have hbe := hsm s hs he (fun hu => (hf hu).contDiffAt) d
    rw [← hV] at heq hab hbe
    obtain ⟨U₁, hU₁, M₁, h1⟩ := bound _ hab.continuousAt
    obtain ⟨U₂, hU₂, M₂, h2⟩ := bound _ hbe.continuousAt
    have hx : ContinuousAt (fun x : R7 => x.1 * P.RP - P.RP) s.toR7 := by fun_prop
    have hlow : {x : R7 | c < x.1 * P.RP - P.RP} ∈ nhds s.toR7 :=
      hx.eventually (lt_mem_nhds (show c < s.r * P.RP - P.RP by rw [he]; exact hc))
    refine ⟨U₁ ∩ U₂ ∩ {x | c < x.1 * P.RP - P.RP}, Filter.inter_mem (Filter.inter_mem hU₁ hU₂) hlow, max M₁ M₂, ?_⟩
    rintro x ⟨⟨hx1, hx2⟩, hx3⟩
    rcases le_or_gt (x.1 * P.RP - P.RP) P.hThres with h | h
    · have : V.field d x = (inAtmosphere V (P.hThres + 1) a).field d x := by
        unfold Vehicle.field
        rw [heq (FState.ofR7 x) d 0 (le_of_lt hx3) h]
      rw [this]
      exact (h2 x hx2).trans (le_max_right _ _)
    · have : V.field d x = (inAtmosphere V (P.hThres - 1) atm).field d x := by
        unfold Vehicle.field
        congr 1
        have z1 : P.density atm (x.1 * P.RP - P.RP) = 0 := by
          rw [Planet.density, if_neg (fun hc => absurd hc.2 (not_le.mpr h)), if_pos (show _ > P.hThres from h)]
        refine inAtmosphere_EOM _ _ _ (FState.ofR7 x) 0 d ?_ (Or.inl z1)
        refine Eq.trans ?_ z1.symm
        exact inAtmosphere_vacuum _ _ _ (show P.hThres - 1 < x.1 * P.RP - P.RP by linarith)
      rw [this]
      exact (h1 x hx1).trans (le_max_left _ _)
  · exact bound _ (field_smooth (shipped_smoothDrag name F hF P hP atm hatm m beta LD A alpha RN u f
      st s (fun hu => (hf hu).contDiffAt) hs.alt he) (departure_r hP hs) hs.v hs.phi hs.gamma
      ((C88_shipped_density_smooth name F hF P hP atm hatm).1 _ hs.alt.ne' he) d).continuousAt

/-- In the region the right-hand side is bounded. -/
theorem field_bounded (d : ℝ) {h0 h1 v0 v1 c η : ℝ} (hh : 0 < h0) (hv : 0 < v0) (hc : 0 < c) (hη : 0 < η) :
    ∃ M, 0 ≤ M ∧ ∀ x : FState, Safe P h0 h1 v0 v1 c η x →
      ‖(Vehicle.mk' m beta LD A alpha RN P atm u f st).field d x.toR7‖ ≤ M := by
  have hR : 0 < P.RP := (C01_planet_consistent name P hP).2.1
  set V := Vehicle.mk' m beta LD A alpha RN P atm u f st with hV
  set K : Set R7 := (Set.Icc 0 ((h1 + P.RP) / P.RP) ×ˢ Set.Icc 0 0 ×ˢ Set.Icc (-π) π ×ˢ Set.Icc v0 v1 ×ˢ
    Set.Icc (-π) π ×ˢ Set.Icc (-π) π ×ˢ Set.Icc 0 0) ∩ {x : R7 | Safe P h0 h1 v0 v1 c η (FState.ofR7 x)} with hK
  have hcomp : IsCompact K := by
    refine IsCompact.inter_right ?_ (safe_closed P h0 h1 v0 v1 c η)
    exact isCompact_Icc.prod (isCompact_Icc.prod (isCompact_Icc.prod (isCompact_Icc.prod (isCompact_Icc.prod
      (isCompact_Icc.prod isCompact_Icc)))))
  have hbd : ∃ M, ∀ x ∈ K, ‖V.field d x‖ ≤ M := by
    refine hcomp.induction_on (p := fun s => ∃ M, ∀ x ∈ s, ‖V.field d x‖ ≤ M) ⟨0, by simp⟩ ?_ ?_ ?_
    · rintro s t hst ⟨M, hM⟩
      exact ⟨M, fun x hx => hM x (hst hx)⟩
    · rintro s t ⟨M, hM⟩ ⟨M', hM'⟩
      refine ⟨max M M', ?_⟩
      rintro x (hx | hx)
      · exact (hM x hx).trans (le_max_left _ _)
      · exact (hM' x hx).trans (le_max_right _ _)
    · intro x hx
      obtain ⟨U, hU, M, hM⟩ := field_locally_bounded hF hP hatm m beta LD A alpha RN u f st hf d
        (hx.2.departure hh hv hc hη)
      rw [toR7_ofR7] at hU
      exact ⟨U, mem_nhdsWithin_of_mem_nhds hU, M, hM⟩
  obtain ⟨M, hM⟩ := hbd
  refine ⟨max M 0, le_max_right _ _, fun x hx => ?_⟩
  obtain ⟨p, hp, cp, sp⟩ := angle_representative x.phi
  obtain ⟨q, hq, cq, sq⟩ := angle_representative x.psi
  obtain ⟨g, hg, cg, sg⟩ := angle_representative x.gamma
  have e : V.field d x.toR7 = V.field d (FState.toR7 ⟨x.r, 0, p, x.v, q, g, 0⟩) := by
    unfold Vehicle.field
    rw [ofR7_toR7, ofR7_toR7, EOM_angles V 0 d (x := x) (x' := ⟨x.r, 0, p, x.v, q, g, 0⟩) rfl rfl cp.symm sp.symm
      cq.symm sq.symm cg.symm sg.symm]
  rw [e]
  refine (hM _ ⟨⟨⟨?_, ?_⟩, ⟨le_rfl, le_rfl⟩, hp, ⟨hx.slow, hx.fast⟩, hq, hg, ⟨le_rfl, le_rfl⟩⟩, ?_⟩).trans (le_max_left _ _)
  · change 0 ≤ x.r
    have := hx.low
    by_contra hn
    nlinarith [not_le.mp hn]
  · change x.r ≤ _
    rw [le_div_iff₀ hR]
    linarith [hx.high]
  · change Safe P h0 h1 v0 v1 c η ⟨x.r, 0, p, x.v, q, g, 0⟩
    exact ⟨hx.low, hx.high, hx.slow, hx.fast, by simp only [cp]; exact hx.phi, by simp only [cg]; exact hx.gamma,
      by simp only [sg]; exact hx.edge⟩

/-- A flight satisfies the equations of motion at all times at which it is not at the edge of the atmosphere. -/
theorem solves_off_edge (d : ℝ) {y : ℝ → FState} {a b t : ℝ} {S : Finset ℝ}
    (hy : SwitchedFlight (fun t s => (Vehicle.mk' m beta LD A alpha RN P atm u f st).EOM s t d) y a b S)
    (ht : t ∈ Set.Ioo a b) (hs : Departure P (y t)) (he : (y t).r * P.RP - P.RP ≠ P.hThres) :
    SolvesAt (fun s => (Vehicle.mk' m beta LD A alpha RN P atm u f st).EOM s t d) y t := by
  rw [solvesAt_iff]
  have hsm := (field_smooth (shipped_smoothDrag name F hF P hP atm hatm m beta LD A alpha RN u f
      st (y t) (fun hu => (hf hu).contDiffAt) hs.alt he) (departure_r hP hs) hs.v hs.phi hs.gamma
      ((C88_shipped_density_smooth name F hF P hP atm hatm).1 _ hs.alt.ne' he) d).continuousAt
  have hc := flight_continuousOn hy
  have hct : ContinuousAt (fun t => (y t).toR7) t := hc.continuousAt (Icc_mem_nhds ht.1 ht.2)
  exact removable (h := fun t => (Vehicle.mk' m beta LD A alpha RN P atm u f st).field d (y t).toR7) ht
    (hc.mono Set.Ioo_subset_Icc_self) (ContinuousAt.comp (f := fun t => (y t).toR7) (x := t) hsm hct)
    fun s hs hS => (solvesAt_iff _ _ _).mp (hy.solves s hs hS)

end

/-! ### Joining flights -/

theorem flight_eqOn {F : ℝ → FState → FState} {y z : ℝ → FState} {a b : ℝ} {S : Finset ℝ}
    (hy : SwitchedFlight F y a b S) (h : ∀ t ∈ Set.Icc a b, z t = y t) : SwitchedFlight F z a b S := by
  refine ⟨hy.r.congr fun t ht => by rw [h t ht], hy.theta.congr fun t ht => by rw [h t ht],
    hy.phi.congr fun t ht => by rw [h t ht], hy.v.congr fun t ht => by rw [h t ht], hy.psi.congr fun t ht => by rw [h t ht],
    hy.gamma.congr fun t ht => by rw [h t ht], hy.drange.congr fun t ht => by rw [h t ht], fun t ht hS => ?_⟩
  have h1 := (solvesAt_iff _ _ _).mp (hy.solves t ht hS)
  rw [solvesAt_iff, h t (Set.Ioo_subset_Icc_self ht)]
  refine h1.congr_of_eventuallyEq ?_
  filter_upwards [Icc_mem_nhds ht.1 ht.2] with s hs
  rw [h s hs]

theorem concat_switched {F : ℝ → FState → FState} {y₁ y₂ : ℝ → FState} {a τ b : ℝ} {S₁ S₂ : Finset ℝ}
    (s1 : SwitchedFlight F y₁ a τ S₁) (s2 : SwitchedFlight F y₂ τ b S₂) (e : y₁ τ = y₂ τ) :
    SwitchedFlight F (fun t => if t ≤ τ then y₁ t else y₂ t) a b (insert τ (S₁ ∪ S₂)) := by
  have key : ∀ g : FState → ℝ, ContinuousOn (fun s => g (y₁ s)) (Set.Icc a τ) →
      ContinuousOn (fun s => g (y₂ s)) (Set.Icc τ b) →
      ContinuousOn (fun t => g (if t ≤ τ then y₁ t else y₂ t)) (Set.Icc a b) := by
    intro g h1 h2
    have e' : (fun t => g (if t ≤ τ then y₁ t else y₂ t)) = fun t => if t ≤ τ then g (y₁ t) else g (y₂ t) := by
      funext t; split_ifs <;> rfl
    rw [e']
    apply ContinuousOn.if
    · rintro t ⟨ht, hb⟩
      have : t = τ := by
        have := frontier_Iic (a := τ) ▸ hb
        simpa using this
      rw [this, e]
    · refine h1.mono fun t ht => ⟨ht.1.1, ?_⟩
      exact closure_minimal (s := {a : ℝ | a ≤ τ}) (t := Set.Iic τ) (fun _ h => h) isClosed_Iic ht.2
    · refine h2.mono fun t ht => ⟨?_, ht.1.2⟩
      exact closure_minimal (s := {a : ℝ | ¬ a ≤ τ}) (t := Set.Ici τ) (fun _ h => (not_le.mp h).le) isClosed_Ici ht.2
  refine ⟨key (·.r) s1.r s2.r, key (·.theta) s1.theta s2.theta, key (·.phi) s1.phi s2.phi, key (·.v) s1.v s2.v,
    key (·.psi) s1.psi s2.psi, key (·.gamma) s1.gamma s2.gamma, key (·.drange) s1.drange s2.drange, fun t ht hS => ?_⟩
  simp only [Finset.mem_insert, Finset.mem_union, not_or] at hS
  obtain ⟨hne, hS1, hS2⟩ := hS
  rcases lt_or_gt_of_ne hne with h | h
  · rw [solvesAt_iff]
    have h1 := (solvesAt_iff _ _ _).mp (s1.solves t ⟨ht.1, h⟩ hS1)
    simp only [h.le, if_true]
    refine h1.congr_of_eventuallyEq ?_
    filter_upwards [Iio_mem_nhds h] with s hs
    rw [if_pos (le_of_lt hs)]
  · rw [solvesAt_iff]
    have h1 := (solvesAt_iff _ _ _).mp (s2.solves t ⟨h, ht.2⟩ hS2)
    simp only [not_le.mpr h, if_false]
    refine h1.congr_of_eventuallyEq ?_
    filter_upwards [Ioi_mem_nhds h] with s hs
    rw [if_neg (not_le.mpr hs)]

/-! ### The limit of flights -/

section

variable {name : String} {F : AtmFile} (hF : (name, F) ∈ shippedFiles) {P : Planet}
  (hP : Planet.init name = .ok P) {atm : Atmosphere} (hatm : LoadedCubic P F.km (fileRows F) atm)
  (m beta LD A alpha RN : ℝ) (u : Bool) (f : ℝ → ℝ) (st : InitState) (hf : u = true → ContDiff ℝ 1 f)

include hF hP hatm hf

/-- A flight through the region over every shorter time is one over the whole time. -/
theorem flight_limit (d : ℝ) {h0 h1 v0 v1 c η : ℝ} (hh : 0 < h0) (hv : 0 < v0) (hc : 0 < c) (hη : 0 < η)
    {Y : ℝ → FState} {β : ℝ} (hβ : 0 < β)
    (hY : ∀ b, 0 ≤ b → b < β → ∃ S, SwitchedFlight
      (fun t s => (Vehicle.mk' m beta LD A alpha RN P atm u f st).EOM s t d) Y 0 b S)
    (hsafe : ∀ t, 0 ≤ t → t < β → Safe P h0 h1 v0 v1 c η (Y t)) :
    ∃ z S, z 0 = Y 0 ∧ SwitchedFlight (fun t s => (Vehicle.mk' m beta LD A alpha RN P atm u f st).EOM s t d) z 0 β S ∧
      ∀ t ∈ Set.Icc 0 β, Safe P h0 h1 v0 v1 c η (z t) := by
  set V := Vehicle.mk' m beta LD A alpha RN P atm u f st with hV
  obtain ⟨M, hM, hbd⟩ := field_bounded hF hP hatm m beta LD A alpha RN u f st hf d (h1 := h1) (v1 := v1) hh hv hc hη
  rw [← hV] at hbd
  have ext : ∀ g : R7 → ℝ, (∀ x, |g x| ≤ ‖x‖) → (∀ b S, SwitchedFlight (fun t s => V.EOM s t d) Y 0 b S →
      ContinuousOn (fun t => g (Y t).toR7) (Set.Icc 0 b) ∧ ∀ t ∈ Set.Ioo 0 b, t ∉ S →
        HasDerivAt (fun t => g (Y t).toR7) (g (V.field d (Y t).toR7)) t) →
      ∃ g' : ℝ → ℝ, Continuous g' ∧ ∀ t ∈ Set.Ico 0 β, g' t = g (Y t).toR7 := by
    intro g hg hder
    refine extend_off _ M β hM fun b hb0 hb => ?_
    obtain ⟨S, hS⟩ := hY b hb0 hb
    obtain ⟨e1, e2⟩ := hder b S hS
    exact ⟨S, e1, fun t ht hSt => ⟨_, (hg _).trans (hbd _ (hsafe t ht.1.le (ht.2.trans hb))), e2 t ht hSt⟩⟩
  have n2 : ∀ x : R7, ‖x.2‖ ≤ ‖x‖ := fun x => norm_snd_le x
  have n3 : ∀ x : R7, ‖x.2.2‖ ≤ ‖x‖ := fun x => (norm_snd_le x.2).trans (n2 x)
  have n4 : ∀ x : R7, ‖x.2.2.2‖ ≤ ‖x‖ := fun x => (norm_snd_le x.2.2).trans (n3 x)
  have n5 : ∀ x : R7, ‖x.2.2.2.2‖ ≤ ‖x‖ := fun x => (norm_snd_le x.2.2.2).trans (n4 x)
  have n6 : ∀ x : R7, ‖x.2.2.2.2.2‖ ≤ ‖x‖ := fun x => (norm_snd_le x.2.2.2.2).trans (n5 x)
  obtain ⟨g1, c1, e1⟩ := ext (fun x => x.1) (fun x => norm_fst_le x) fun b S h =>
    ⟨h.r, fun t ht hS => (h.solves t ht hS).r⟩
  obtain ⟨g2, c2, e2⟩ := ext (fun x => x.2.1) (fun x => (norm_fst_le x.2).trans (n2 x)) fun b S h =>
    ⟨h.theta, fun t ht hS => (h.solves t ht hS).theta⟩
  obtain ⟨g3, c3, e3⟩ := ext (fun x => x.2.2.1) (fun x => (norm_fst_le x.2.2).trans (n3 x)) fun b S h =>
    ⟨h.phi, fun t ht hS => (h.solves t ht hS).phi⟩
  obtain ⟨g4, c4, e4⟩ := ext (fun x => x.2.2.2.1) (fun x => (norm_fst_le x.2.2.2).trans (n4 x)) fun b S h =>
    ⟨h.v, fun t ht hS => (h.solves t ht hS).v⟩
  obtain ⟨g5, c5, e5⟩ := ext (fun x => x.2.2.2.2.1) (fun x => (norm_fst_le x.2.2.2.2).trans (n5 x)) fun b S h =>
    ⟨h.psi, fun t ht hS => (h.solves t ht hS).psi⟩
  obtain ⟨g6, c6, e6⟩ := ext (fun x => x.2.2.2.2.2.1) (fun x => (norm_fst_le x.2.2.2.2.2).trans (n6 x)) fun b S h =>
    ⟨h.gamma, fun t ht hS => (h.solves t ht hS).gamma⟩
  obtain ⟨g7, c7, e7⟩ := ext (fun x => x.2.2.2.2.2.2) (fun x => (norm_snd_le x.2.2.2.2.2).trans (n6 x)) fun b S h =>
    ⟨h.drange, fun t ht hS => (h.solves t ht hS).drange⟩
  set z : ℝ → FState := fun t => ⟨g1 t, g2 t, g3 t, g4 t, g5 t, g6 t, g7 t⟩ with hz
  have hzY : ∀ t ∈ Set.Ico 0 β, z t = Y t := by
    intro t ht
    simp only [hz, e1 t ht, e2 t ht, e3 t ht, e4 t ht, e5 t ht, e6 t ht, e7 t ht]
    rfl
  have hzc : Continuous fun t => (z t).toR7 := by
    change Continuous fun t => (g1 t, g2 t, g3 t, g4 t, g5 t, g6 t, g7 t)
    fun_prop
  have hzf : ∀ b, 0 ≤ b → b < β → ∃ S, SwitchedFlight (fun t s => V.EOM s t d) z 0 b S := fun b hb0 hb => by
    obtain ⟨S, hS⟩ := hY b hb0 hb
    exact ⟨S, flight_eqOn hS fun t ht => hzY t ⟨ht.1, ht.2.trans_lt hb⟩⟩
  have hzs : ∀ t ∈ Set.Icc 0 β, Safe P h0 h1 v0 v1 c η (z t) := by
    have hcl : IsClosed {t | Safe P h0 h1 v0 v1 c η (z t)} := (safe_closed P h0 h1 v0 v1 c η).preimage hzc
    have hsub : Set.Ico 0 β ⊆ {t | Safe P h0 h1 v0 v1 c η (z t)} := fun t ht => by
      change Safe P h0 h1 v0 v1 c η (z t)
      rw [hzY t ht]
      exact hsafe t ht.1 ht.2
    have := closure_minimal hsub hcl
    rw [closure_Ico hβ.ne] at this
    exact this
  have hdep : ∀ t ∈ Set.Icc 0 β, Departure P (z t) := fun t ht => (hzs t ht).departure hh hv hc hη
  have hR : 0 < P.RP := (C01_planet_consistent name P hP).2.1
  -- shortly before the end the flight is not at the edge
  have hbefore : ∃ b', 0 ≤ b' ∧ b' < β ∧ ∀ t ∈ Set.Ioo b' β, (z t).r * P.RP - P.RP ≠ P.hThres := by
    have near : ∀ p : ℝ → Prop, (∀ᶠ t in nhds β, p t) → ∃ b', 0 ≤ b' ∧ b' < β ∧ ∀ t ∈ Set.Icc b' β, p t := by
      intro p hp
      obtain ⟨ε, hε, hall⟩ := Metric.eventually_nhds_iff.mp hp
      refine ⟨max 0 (β - ε / 2), le_max_left _ _, max_lt hβ (by linarith), fun t ht => hall ?_⟩
      rw [Real.dist_eq, abs_lt]
      have := (le_max_right 0 (β - ε / 2)).trans ht.1
      constructor <;> linarith [ht.2]
    have cz : ∀ g : R7 → ℝ, Continuous g → ContinuousAt (fun t => g (z t).toR7) β := fun g hg =>
      (hg.comp hzc).continuousAt
    have hdr : ∀ t ∈ Set.Ioo 0 β, HasDerivAt (fun t => (z t).r) ((z t).v * sin (z t).gamma) t := by
      intro t ht
      obtain ⟨S, hS⟩ := hzf ((t + β) / 2) (by linarith [ht.1]) (by linarith [ht.2])
      have hh2 : Continuous fun t => (z t).v * sin (z t).gamma := by
        change Continuous fun t => g4 t * sin (g6 t)
        fun_prop
      exact removable (g := fun t => (z t).r) (h := fun t => (z t).v * sin (z t).gamma) (a := 0) (b := (t + β) / 2)
        ⟨ht.1, by linarith [ht.2]⟩ c1.continuousOn hh2.continuousAt fun s hs hSs => (hS.solves s hs hSs).r
    by_cases he : (z β).r * P.RP - P.RP = P.hThres
    · have hne := mul_ne_zero (hdep β ⟨hβ.le, le_rfl⟩).v ((hdep β ⟨hβ.le, le_rfl⟩).edge he)
      rcases lt_or_gt_of_ne hne with hneg | hpos
      · obtain ⟨b', hb0, hb, hall⟩ := near _ ((cz (fun x => x.2.2.2.1 * sin x.2.2.2.2.2.1) (by fun_prop)).eventually
          (gt_mem_nhds hneg))
        refine ⟨b', hb0, hb, fun t ht => ?_⟩
        have hanti := strictAntiOn_off (fun t => (z t).r) ∅ b' β c1.continuousOn fun t ht _ =>
          ⟨_, hall t (Set.Ioo_subset_Icc_self ht), hdr t ⟨hb0.trans_lt ht.1, ht.2⟩⟩
        have := hanti ⟨ht.1.le, ht.2.le⟩ ⟨hb.le, le_rfl⟩ ht.2
        have := mul_lt_mul_of_pos_right this hR
        rw [← he]
        intro h
        linarith
      · obtain ⟨b', hb0, hb, hall⟩ := near _ ((cz (fun x => x.2.2.2.1 * sin x.2.2.2.2.2.1) (by fun_prop)).eventually
          (lt_mem_nhds hpos))
        refine ⟨b', hb0, hb, fun t ht => ?_⟩
        have hanti := strictAntiOn_off (fun t => -(z t).r) ∅ b' β c1.neg.continuousOn fun t ht _ =>
          ⟨_, neg_lt_zero.mpr (hall t (Set.Ioo_subset_Icc_self ht)), (hdr t ⟨hb0.trans_lt ht.1, ht.2⟩).fun_neg⟩
        have := hanti ⟨ht.1.le, ht.2.le⟩ ⟨hb.le, le_rfl⟩ ht.2
        simp only [neg_lt_neg_iff] at this
        have := mul_lt_mul_of_pos_right this hR
        rw [← he]
        intro h
        linarith
    · obtain ⟨b', hb0, hb, hall⟩ := near _ ((cz (fun x => x.1 * P.RP - P.RP) (by fun_prop)).eventually_ne he)
      exact ⟨b', hb0, hb, fun t ht => hall t (Set.Ioo_subset_Icc_self ht)⟩
  obtain ⟨b', hb0, hb, hoff⟩ := hbefore
  obtain ⟨S, hS⟩ := hzf b' hb0 hb
  refine ⟨z, insert b' S, hzY 0 ⟨le_rfl, hβ⟩, ⟨c1.continuousOn, c2.continuousOn, c3.continuousOn, c4.continuousOn,
    c5.continuousOn, c6.continuousOn, c7.continuousOn, fun t ht hSt => ?_⟩, hzs⟩
  simp only [Finset.mem_insert, not_or] at hSt
  rcases lt_or_gt_of_ne hSt.1 with h | h
  · exact hS.solves t ⟨ht.1, h⟩ hSt.2
  · obtain ⟨S', hS'⟩ := hzf ((t + β) / 2) (by linarith [ht.1]) (by linarith [ht.2])
    exact solves_off_edge hF hP hatm m beta LD A alpha RN u f st hf d hS' ⟨ht.1, by linarith [ht.2]⟩
      (hdep t (Set.Ioo_subset_Icc_self ht)) (hoff t ⟨h, ht.2⟩)

end

/-- C100: from every state of the region (altitudes from `h0 > 0` to `h1`, speeds from `v0 > 0` to `v1`, away from the
poles, from vertical flight, and from horizontal flight near the edge of the atmosphere) leaves a flight at constant bank
angle that either stays in the region for the whole requested time `T`, or flies on until it leaves the region. -/
theorem C100_flight_continues (name : String) (F : AtmFile) (hF : (name, F) ∈ shippedFiles) (P : Planet)
    (hP : Planet.init name = .ok P) (atm : Atmosphere) (hatm : LoadedCubic P F.km (fileRows F) atm)
    (m beta LD A alpha RN : ℝ) (u : Bool) (f : ℝ → ℝ) (st : InitState) (hf : u = true → ContDiff ℝ 1 f)
    (d T h0 h1 v0 v1 c η : ℝ) (hT : 0 < T) (hh : 0 < h0) (hv : 0 < v0) (hc : 0 < c) (hη : 0 < η)
    (s : FState) (hs : Safe P h0 h1 v0 v1 c η s) :
    ∃ (y : ℝ → FState) (b : ℝ) (S : Finset ℝ), 0 < b ∧ b ≤ T ∧ y 0 = s ∧
      SwitchedFlight (fun t s => (Vehicle.mk' m beta LD A alpha RN P atm u f st).EOM s t d) y 0 b S ∧
      ((b = T ∧ ∀ t ∈ Set.Icc 0 T, Safe P h0 h1 v0 v1 c η (y t)) ∨
       ∃ τ ∈ Set.Ico 0 b, (∀ t ∈ Set.Icc 0 τ, Safe P h0 h1 v0 v1 c η (y t)) ∧
        ∀ ε > 0, ∃ t ∈ Set.Ioc τ (τ + ε), t ≤ b ∧ ¬ Safe P h0 h1 v0 v1 c η (y t)) := by
  set V := Vehicle.mk' m beta LD A alpha RN P atm u f st with hV
  set B : Set ℝ := {b | 0 ≤ b ∧ b ≤ T ∧ ∃ (y : ℝ → FState) (S : Finset ℝ), y 0 = s ∧
    SwitchedFlight (fun t s => V.EOM s t d) y 0 b S ∧ ∀ t ∈ Set.Icc 0 b, Safe P h0 h1 v0 v1 c η (y t)} with hB
  have h0B : (0:ℝ) ∈ B := by
    refine ⟨le_rfl, hT.le, fun _ => s, ∅, rfl, ⟨continuousOn_const, continuousOn_const, continuousOn_const,
      continuousOn_const, continuousOn_const, continuousOn_const, continuousOn_const, fun t ht => ?_⟩, fun t _ => hs⟩
    exact absurd (ht.1.trans ht.2) (lt_irrefl _)
  have hbdd : BddAbove B := ⟨T, fun b hb => hb.2.1⟩
  set β := sSup B with hβ
  have hβ0 : 0 ≤ β := le_csSup hbdd h0B
  have hβT : β ≤ T := csSup_le ⟨0, h0B⟩ fun b hb => hb.2.1
  have hβB : β ∈ B := by
    by_contra hn
    have hβpos : 0 < β := lt_of_le_of_ne hβ0 fun h => hn (h ▸ h0B)
    have hall : ∀ b, 0 ≤ b → b < β → ∃ (y : ℝ → FState) (S : Finset ℝ), y 0 = s ∧
        SwitchedFlight (fun t s => V.EOM s t d) y 0 b S ∧ ∀ t ∈ Set.Icc 0 b, Safe P h0 h1 v0 v1 c η (y t) := by
      intro b hb0 hb
      obtain ⟨b', ⟨_, _, y, S, e1, e2, e3⟩, hbb⟩ := exists_lt_of_lt_csSup ⟨0, h0B⟩ hb
      exact ⟨y, S, e1, flight_mono e2 le_rfl hbb.le, fun t ht => e3 t ⟨ht.1, ht.2.trans hbb.le⟩⟩
    have : Nonempty FState := ⟨s⟩
    choose! Yb Sb i1 i2 i3 using hall
    have agree : ∀ b b', 0 ≤ b → b ≤ b' → b' < β → ∀ t ∈ Set.Icc 0 b, Yb b t = Yb b' t := by
      intro b b' hb0 hbb hb'
      have hb := hbb.trans_lt hb'
      exact C88_crossing_unique name F hF P hP atm hatm m beta LD A alpha RN u f st hf (fun _ => d) (Yb b) (Yb b') 0 b
        (Sb b) (Sb b') (fun t _ => ⟨d, Filter.Eventually.of_forall fun _ => rfl⟩) (i2 b hb0 hb)
        (flight_mono (i2 b' (hb0.trans hbb) hb') le_rfl hbb) (by rw [i1 b hb0 hb, i1 b' (hb0.trans hbb) hb'])
        (fun t ht => (i3 b hb0 hb t (Set.Ico_subset_Icc_self ht)).departure hh hv hc hη)
    set Y : ℝ → FState := fun t => Yb ((t + β) / 2) t with hYdef
    have hYeq : ∀ b, 0 ≤ b → b < β → ∀ t ∈ Set.Icc 0 b, Y t = Yb b t := by
      intro b hb0 hb t ht
      rcases le_total b ((t + β) / 2) with h | h
      · exact (agree b _ hb0 h (by linarith [ht.2]) t ht).symm
      · exact agree _ b (by linarith [ht.1]) h hb t ⟨ht.1, by linarith [ht.2]⟩
    obtain ⟨z, S, z0, hz, hzs⟩ := flight_limit hF hP hatm m beta LD A alpha RN u f st hf d hh hv hc hη hβpos (Y := Y)
      (fun b hb0 hb => ⟨Sb b, flight_eqOn (i2 b hb0 hb) (hYeq b hb0 hb)⟩)
      (fun t ht0 ht => by rw [hYeq t ht0 ht t ⟨ht0, le_rfl⟩]; exact i3 t ht0 ht t ⟨ht0, le_rfl⟩)
    refine hn ⟨hβ0, hβT, z, S, ?_, hz, hzs⟩
    rw [z0, hYeq 0 le_rfl hβpos 0 ⟨le_rfl, le_rfl⟩, i1 0 le_rfl hβpos]
  obtain ⟨-, -, y, S, y0, hy, hys⟩ := hβB
  rcases hβT.eq_or_lt with hbT | hbT
  · refine ⟨y, T, S, hT, le_rfl, y0, by rw [← hbT]; exact hy, Or.inl ⟨rfl, by rw [← hbT]; exact hys⟩⟩
  · have hdep := (hys β ⟨hβ0, le_rfl⟩).departure hh hv hc hη
    obtain ⟨⟨y₂, b₂, hb₂, e2, -, hy₂⟩, -⟩ := C88_forward_flight name F hF P hP atm hatm m beta LD A alpha RN u f st hf d β
      (y β) hdep
    have hbm : β < min b₂ T := lt_min hb₂ hbT
    have hcat := concat_switched hy (flight_mono hy₂ le_rfl (min_le_left b₂ T)) e2.symm
    refine ⟨_, min b₂ T, _, hβ0.trans_lt hbm, min_le_right _ _, by simp only [hβ0, if_true]; exact y0, hcat, Or.inr
      ⟨β, ⟨hβ0, hbm⟩, fun t ht => by simp only [ht.2, if_true]; exact hys t ht, fun ε hε => ?_⟩⟩
    by_contra hcon
    push Not at hcon
    have hmem : min (β + ε) (min b₂ T) ∈ B := by
      refine ⟨le_min (by linarith) (hβ0.trans hbm.le), (min_le_right _ _).trans (min_le_right _ _), _, _,
        by simp only [hβ0, if_true]; exact y0, flight_mono hcat le_rfl (min_le_right _ _), fun t ht => ?_⟩
      rcases le_or_gt t β with h | h
      · simp only [h, if_true]; exact hys t ⟨ht.1, h⟩
      · exact hcon t ⟨h, ht.2.trans (min_le_left _ _)⟩ (ht.2.trans (min_le_right _ _))
    have := le_csSup hbdd hmem
    have h3 : β < min (β + ε) (min b₂ T) := lt_min (by linarith) hbm
    linarith

/-! ### Energy bounds speed and altitude -/

theorem potential_scaled (J2 J3 : ℝ) {r : ℝ} (hr : 1 ≤ r) (phi : ℝ) :
    potential J2 J3 r phi * r ≤ 1 + |J2| + 4 * |J3| := by
  have h0 : 0 < r := by linarith
  have hs := sin_sq_le_one phi
  have hs1 : |sin phi| ≤ 1 := abs_sin_le_one phi
  have a1 : |J2 / r ^ 2 * ((3 * sin phi ^ 2 - 1) / 2)| ≤ |J2| := by
    rw [abs_mul, abs_div, abs_of_pos (pow_pos h0 2)]
    have e1 : |J2| / r ^ 2 ≤ |J2| := div_le_self (abs_nonneg _) (one_le_pow₀ hr)
    have e2 : |(3 * sin phi ^ 2 - 1) / 2| ≤ 1 := by
      rw [abs_le]; constructor <;> nlinarith [sq_nonneg (sin phi)]
    calc _ ≤ |J2| * 1 := mul_le_mul e1 e2 (abs_nonneg _) (abs_nonneg _)
      _ = _ := mul_one _
  have a2 : |J3 / r ^ 3 * ((5 * sin phi ^ 3 - 3 * sin phi) / 2)| ≤ 4 * |J3| := by
    rw [abs_mul, abs_div, abs_of_pos (pow_pos h0 3)]
    have e1 : |J3| / r ^ 3 ≤ |J3| := div_le_self (abs_nonneg _) (one_le_pow₀ hr)
    have e2 : |(5 * sin phi ^ 3 - 3 * sin phi) / 2| ≤ 4 := by
      have b1 : |sin phi ^ 3| ≤ 1 := by rw [abs_pow]; exact pow_le_one₀ (abs_nonneg _) hs1
      rw [abs_le] at b1 hs1 ⊢
      constructor <;> linarith [b1.1, b1.2, hs1.1, hs1.2]
    calc _ ≤ |J3| * 4 := mul_le_mul e1 e2 (abs_nonneg _) (abs_nonneg _)
      _ = _ := mul_comm _ _
  rw [abs_le] at a1 a2
  have e : potential J2 J3 r phi * r = 1 - J2 / r ^ 2 * ((3 * sin phi ^ 2 - 1) / 2)
      - J3 / r ^ 3 * ((5 * sin phi ^ 3 - 3 * sin phi) / 2) := by
    unfold potential
    rw [mul_right_comm, one_div_mul_cancel h0.ne', one_mul]
  rw [e]
  linarith [a1.1, a2.1]

theorem potential_le (J2 J3 : ℝ) {r : ℝ} (hr : 1 ≤ r) (phi : ℝ) : potential J2 J3 r phi ≤ 1 + |J2| + 4 * |J3| := by
  have h0 : 0 < r := by linarith
  have hpos : 0 ≤ 1 + |J2| + 4 * |J3| := by positivity
  have e : potential J2 J3 r phi = potential J2 J3 r phi * r / r := by field_simp
  rw [e, div_le_iff₀ h0]
  exact (potential_scaled J2 J3 hr phi).trans (le_mul_of_one_le_right hpos hr)

/-- The energy of the start bounds speed and altitude for a given time: constants that depend on the planet, the start
and the time only. -/
def speedConstant (P : Planet) (s : FState) : ℝ :=
  √(max 0 (2 * (jacobi P.J2 P.J3 P.OMEGAbar s.r s.phi s.v + 1 + |P.J2| + 4 * |P.J3|)))

def radiusBound (P : Planet) (s : FState) (T : ℝ) : ℝ :=
  (s.r + speedConstant P s) * exp ((|P.OMEGAbar| + 1) * T)

/-- C100: speed and altitude of a flight (with or without bank angle switches) of a vehicle with non-negative drag stay
below bounds given by the start state and the elapsed time. -/
theorem C100_speed_and_altitude_bounded (name : String) (F : AtmFile) (hF : (name, F) ∈ shippedFiles) (P : Planet)
    (hP : Planet.init name = .ok P) (atm : Atmosphere) (hatm : LoadedCubic P F.km (fileRows F) atm)
    (m beta LD A alpha RN : ℝ) (u : Bool) (f : ℝ → ℝ) (st : InitState) (hm : 0 < m) (hb : 0 < beta) (hA : 0 < A)
    (hf0 : ∀ M, 0 ≤ f M) (delta : ℝ → ℝ) (y : ℝ → FState) (b T : ℝ) (S : Finset ℝ) (hbT : b ≤ T)
    (hy : SwitchedFlight (fun t s => (Vehicle.mk' m beta LD A alpha RN P atm u f st).EOM s t (delta t)) y 0 b S)
    (hr : ∀ t ∈ Set.Icc 0 b, 1 ≤ (y t).r) (hv : ∀ t ∈ Set.Icc 0 b, 0 ≤ (y t).v) :
    ∀ t ∈ Set.Icc 0 b, (y t).v ≤ speedConstant P (y 0) + |P.OMEGAbar| * (y t).r ∧
      (y t).r ≤ radiusBound P (y 0) T := by
  have hdens : ∀ h, 0 ≤ h → h ≤ P.hThres → 0 ≤ atm.densityInt h := by
    intro z hz0 hz1
    have := (C85_density_positive name F hF P hP atm hatm z).mpr hz1
    rw [Planet.density, if_pos ⟨hz0, hz1⟩] at this
    exact this.le
  have hJ := C18_switched_never_increases name P hP m beta LD A alpha RN atm u f st hm hb hA hf0 delta y 0 b S hdens hy
    (fun t ht => by have := hr t ht; linarith) hv
  have hspeed : ∀ t ∈ Set.Icc 0 b, (y t).v ≤ speedConstant P (y 0) + |P.OMEGAbar| * (y t).r := by
    intro t ht
    have h1 := hJ ⟨le_rfl, ht.1.trans ht.2⟩ ht ht.1
    have h2 := potential_le P.J2 P.J3 (hr t ht) (y t).phi
    have hr0 : 0 ≤ (y t).r := by linarith [hr t ht]
    have hc1 : P.OMEGAbar ^ 2 * ((y t).r * cos (y t).phi) ^ 2 ≤ (|P.OMEGAbar| * (y t).r) ^ 2 := by
      have e : (|P.OMEGAbar| * (y t).r) ^ 2 - P.OMEGAbar ^ 2 * ((y t).r * cos (y t).phi) ^ 2
          = P.OMEGAbar ^ 2 * (y t).r ^ 2 * (1 - cos (y t).phi ^ 2) := by rw [mul_pow, sq_abs]; ring
      have : 0 ≤ P.OMEGAbar ^ 2 * (y t).r ^ 2 * (1 - cos (y t).phi ^ 2) :=
        mul_nonneg (by positivity) (by linarith [cos_sq_le_one (y t).phi])
      linarith
    have h3 : (y t).v ^ 2 ≤ max 0 (2 * (jacobi P.J2 P.J3 P.OMEGAbar (y 0).r (y 0).phi (y 0).v + 1 + |P.J2| + 4 * |P.J3|))
        + (|P.OMEGAbar| * (y t).r) ^ 2 := by
      have h4 := le_max_right 0
        (2 * (jacobi P.J2 P.J3 P.OMEGAbar (y 0).r (y 0).phi (y 0).v + 1 + |P.J2| + 4 * |P.J3|))
      have h5 : jacobi P.J2 P.J3 P.OMEGAbar (y t).r (y t).phi (y t).v = (y t).v ^ 2 / 2
        - potential P.J2 P.J3 (y t).r (y t).phi - P.OMEGAbar ^ 2 * ((y t).r * cos (y t).phi) ^ 2 / 2 := rfl
      simp only at h1
      linarith
    have hs0 : 0 ≤ speedConstant P (y 0) := sqrt_nonneg _
    have ho : 0 ≤ |P.OMEGAbar| * (y t).r := mul_nonneg (abs_nonneg _) hr0
    have hsq : speedConstant P (y 0) ^ 2 =
        max 0 (2 * (jacobi P.J2 P.J3 P.OMEGAbar (y 0).r (y 0).phi (y 0).v + 1 + |P.J2| + 4 * |P.J3|)) :=
      sq_sqrt (le_max_left _ _)
    refine abs_le_of_sq_le_sq' ?_ (add_nonneg hs0 ho) |>.2
    have e : (speedConstant P (y 0) + |P.OMEGAbar| * (y t).r) ^ 2 = speedConstant P (y 0) ^ 2
        + (|P.OMEGAbar| * (y t).r) ^ 2 + 2 * (speedConstant P (y 0) * (|P.OMEGAbar| * (y t).r)) := by ring
    have := mul_nonneg hs0 ho
    rw [e, hsq]
    linarith
  intro t ht
  refine ⟨hspeed t ht, ?_⟩
  set D := speedConstant P (y 0) with hD
  have hD0 : 0 ≤ D := sqrt_nonneg _
  set K := |P.OMEGAbar| + 1 with hK
  have hK0 : 0 < K := by have := abs_nonneg P.OMEGAbar; linarith
  have hanti := antitoneOn_off (fun t => ((y t).r + D) * exp (-(K * t))) S 0 b
    ((hy.r.add continuousOn_const).mul (by fun_prop)) fun t ht hS => by
      have ht' := Set.Ioo_subset_Icc_self ht
      have hd : HasDerivAt (fun t => (y t).r) ((y t).v * sin (y t).gamma) t := (hy.solves t ht hS).r
      have he : HasDerivAt (fun t => exp (-(K * t))) (exp (-(K * t)) * -(K * 1)) t :=
        (((hasDerivAt_id t).const_mul K).fun_neg).exp
      refine ⟨_, ?_, (hd.add_const D).mul he⟩
      have h1 : (y t).v * sin (y t).gamma ≤ (y t).v := by
        have := mul_le_mul_of_nonneg_left (sin_le_one (y t).gamma) (hv t ht')
        linarith
      have h2 := hspeed t ht'
      have h3 : (y t).v ≤ K * ((y t).r + D) := by
        have hr1 := hr t ht'
        have : K * ((y t).r + D) = |P.OMEGAbar| * (y t).r + (y t).r + |P.OMEGAbar| * D + D := by rw [hK]; ring
        have := mul_nonneg (abs_nonneg P.OMEGAbar) hD0
        linarith
      have h4 : 0 < exp (-(K * t)) := exp_pos _
      have h5 : (y t).v * sin (y t).gamma * exp (-(K * t)) + ((y t).r + D) * (exp (-(K * t)) * -(K * 1))
          = exp (-(K * t)) * ((y t).v * sin (y t).gamma - K * ((y t).r + D)) := by ring
      rw [h5]
      exact mul_nonpos_of_nonneg_of_nonpos h4.le (by linarith)
  have h1 := hanti ⟨le_rfl, ht.1.trans ht.2⟩ ht ht.1
  simp only [mul_zero, neg_zero, exp_zero, mul_one] at h1
  have h2 : (y t).r + D ≤ ((y 0).r + D) * exp (K * t) := by
    have := mul_le_mul_of_nonneg_right h1 (exp_pos (K * t)).le
    rw [mul_assoc, ← exp_add, neg_add_cancel, exp_zero, mul_one] at this
    exact this
  have h3 : exp (K * t) ≤ exp (K * T) := exp_le_exp.mpr (mul_le_mul_of_nonneg_left (ht.2.trans hbT) hK0.le)
  have h4 : 0 ≤ (y 0).r + D := by have := hr 0 ⟨le_rfl, ht.1.trans ht.2⟩; linarith
  have h5 := mul_le_mul_of_nonneg_left h3 h4
  unfold radiusBound
  linarith

/-- States above the altitude `h0`, faster than `v0`, away from the poles and from vertical flight, and, within `η` of the
edge of the atmosphere, away from horizontal flight. -/
structure Clear (P : Planet) (h0 v0 c η : ℝ) (s : FState) : Prop where
  low : h0 ≤ s.r * P.RP - P.RP
  slow : v0 ≤ s.v
  phi : c ≤ cos s.phi
  gamma : c ≤ cos s.gamma
  edge : η ≤ |s.r * P.RP - P.RP - P.hThres| ∨ c ≤ |sin s.gamma|

/-- C100: a flight at constant bank angle lasts for the requested time unless it comes down to the altitude `h0`, slows
down to the speed `v0`, comes near a pole or near vertical flight, or becomes almost horizontal near the edge of the
atmosphere. -/
theorem C100_flight_ends_at_obstacle (name : String) (F : AtmFile) (hF : (name, F) ∈ shippedFiles) (P : Planet)
    (hP : Planet.init name = .ok P) (atm : Atmosphere) (hatm : LoadedCubic P F.km (fileRows F) atm)
    (m beta LD A alpha RN : ℝ) (u : Bool) (f : ℝ → ℝ) (st : InitState) (hm : 0 < m) (hb : 0 < beta) (hA : 0 < A)
    (hf : u = true → ContDiff ℝ 1 f) (hf0 : ∀ M, 0 ≤ f M)
    (d T h0 v0 c η : ℝ) (hT : 0 < T) (hh : 0 < h0) (hv : 0 < v0) (hc : 0 < c) (hη : 0 < η)
    (s : FState) (hs : Clear P h0 v0 c η s) :
    ∃ (y : ℝ → FState) (b : ℝ) (S : Finset ℝ), 0 < b ∧ b ≤ T ∧ y 0 = s ∧
      SwitchedFlight (fun t s => (Vehicle.mk' m beta LD A alpha RN P atm u f st).EOM s t d) y 0 b S ∧
      ((b = T ∧ ∀ t ∈ Set.Icc 0 T, Clear P h0 v0 c η (y t)) ∨
       ∃ τ ∈ Set.Ico 0 b, (∀ t ∈ Set.Icc 0 τ, Clear P h0 v0 c η (y t)) ∧
        ∀ ε > 0, ∃ t ∈ Set.Ioc τ (τ + ε), t ≤ b ∧ ¬ Clear P h0 v0 c η (y t)) := by
  have hR : 0 < P.RP := (C01_planet_consistent name P hP).2.1
  have hs1 : 1 ≤ s.r := by
    have := hs.low
    by_contra hn
    have := mul_lt_mul_of_pos_right (not_le.mp hn) hR
    linarith
  set R := radiusBound P s T with hRdef
  have hD0 : 0 ≤ speedConstant P s := sqrt_nonneg _
  set h1 := R * P.RP - P.RP + 1 with hh1
  set v1 := speedConstant P s + |P.OMEGAbar| * R + 1 with hv1
  have hbound : ∀ (y : ℝ → FState) (b : ℝ) (S : Finset ℝ), y 0 = s → b ≤ T →
      SwitchedFlight (fun t s => (Vehicle.mk' m beta LD A alpha RN P atm u f st).EOM s t d) y 0 b S →
      (∀ t ∈ Set.Icc 0 b, Clear P h0 v0 c η (y t)) →
      ∀ t ∈ Set.Icc 0 b, (y t).r * P.RP - P.RP ≤ h1 - 1 ∧ (y t).v ≤ v1 - 1 := by
    intro y b S y0 hbT hy hcl t ht
    have := C100_speed_and_altitude_bounded name F hF P hP atm hatm m beta LD A alpha RN u f st hm hb hA hf0 (fun _ => d) y
      b T S hbT hy (fun t ht => by
        have := (hcl t ht).low
        by_contra hn
        have := mul_lt_mul_of_pos_right (not_le.mp hn) hR
        linarith) (fun t ht => (hv.trans_le (hcl t ht).slow).le) t ht
    rw [y0] at this
    have e1 := mul_le_mul_of_nonneg_right this.2 hR.le
    have e2 := mul_le_mul_of_nonneg_left this.2 (abs_nonneg P.OMEGAbar)
    exact ⟨by rw [hh1]; linarith, by rw [hv1]; linarith [this.1]⟩
  have hstart : Safe P h0 h1 v0 v1 c η s := by
    have := hbound (fun _ => s) 0 ∅ rfl hT.le ⟨continuousOn_const, continuousOn_const, continuousOn_const,
      continuousOn_const, continuousOn_const, continuousOn_const, continuousOn_const,
      fun t ht => absurd (ht.1.trans ht.2) (lt_irrefl _)⟩ (fun _ _ => hs) 0 ⟨le_rfl, le_rfl⟩
    exact ⟨hs.low, by linarith [this.1], hs.slow, by linarith [this.2], hs.phi, hs.gamma, hs.edge⟩
  have toClear : ∀ x, Safe P h0 h1 v0 v1 c η x → Clear P h0 v0 c η x := fun x hx =>
    ⟨hx.low, hx.slow, hx.phi, hx.gamma, hx.edge⟩
  obtain ⟨y, b, S, hb0, hbT, y0, hy, hcase⟩ := C100_flight_continues name F hF P hP atm hatm m beta LD A alpha RN u f st hf
    d T h0 h1 v0 v1 c η hT hh hv hc hη s hstart
  refine ⟨y, b, S, hb0, hbT, y0, hy, ?_⟩
  rcases hcase with ⟨rfl, hall⟩ | ⟨τ, hτ, hsafe, hleave⟩
  · exact Or.inl ⟨rfl, fun t ht => toClear _ (hall t ht)⟩
  · refine Or.inr ⟨τ, hτ, fun t ht => toClear _ (hsafe t ht), fun ε hε => ?_⟩
    have hfin := hbound y τ S y0 (hτ.2.le.trans hbT) (flight_mono hy le_rfl hτ.2.le) (fun t ht => toClear _ (hsafe t ht)) τ
      ⟨hτ.1, le_rfl⟩
    have hyτ := flight_mono hy hτ.1 le_rfl
    have k1 := (altitude_ahead hyτ hτ.2 P.RP).eventually (gt_mem_nhds (show (y τ).r * P.RP - P.RP < h1 by linarith [hfin.1]))
    have k2 : ∀ᶠ t in nhdsWithin τ (Set.Ioi τ), (y t).v < v1 := by
      have hc : Continuous fun x : R7 => x.2.2.2.1 := by fun_prop
      exact ((hc.tendsto (y τ).toR7).comp (flight_right hyτ hτ.2)).eventually
        (gt_mem_nhds (show (y τ).v < v1 by linarith [hfin.2]))
    obtain ⟨e, he, hall⟩ := (mem_nhdsGT_iff_exists_Ioc_subset).mp (k1.and k2)
    have he' : τ < e := he
    obtain ⟨t, ht, htb, hns⟩ := hleave (min ε (e - τ)) (lt_min hε (by linarith))
    refine ⟨t, ⟨ht.1, by have := min_le_left ε (e - τ); linarith [ht.2]⟩, htb, fun hcl => hns ?_⟩
    have hin := hall ⟨ht.1, by have := min_le_right ε (e - τ); linarith [ht.2]⟩
    exact ⟨hcl.low, hin.1.le, hcl.slow, hin.2.le, hcl.phi, hcl.gamma, hcl.edge⟩

/-! ### Case -/

/-- Case for `C100_flight_continues`, `C100_speed_and_altitude_bounded` (through which it is obtained) and
`C100_flight_ends_at_obstacle`: a vehicle with a drag curve that enters the atmosphere of Mars flies for ten minutes, or
until it is below 1 km, slower than a hundredth of the reference speed, near a pole, near vertical or almost horizontal
near the edge. -/
example : ∃ (P : Planet) (atm : Atmosphere) (y : ℝ → FState) (b : ℝ) (S : Finset ℝ), Planet.init "MARS" = .ok P ∧
    LoadedCubic P mars.km (fileRows mars) atm ∧ 0 < b ∧ b ≤ 600 / P.tau ∧
    y 0 = ⟨1 + P.hThres / P.RP, 0, 0, 1, 0, -0.2, 0⟩ ∧
    SwitchedFlight (fun t s => (Vehicle.mk' 1000 100 0.2 10 0 1 P atm true demoCurve ⟨0, 0, 0, 0, 0, 0, 0, 0⟩).EOM s t
      0) y 0 b S ∧
    ((b = 600 / P.tau ∧ ∀ t ∈ Set.Icc 0 (600 / P.tau), Clear P 1000 0.01 0.01 1 (y t)) ∨
       ∃ τ ∈ Set.Ico 0 b, (∀ t ∈ Set.Icc 0 τ, Clear P 1000 0.01 0.01 1 (y t)) ∧
        ∀ ε > 0, ∃ t ∈ Set.Ioc τ (τ + ε), t ≤ b ∧ ¬ Clear P 1000 0.01 0.01 1 (y t)) := by
  obtain ⟨P, hP⟩ := (C01_planet_names "MARS").1.mpr (by simp [Spec.bodies])
  have hF : ("MARS", mars) ∈ shippedFiles := by simp [shippedFiles]
  obtain ⟨atm, hatm⟩ := (C85_loads "MARS" mars hF P hP).1
  obtain ⟨-, he⟩ := mars_entry hP
  have hT : P.hThres = 120e3 := by
    simp [Planet.init] at hP; subst hP; norm_num [Planet.withScales]
  have htau : 0 < P.tau := (C01_planet_consistent "MARS" P hP).2.2.2.2.2.2.2.2.2.1
  have hg : (0.01 : ℝ) ≤ cos (-0.2) := by
    have := one_sub_sq_div_two_le_cos (x := (-0.2 : ℝ))
    norm_num at this ⊢
    linarith
  have hsin : (0.01 : ℝ) ≤ |sin (-0.2)| := by
    have h2 := sin_gt_sub_cube (x := (0.2:ℝ)) (by norm_num)
    rw [sin_neg, abs_neg]
    refine le_trans ?_ (le_abs_self _)
    refine le_trans ?_ h2.le
    norm_num
  have hclear : Clear P 1000 0.01 0.01 1 ⟨1 + P.hThres / P.RP, 0, 0, 1, 0, -0.2, 0⟩ :=
    ⟨by change 1000 ≤ (1 + P.hThres / P.RP) * P.RP - P.RP; rw [he, hT]; norm_num, by norm_num,
      by rw [cos_zero]; norm_num, hg, Or.inr hsin⟩
  obtain ⟨y, b, S, h⟩ := C100_flight_ends_at_obstacle "MARS" mars hF P hP atm hatm 1000 100 0.2 10 0 1 true demoCurve
    ⟨0, 0, 0, 0, 0, 0, 0, 0⟩ (by norm_num) (by norm_num) (by norm_num) (fun _ => demoCurve_smooth)
    (fun M => (demoCurve_pos M).le) 0 (600 / P.tau) 1000 0.01 0.01 1 (by positivity) (by norm_num) (by norm_num)
    (by norm_num) (by norm_num) _ hclear
  exact ⟨P, atm, y, b, S, hP, hatm, h⟩

end AMAT.Props
