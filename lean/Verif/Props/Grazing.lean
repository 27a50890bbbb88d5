import Verif.Props.EdgeCrossing

/-
Property C88 for vehicles that are horizontal exactly at the edge of the atmosphere.  Lift acts below the edge and not above
it.  If the vehicle is drawn to the same side by the accelerations above and below, it has one flight.  If lift pulls a vehicle
down that would climb without it, it has two flights; if lift pushes a vehicle up that would sink without it, it has none.
-/

noncomputable section

open Real

namespace AMAT.Spec

/-- Horizontal exactly at the edge of the atmosphere, moving, off the poles. -/
structure Grazing (P : Planet) (s : FState) : Prop where
  v : s.v ≠ 0
  phi : cos s.phi ≠ 0
  level : sin s.gamma = 0
  edge : s.r * P.RP - P.RP = P.hThres

/-- The rate of change of the climb rate `v sin γ` when the state changes at the rate `d`. -/
def climbAcc (d x : FState) : ℝ := d.v * sin x.gamma + x.v * cos x.gamma * d.gamma

end AMAT.Spec

namespace AMAT.Props

open Real AMAT AMAT.Spec AMAT.Data AMAT.Spline AMAT.Lits AMAT.Piecewise

theorem climb_hasDeriv {G : FState → FState} {y : ℝ → FState} {t : ℝ} (h : SolvesAt G y t) :
    HasDerivAt (fun t => (y t).v * sin (y t).gamma) (climbAcc (G (y t)) (y t)) t := by
  refine (h.v.mul h.gamma.sin).congr_deriv ?_
  unfold climbAcc
  ring

theorem climb_continuousOn {F : ℝ → FState → FState} {y : ℝ → FState} {a b : ℝ} {S : Finset ℝ}
    (hy : SwitchedFlight F y a b S) : ContinuousOn (fun t => (y t).v * sin (y t).gamma) (Set.Icc a b) :=
  hy.v.mul (continuous_sin.comp_continuousOn hy.gamma)

/-- A level vehicle that is accelerated upwards climbs. -/
theorem flight_lifts {F : ℝ → FState → FState} {y : ℝ → FState} {a b : ℝ} {S : Finset ℝ}
    (hF : ∀ t x, (F t x).r = x.v * sin x.gamma) (hy : SwitchedFlight F y a b S) (hab : a < b)
    (h0 : 0 ≤ (y a).v * sin (y a).gamma) (hacc : ∀ᶠ t in nhdsWithin a (Set.Ioi a), 0 < climbAcc (F t (y t)) (y t)) :
    ∀ᶠ t in nhdsWithin a (Set.Ioi a), (y a).r < (y t).r := by
  have h2 : ∀ᶠ t in nhdsWithin a (Set.Ioi a), t ≤ b := by
    filter_upwards [Ioc_mem_nhdsGT hab] with s hs using hs.2
  obtain ⟨u, hu, hall⟩ := (mem_nhdsGT_iff_exists_Ioc_subset).mp (hacc.and h2)
  have hub : u ≤ b := (hall ⟨hu, le_rfl⟩).2
  have hw := strictAntiOn_off (fun t => -((y t).v * sin (y t).gamma)) S a u
    (((climb_continuousOn hy).mono (Set.Icc_subset_Icc_right hub)).neg) fun t ht hS =>
      ⟨_, by have := (hall ⟨ht.1, ht.2.le⟩).1; linarith, (climb_hasDeriv (hy.solves t ⟨ht.1, ht.2.trans_le hub⟩ hS)).fun_neg⟩
  have hr := strictAntiOn_off (fun t => -(y t).r) S a u ((hy.r.mono (Set.Icc_subset_Icc_right hub)).neg) fun t ht hS => by
    have hd := (hy.solves t ⟨ht.1, ht.2.trans_le hub⟩ hS).r
    rw [hF] at hd
    refine ⟨_, ?_, hd.fun_neg⟩
    have := hw ⟨le_rfl, le_of_lt hu⟩ ⟨ht.1.le, ht.2.le⟩ ht.1
    simp only [neg_lt_neg_iff] at this
    linarith
  refine (mem_nhdsGT_iff_exists_Ioc_subset).mpr ⟨u, hu, fun t ht => ?_⟩
  have := hr ⟨le_rfl, le_of_lt hu⟩ ⟨ht.1.le, ht.2⟩ ht.1
  simp only [neg_lt_neg_iff] at this
  exact this

/-- A level vehicle that is accelerated downwards sinks. -/
theorem flight_sinks {F : ℝ → FState → FState} {y : ℝ → FState} {a b : ℝ} {S : Finset ℝ}
    (hF : ∀ t x, (F t x).r = x.v * sin x.gamma) (hy : SwitchedFlight F y a b S) (hab : a < b)
    (h0 : (y a).v * sin (y a).gamma ≤ 0) (hacc : ∀ᶠ t in nhdsWithin a (Set.Ioi a), climbAcc (F t (y t)) (y t) < 0) :
    ∀ᶠ t in nhdsWithin a (Set.Ioi a), (y t).r < (y a).r := by
  have h2 : ∀ᶠ t in nhdsWithin a (Set.Ioi a), t ≤ b := by
    filter_upwards [Ioc_mem_nhdsGT hab] with s hs using hs.2
  obtain ⟨u, hu, hall⟩ := (mem_nhdsGT_iff_exists_Ioc_subset).mp (hacc.and h2)
  have hub : u ≤ b := (hall ⟨hu, le_rfl⟩).2
  have hw := strictAntiOn_off (fun t => (y t).v * sin (y t).gamma) S a u
    ((climb_continuousOn hy).mono (Set.Icc_subset_Icc_right hub)) fun t ht hS =>
      ⟨_, (hall ⟨ht.1, ht.2.le⟩).1, climb_hasDeriv (hy.solves t ⟨ht.1, ht.2.trans_le hub⟩ hS)⟩
  have hr := strictAntiOn_off (fun t => (y t).r) S a u (hy.r.mono (Set.Icc_subset_Icc_right hub)) fun t ht hS => by
    have hd := (hy.solves t ⟨ht.1, ht.2.trans_le hub⟩ hS).r
    rw [hF] at hd
    refine ⟨_, ?_, hd⟩
    have := hw ⟨le_rfl, le_of_lt hu⟩ ⟨ht.1.le, ht.2.le⟩ ht.1
    simp only at this
    linarith
  exact (mem_nhdsGT_iff_exists_Ioc_subset).mpr ⟨u, hu, fun t ht => hr ⟨le_rfl, le_of_lt hu⟩ ⟨ht.1.le, ht.2⟩ ht.1⟩

/-- Where the equations are smooth, flights from one state agree for some time. -/
theorem smooth_unique {W : Vehicle} {s : FState} {d : ℝ} (hW : ContDiffAt ℝ 1 (W.field d) s.toR7) {y y' : ℝ → FState}
    {a b : ℝ} {S S' : Finset ℝ} (hab : a < b) (hy : SwitchedFlight (fun t x => W.EOM x t d) y a b S)
    (hy' : SwitchedFlight (fun t x => W.EOM x t d) y' a b S') (h0 : y a = s) (h0' : y' a = s) :
    ∀ᶠ t in nhdsWithin a (Set.Ioi a), y t = y' t := by
  obtain ⟨K, U, hU, hl⟩ := hW.exists_lipschitzOnWith
  have n1 : ∀ᶠ t in nhdsWithin a (Set.Ioi a), (y t).toR7 ∈ U := flight_right hy hab (by rw [h0]; exact hU)
  have n2 : ∀ᶠ t in nhdsWithin a (Set.Ioi a), (y' t).toR7 ∈ U := flight_right hy' hab (by rw [h0']; exact hU)
  have n3 : ∀ᶠ t in nhdsWithin a (Set.Ioi a), t ≤ b := by
    filter_upwards [Ioc_mem_nhdsGT hab] with s hs using hs.2
  obtain ⟨u, hu, hall⟩ := (mem_nhdsGT_iff_exists_Ioc_subset).mp (n1.and (n2.and n3))
  have hub : u ≤ b := (hall ⟨hu, le_rfl⟩).2.2
  have hIcc : Set.Icc a u ⊆ Set.Icc a b := Set.Icc_subset_Icc_right hub
  have hz := zero_off (fun t => (y t).toR7 - (y' t).toR7) (fun t => W.field d (y t).toR7 - W.field d (y' t).toR7) K (S ∪ S')
    a u (((flight_continuousOn hy).sub (flight_continuousOn hy')).mono hIcc) (by simp [h0, h0']) fun t ht hS => by
      rw [Finset.mem_union, not_or] at hS
      obtain ⟨e2, e3, -⟩ := hall ⟨ht.1, ht.2.le⟩
      have htab : t ∈ Set.Ioo a b := ⟨ht.1, ht.2.trans_le hub⟩
      have s1 := (solvesAt_iff _ _ _).mp (hy.solves t htab hS.1)
      have s2 := (solvesAt_iff _ _ _).mp (hy'.solves t htab hS.2)
      exact ⟨s1.sub s2, (lipschitzOnWith_iff_norm_sub_le.mp hl) e2 e3⟩
  refine (mem_nhdsGT_iff_exists_Ioc_subset).mpr ⟨u, hu, fun t ht => ?_⟩
  have h2 : (y t).toR7 = (y' t).toR7 := sub_eq_zero.mp (hz t ⟨ht.1.le, ht.2⟩)
  simpa using congrArg FState.ofR7 h2

/-- The last time at which a function is not above a value. -/
theorem last_below {g : ℝ → ℝ} {a b k : ℝ} (hab : a ≤ b) (hc : ContinuousOn g (Set.Icc a b)) (ha : g a ≤ k) (hb : k < g b) :
    ∃ τ ∈ Set.Ico a b, g τ = k ∧ ∀ t ∈ Set.Ioc τ b, k < g t := by
  have hcl : IsClosed (Set.Icc a b ∩ g ⁻¹' Set.Iic k) := hc.preimage_isClosed_of_isClosed isClosed_Icc isClosed_Iic
  obtain ⟨τ, ⟨hτ, hk⟩, hmax⟩ := (isCompact_Icc.of_isClosed_subset hcl Set.inter_subset_left).exists_isGreatest
    ⟨a, ⟨le_rfl, hab⟩, ha⟩
  have hk' : g τ ≤ k := hk
  have hlt : τ < b := lt_of_le_of_ne hτ.2 fun h => absurd hb (not_lt.mpr (h ▸ hk'))
  have hafter : ∀ t ∈ Set.Ioc τ b, k < g t := by
    intro t ht
    by_contra hn
    exact absurd (hmax ⟨⟨hτ.1.trans ht.1.le, ht.2⟩, not_lt.mp hn⟩) (not_le.mpr ht.1)
  refine ⟨τ, ⟨hτ.1, hlt⟩, le_antisymm hk' ?_, hafter⟩
  have ht : Filter.Tendsto g (nhdsWithin τ (Set.Ioi τ)) (nhds (g τ)) := by
    refine (hc τ hτ).mono_left (nhdsWithin_le_of_mem ?_)
    filter_upwards [Ioc_mem_nhdsGT hlt] with s hs using ⟨hτ.1.trans hs.1.le, hs.2⟩
  refine ge_of_tendsto ht ?_
  filter_upwards [Ioc_mem_nhdsGT hlt] with s hs using (hafter s hs).le

/-! ### Both sides of the edge -/

/-- The equations of motion on both sides of the edge, each continued smoothly to the other side. -/
structure TwoSided (V : Vehicle) (P : Planet) (s : FState) (T B : Vehicle) (c : ℝ) : Prop where
  smoothT : ∀ d, ContDiffAt ℝ 1 (T.field d) s.toR7
  smoothB : ∀ d, ContDiffAt ℝ 1 (B.field d) s.toR7
  cut : c < P.hThres
  above : ∀ x t d, P.hThres < x.r * P.RP - P.RP → V.EOM x t d = T.EOM x t d
  below : ∀ x t d, c ≤ x.r * P.RP - P.RP → x.r * P.RP - P.RP ≤ P.hThres → V.EOM x t d = B.EOM x t d

theorem level_cos {P : Planet} {s : FState} (hs : Grazing P s) : cos s.gamma ≠ -0.01 := by
  intro h
  have := sin_sq_add_cos_sq s.gamma
  rw [hs.level, h] at this
  norm_num at this

theorem two_sided {name : String} {F : AtmFile} (hF : (name, F) ∈ shippedFiles) {P : Planet}
    (hP : Planet.init name = .ok P) {atm : Atmosphere} (hatm : LoadedCubic P F.km (fileRows F) atm)
    (m beta LD A alpha RN : ℝ) (u : Bool) (f : ℝ → ℝ) (st : InitState) (hf : u = true → ContDiff ℝ 1 f) {s : FState}
    (hs : Grazing P s) : ∃ T B c, TwoSided (Vehicle.mk' m beta LD A alpha RN P atm u f st) P s T B c ∧
      ∀ d, (T.EOM s 0 d).gamma = ((Vehicle.mk' m beta LD A alpha RN P atm u f st).EOM s 0 d).gamma -
        (Vehicle.mk' m beta LD A alpha RN P atm u f st).a_nbar s.r s.theta s.phi s.v d / s.v := by
  set V := Vehicle.mk' m beta LD A alpha RN P atm u f st with hV
  obtain ⟨a, c, hc0, hc, -, heq, hsm⟩ := below_smooth_at hF hP hatm m beta LD A alpha RN u f st
  refine ⟨inAtmosphere V (P.hThres - 1) atm, inAtmosphere V (P.hThres + 1) a, c,
    ⟨above_smooth_at hP atm m beta LD A alpha RN u f st hs.v hs.phi (level_cos hs) hs.edge,
      hsm s hs.v hs.phi (level_cos hs) hs.edge (fun hu => (hf hu).contDiffAt), hc, fun x t d hx => ?_,
      fun x t d h1 h2 => heq x d t h1 h2⟩, fun d => ?_⟩
  · have z1 : P.density atm (x.r * P.RP - P.RP) = 0 := by
      rw [Planet.density, if_neg (fun hc => absurd hc.2 (not_le.mpr hx)), if_pos (show _ > P.hThres from hx)]
    refine inAtmosphere_EOM _ _ _ x t d ?_ (Or.inl z1)
    refine Eq.trans ?_ z1.symm
    exact inAtmosphere_vacuum _ _ _ (show P.hThres - 1 < x.r * P.RP - P.RP by linarith)
  · set T := inAtmosphere V (P.hThres - 1) atm with hT
    have hρ : T.planet.rhobar T.atm s.r s.theta s.phi = 0 := by
      change T.planet.density atm (s.r * P.RP - P.RP) / P.rho0 = 0
      rw [inAtmosphere_vacuum V _ atm (show P.hThres - 1 < s.r * P.RP - P.RP by rw [hs.edge]; linarith), zero_div]
    have hn : T.a_nbar s.r s.theta s.phi s.v d = 0 := by
      unfold Vehicle.a_nbar Vehicle.Lbar
      rw [hρ]
      norm_num
    change (T.a_nbar s.r s.theta s.phi s.v d + V.gnbar s.r s.phi s.gamma s.psi) / s.v + s.v / s.r * cos s.gamma +
      V.cfgammabar s.r s.phi s.v s.psi s.gamma + V.cogammabar s.r s.phi s.v s.psi s.gamma =
      (V.a_nbar s.r s.theta s.phi s.v d + V.gnbar s.r s.phi s.gamma s.psi) / s.v + s.v / s.r * cos s.gamma +
      V.cfgammabar s.r s.phi s.v s.psi s.gamma + V.cogammabar s.r s.phi s.v s.psi s.gamma -
      V.a_nbar s.r s.theta s.phi s.v d / s.v
    rw [hn, zero_add, add_div]
    ring

/-- Along a flight from `s` the smooth continuations accelerate the vehicle as they do at `s`. -/
theorem acc_tendsto {W : Vehicle} {s : FState} {d : ℝ} (hW : ContDiffAt ℝ 1 (W.field d) s.toR7) {F : ℝ → FState → FState}
    {y : ℝ → FState} {a b : ℝ} {S : Finset ℝ} (hab : a < b) (hy : SwitchedFlight F y a b S) (h0 : y a = s) :
    Filter.Tendsto (fun t => climbAcc (W.EOM (y t) t d) (y t)) (nhdsWithin a (Set.Ioi a)) (nhds (climbAcc (W.EOM s 0 d) s)) := by
  have hr := flight_right hy hab
  rw [h0] at hr
  have h1 : ContinuousAt (fun x : R7 => (W.field d x).2.2.2.1 * sin x.2.2.2.2.2.1 +
      x.2.2.2.1 * cos x.2.2.2.2.2.1 * (W.field d x).2.2.2.2.2.1) s.toR7 := by
    have hc := hW.continuousAt
    have c1 : ContinuousAt (fun x : R7 => (W.field d x).2.2.2.1) s.toR7 := hc.snd.snd.snd.fst
    have c2 : ContinuousAt (fun x : R7 => (W.field d x).2.2.2.2.2.1) s.toR7 := hc.snd.snd.snd.snd.snd.fst
    have c3 : Continuous fun x : R7 => sin x.2.2.2.2.2.1 := by fun_prop
    have c4 : Continuous fun x : R7 => x.2.2.2.1 * cos x.2.2.2.2.2.1 := by fun_prop
    exact (c1.mul c3.continuousAt).add (c4.continuousAt.mul c2)
  exact Filter.Tendsto.comp (f := fun t => (y t).toR7) h1 hr

theorem climb_level (d s : FState) (h : sin s.gamma = 0) : climbAcc d s = s.v * cos s.gamma * d.gamma := by
  unfold climbAcc; rw [h]; ring

theorem eventually_le {a b : ℝ} (hab : a < b) : ∀ᶠ t in nhdsWithin a (Set.Ioi a), t ≤ b := by
  filter_upwards [Ioc_mem_nhdsGT hab] with s hs using hs.2

theorem alt_of_r {P : Planet} (hR : 0 < P.RP) {s : FState} (he : s.r * P.RP - P.RP = P.hThres) (r : ℝ) :
    (s.r < r → P.hThres < r * P.RP - P.RP) ∧ (r < s.r → r * P.RP - P.RP < P.hThres) := by
  constructor <;> intro h <;> have := mul_lt_mul_of_pos_right h hR <;> linarith

theorem self_ahead {W : Vehicle} {s : FState} (h : ∀ d, ContDiffAt ℝ 1 (W.field d) s.toR7) :
    SmoothAhead W s W fun _ => True :=
  ⟨h, fun _ _ _ _ => rfl, fun _ _ _ _ _ _ _ _ _ => Filter.Eventually.of_forall fun _ => trivial⟩

/-- From a grazing state a flight goes up if the vacuum lets it climb. -/
theorem grazing_up {V T B : Vehicle} {P : Planet} (hR : 0 < P.RP) {s : FState} {d c : ℝ} (h : TwoSided V P s T B c)
    (hs : Grazing P s) (hT : 0 < climbAcc (T.EOM s 0 d) s) (t₀ : ℝ) :
    ∃ (y : ℝ → FState) (b : ℝ), t₀ < b ∧ y t₀ = s ∧ (∀ t ∈ Set.Ioc t₀ b, P.hThres < (y t).r * P.RP - P.RP) ∧
      SwitchedFlight (fun t x => V.EOM x t d) y t₀ b ∅ := by
  obtain ⟨y, b, hb, h0, -, hy⟩ := smoothAhead_exists (self_ahead h.smoothT) d t₀
  have hl := flight_lifts (fun _ _ => rfl) hy hb (by rw [h0, hs.level, mul_zero])
    ((acc_tendsto (h.smoothT d) hb hy h0).eventually (lt_mem_nhds hT))
  obtain ⟨u, hu, hall⟩ := (mem_nhdsGT_iff_exists_Ioc_subset).mp (hl.and (eventually_le hb))
  have hab : ∀ t ∈ Set.Ioc t₀ u, P.hThres < (y t).r * P.RP - P.RP := fun t ht =>
    (alt_of_r hR hs.edge _).1 (by rw [← h0]; exact (hall ht).1)
  exact ⟨y, u, hu, h0, hab, flight_congr (flight_mono hy le_rfl (hall ⟨hu, le_rfl⟩).2) fun t ht _ =>
    (h.above _ _ _ (hab t ⟨ht.1, ht.2.le⟩)).symm⟩

/-- From a grazing state a flight goes down if the atmosphere lets it sink. -/
theorem grazing_down {V T B : Vehicle} {P : Planet} (hR : 0 < P.RP) {s : FState} {d c : ℝ} (h : TwoSided V P s T B c)
    (hs : Grazing P s) (hB : climbAcc (B.EOM s 0 d) s < 0) (t₀ : ℝ) :
    ∃ (y : ℝ → FState) (b : ℝ), t₀ < b ∧ y t₀ = s ∧ (∀ t ∈ Set.Ioc t₀ b, (y t).r * P.RP - P.RP < P.hThres) ∧
      SwitchedFlight (fun t x => V.EOM x t d) y t₀ b ∅ := by
  obtain ⟨y, b, hb, h0, -, hy⟩ := smoothAhead_exists (self_ahead h.smoothB) d t₀
  have hl := flight_sinks (fun _ _ => rfl) hy hb (by rw [h0, hs.level, mul_zero])
    ((acc_tendsto (h.smoothB d) hb hy h0).eventually (gt_mem_nhds hB))
  have hcut := (altitude_ahead hy hb P.RP).eventually (lt_mem_nhds (show c < (y t₀).r * P.RP - P.RP by
    rw [h0, hs.edge]; exact h.cut))
  obtain ⟨u, hu, hall⟩ := (mem_nhdsGT_iff_exists_Ioc_subset).mp (hl.and (hcut.and (eventually_le hb)))
  have hbe : ∀ t ∈ Set.Ioc t₀ u, (y t).r * P.RP - P.RP < P.hThres := fun t ht =>
    (alt_of_r hR hs.edge _).2 (by rw [← h0]; exact (hall ht).1)
  exact ⟨y, u, hu, h0, hbe, flight_congr (flight_mono hy le_rfl (hall ⟨hu, le_rfl⟩).2.2) fun t ht _ =>
    (h.below _ _ _ (hall ⟨ht.1, ht.2.le⟩).2.1.le (hbe t ⟨ht.1, ht.2.le⟩).le).symm⟩

/-- On every flight from a grazing state the acceleration is that of one of the two sides. -/
theorem grazing_acc {V T B : Vehicle} {P : Planet} {s : FState} {d c : ℝ} (h : TwoSided V P s T B c) (hs : Grazing P s)
    {Q : ℝ → Prop} (hT : ∀ᶠ z in nhds (climbAcc (T.EOM s 0 d) s), Q z) (hB : ∀ᶠ z in nhds (climbAcc (B.EOM s 0 d) s), Q z)
    {y : ℝ → FState} {a b : ℝ} {S : Finset ℝ} (hab : a < b) (hy : SwitchedFlight (fun t x => V.EOM x t d) y a b S)
    (h0 : y a = s) : ∀ᶠ t in nhdsWithin a (Set.Ioi a), Q (climbAcc (V.EOM (y t) t d) (y t)) := by
  have hcut := (altitude_ahead hy hab P.RP).eventually (lt_mem_nhds (show c < (y a).r * P.RP - P.RP by
    rw [h0, hs.edge]; exact h.cut))
  filter_upwards [(acc_tendsto (h.smoothT d) hab hy h0).eventually hT, (acc_tendsto (h.smoothB d) hab hy h0).eventually hB,
    hcut] with t h1 h2 h3
  rcases lt_or_ge P.hThres ((y t).r * P.RP - P.RP) with h4 | h4
  · rw [h.above _ _ _ h4]; exact h1
  · rw [h.below _ _ _ h3.le h4]; exact h2

theorem edge_same {V T B : Vehicle} {P : Planet} {s : FState} {d c : ℝ} (h : TwoSided V P s T B c) (hs : Grazing P s) :
    V.EOM s 0 d = B.EOM s 0 d := h.below _ _ _ (by rw [hs.edge]; exact h.cut.le) hs.edge.le

/-- C88 for a vehicle that is horizontal exactly at the edge of a shipped atmosphere: if the climb rate changes to the same
side with the lift felt at the edge and without it, there is one flight, and it goes to that side. -/
theorem C88_grazing_one_flight (name : String) (F : AtmFile) (hF : (name, F) ∈ shippedFiles) (P : Planet)
    (hP : Planet.init name = .ok P) (atm : Atmosphere) (hatm : LoadedCubic P F.km (fileRows F) atm)
    (m beta LD A alpha RN : ℝ) (u : Bool) (f : ℝ → ℝ) (st : InitState) (hf : u = true → ContDiff ℝ 1 f)
    (delta t₀ : ℝ) (s : FState) (hs : Grazing P s) (V : Vehicle) (hV : V = Vehicle.mk' m beta LD A alpha RN P atm u f st)
    (up : Bool)
    (hin : if up then 0 < s.v * cos s.gamma * (V.EOM s 0 delta).gamma else s.v * cos s.gamma * (V.EOM s 0 delta).gamma < 0)
    (hout : if up then 0 < s.v * cos s.gamma * ((V.EOM s 0 delta).gamma - V.a_nbar s.r s.theta s.phi s.v delta / s.v)
      else s.v * cos s.gamma * ((V.EOM s 0 delta).gamma - V.a_nbar s.r s.theta s.phi s.v delta / s.v) < 0) :
    (∃ (y : ℝ → FState) (b : ℝ), t₀ < b ∧ y t₀ = s ∧ SwitchedFlight (fun t x => V.EOM x t delta) y t₀ b ∅) ∧
    (∀ (y : ℝ → FState) (b : ℝ) (S : Finset ℝ), t₀ < b → y t₀ = s → SwitchedFlight (fun t x => V.EOM x t delta) y t₀ b S →
      ∀ᶠ t in nhdsWithin t₀ (Set.Ioi t₀), if up then P.hThres < (y t).r * P.RP - P.RP
        else (y t).r * P.RP - P.RP < P.hThres) ∧
    ∀ (y y' : ℝ → FState) (b b' : ℝ) (S S' : Finset ℝ), t₀ < b → t₀ < b' → y t₀ = s → y' t₀ = s →
      SwitchedFlight (fun t x => V.EOM x t delta) y t₀ b S → SwitchedFlight (fun t x => V.EOM x t delta) y' t₀ b' S' →
      ∀ᶠ t in nhdsWithin t₀ (Set.Ioi t₀), y t = y' t := by
  subst hV
  have hR : 0 < P.RP := (C01_planet_consistent name P hP).2.1
  obtain ⟨T, B, c, h, hg⟩ := two_sided hF hP hatm m beta LD A alpha RN u f st hf hs
  set V := Vehicle.mk' m beta LD A alpha RN P atm u f st with hV
  rw [← hg, ← climb_level _ _ hs.level] at hout
  rw [edge_same h hs, ← climb_level _ _ hs.level] at hin
  cases up with
  | true =>
    simp only [if_true] at hin hout ⊢
    have side : ∀ (y : ℝ → FState) (b : ℝ) (S : Finset ℝ), t₀ < b → y t₀ = s →
        SwitchedFlight (fun t x => V.EOM x t delta) y t₀ b S →
        ∀ᶠ t in nhdsWithin t₀ (Set.Ioi t₀), P.hThres < (y t).r * P.RP - P.RP := by
      intro y b S hb h0 hy
      filter_upwards [flight_lifts (fun _ _ => rfl) hy hb (by rw [h0, hs.level, mul_zero])
        (grazing_acc h hs (lt_mem_nhds hout) (lt_mem_nhds hin) hb hy h0)] with t ht
      exact (alt_of_r hR hs.edge _).1 (by rw [← h0]; exact ht)
    refine ⟨?_, side, ?_⟩
    · obtain ⟨y, b, hb, h0, -, hy⟩ := grazing_up hR h hs hout t₀
      exact ⟨y, b, hb, h0, hy⟩
    · intro y y' b b' S S' hb hb' h0 h0' hy hy'
      obtain ⟨w, hw, hall⟩ := (mem_nhdsGT_iff_exists_Ioc_subset).mp (((side y b S hb h0 hy).and
        (side y' b' S' hb' h0' hy')).and ((eventually_le hb).and (eventually_le hb')))
      have e := hall ⟨hw, le_rfl⟩
      exact smooth_unique (h.smoothT delta) hw
        (flight_congr (flight_mono hy le_rfl e.2.1) fun t ht _ => h.above _ _ _ (hall ⟨ht.1, ht.2.le⟩).1.1)
        (flight_congr (flight_mono hy' le_rfl e.2.2) fun t ht _ => h.above _ _ _ (hall ⟨ht.1, ht.2.le⟩).1.2) h0 h0'
  | false =>
    simp only [Bool.false_eq_true, if_false] at hin hout ⊢
    have side : ∀ (y : ℝ → FState) (b : ℝ) (S : Finset ℝ), t₀ < b → y t₀ = s →
        SwitchedFlight (fun t x => V.EOM x t delta) y t₀ b S →
        ∀ᶠ t in nhdsWithin t₀ (Set.Ioi t₀), (y t).r * P.RP - P.RP < P.hThres := by
      intro y b S hb h0 hy
      filter_upwards [flight_sinks (fun _ _ => rfl) hy hb (by rw [h0, hs.level, mul_zero])
        (grazing_acc h hs (gt_mem_nhds hout) (gt_mem_nhds hin) hb hy h0)] with t ht
      exact (alt_of_r hR hs.edge _).2 (by rw [← h0]; exact ht)
    refine ⟨?_, side, ?_⟩
    · obtain ⟨y, b, hb, h0, -, hy⟩ := grazing_down hR h hs hin t₀
      exact ⟨y, b, hb, h0, hy⟩
    · intro y y' b b' S S' hb hb' h0 h0' hy hy'
      have cut : ∀ (y : ℝ → FState) (b : ℝ) (S : Finset ℝ), t₀ < b → y t₀ = s →
          SwitchedFlight (fun t x => V.EOM x t delta) y t₀ b S →
          ∀ᶠ t in nhdsWithin t₀ (Set.Ioi t₀), c < (y t).r * P.RP - P.RP := fun y b S hb h0 hy =>
        (altitude_ahead hy hb P.RP).eventually (lt_mem_nhds (show c < (y t₀).r * P.RP - P.RP by
          rw [h0, hs.edge]; exact h.cut))
      obtain ⟨w, hw, hall⟩ := (mem_nhdsGT_iff_exists_Ioc_subset).mp ((((side y b S hb h0 hy).and
        (side y' b' S' hb' h0' hy')).and ((cut y b S hb h0 hy).and (cut y' b' S' hb' h0' hy'))).and
          ((eventually_le hb).and (eventually_le hb')))
      have e := hall ⟨hw, le_rfl⟩
      exact smooth_unique (h.smoothB delta) hw
        (flight_congr (flight_mono hy le_rfl e.2.1) fun t ht _ =>
          h.below _ _ _ (hall ⟨ht.1, ht.2.le⟩).1.2.1.le (hall ⟨ht.1, ht.2.le⟩).1.1.1.le)
        (flight_congr (flight_mono hy' le_rfl e.2.2) fun t ht _ =>
          h.below _ _ _ (hall ⟨ht.1, ht.2.le⟩).1.2.2.le (hall ⟨ht.1, ht.2.le⟩).1.1.2.le) h0 h0'

/-- C88 (finding): a vehicle that is horizontal exactly at the edge of the atmosphere and would climb without the lift it feels
there, but sinks with it, has two flights: one leaves the atmosphere and the other enters it. -/
theorem C88_grazing_two_flights (name : String) (F : AtmFile) (hF : (name, F) ∈ shippedFiles) (P : Planet)
    (hP : Planet.init name = .ok P) (atm : Atmosphere) (hatm : LoadedCubic P F.km (fileRows F) atm)
    (m beta LD A alpha RN : ℝ) (u : Bool) (f : ℝ → ℝ) (st : InitState) (hf : u = true → ContDiff ℝ 1 f)
    (delta t₀ : ℝ) (s : FState) (hs : Grazing P s) (V : Vehicle) (hV : V = Vehicle.mk' m beta LD A alpha RN P atm u f st)
    (hin : s.v * cos s.gamma * (V.EOM s 0 delta).gamma < 0)
    (hout : 0 < s.v * cos s.gamma * ((V.EOM s 0 delta).gamma - V.a_nbar s.r s.theta s.phi s.v delta / s.v)) :
    ∃ (y y' : ℝ → FState) (b : ℝ), t₀ < b ∧ y t₀ = s ∧ y' t₀ = s ∧ SwitchedFlight (fun t x => V.EOM x t delta) y t₀ b ∅ ∧
      SwitchedFlight (fun t x => V.EOM x t delta) y' t₀ b ∅ ∧
      ∀ t ∈ Set.Ioc t₀ b, P.hThres < (y t).r * P.RP - P.RP ∧ (y' t).r * P.RP - P.RP < P.hThres := by
  subst hV
  have hR : 0 < P.RP := (C01_planet_consistent name P hP).2.1
  obtain ⟨T, B, c, h, hg⟩ := two_sided hF hP hatm m beta LD A alpha RN u f st hf hs
  set V := Vehicle.mk' m beta LD A alpha RN P atm u f st with hV
  rw [← hg, ← climb_level _ _ hs.level] at hout
  rw [edge_same h hs, ← climb_level _ _ hs.level] at hin
  obtain ⟨y, b, hb, h0, hside, hy⟩ := grazing_up hR h hs hout t₀
  obtain ⟨y', b', hb', h0', hside', hy'⟩ := grazing_down hR h hs hin t₀
  exact ⟨y, y', min b b', lt_min hb hb', h0, h0', flight_mono hy le_rfl (min_le_left _ _),
    flight_mono hy' le_rfl (min_le_right _ _), fun t ht => ⟨hside t ⟨ht.1, ht.2.trans (min_le_left _ _)⟩,
      hside' t ⟨ht.1, ht.2.trans (min_le_right _ _)⟩⟩⟩

/-- C88 (finding): a vehicle that is horizontal exactly at the edge of the atmosphere and would sink without the lift it feels
there, but climbs with it, has no flight at all. -/
theorem C88_grazing_no_flight (name : String) (F : AtmFile) (hF : (name, F) ∈ shippedFiles) (P : Planet)
    (hP : Planet.init name = .ok P) (atm : Atmosphere) (hatm : LoadedCubic P F.km (fileRows F) atm)
    (m beta LD A alpha RN : ℝ) (u : Bool) (f : ℝ → ℝ) (st : InitState) (hf : u = true → ContDiff ℝ 1 f)
    (delta t₀ : ℝ) (s : FState) (hs : Grazing P s) (V : Vehicle) (hV : V = Vehicle.mk' m beta LD A alpha RN P atm u f st)
    (hin : 0 < s.v * cos s.gamma * (V.EOM s 0 delta).gamma)
    (hout : s.v * cos s.gamma * ((V.EOM s 0 delta).gamma - V.a_nbar s.r s.theta s.phi s.v delta / s.v) < 0) :
    ¬ ∃ (y : ℝ → FState) (b : ℝ) (S : Finset ℝ), t₀ < b ∧ y t₀ = s ∧ SwitchedFlight (fun t x => V.EOM x t delta) y t₀ b S := by
  rintro ⟨y, b, S, hb, h0, hy⟩
  subst hV
  have hR : 0 < P.RP := (C01_planet_consistent name P hP).2.1
  obtain ⟨T, B, c, h, hg⟩ := two_sided hF hP hatm m beta LD A alpha RN u f st hf hs
  set V := Vehicle.mk' m beta LD A alpha RN P atm u f st with hV
  rw [← hg, ← climb_level _ _ hs.level] at hout
  rw [edge_same h hs, ← climb_level _ _ hs.level] at hin
  have hS : ∀ᶠ t in nhdsWithin t₀ (Set.Ioi t₀), t ∉ S := by
    have : ((S : Set ℝ) \ {t₀})ᶜ ∈ nhds t₀ := (S.finite_toSet.subset Set.sdiff_subset).isClosed.isOpen_compl.mem_nhds (by simp)
    filter_upwards [nhdsWithin_le_nhds this, self_mem_nhdsWithin] with t ht hgt hmem
    exact ht ⟨hmem, ne_of_gt hgt⟩
  have hcut := (altitude_ahead hy hb P.RP).eventually (lt_mem_nhds (show c < (y t₀).r * P.RP - P.RP by
    rw [h0, hs.edge]; exact h.cut))
  obtain ⟨w, hw, hall⟩ := (mem_nhdsGT_iff_exists_Ioc_subset).mp ((hS.and hcut).and
    (((acc_tendsto (h.smoothT delta) hb hy h0).eventually (gt_mem_nhds hout)).and
      (((acc_tendsto (h.smoothB delta) hb hy h0).eventually (lt_mem_nhds hin)).and (eventually_le hb))))
  have hwb : w ≤ b := (hall ⟨hw, le_rfl⟩).2.2.2
  have hw' : t₀ < w := hw
  have hsol : ∀ t ∈ Set.Ioo t₀ w, SolvesAt (fun x => V.EOM x t delta) y t := fun t ht =>
    hy.solves t ⟨ht.1, ht.2.trans_le hwb⟩ (hall ⟨ht.1, ht.2.le⟩).1.1
  set g : ℝ → ℝ := fun t => (y t).v * sin (y t).gamma with hgdef
  have hg0 : g t₀ = 0 := by simp only [hgdef]; rw [h0, hs.level, mul_zero]
  have cg : ContinuousOn g (Set.Icc t₀ w) := (climb_continuousOn hy).mono (Set.Icc_subset_Icc_right hwb)
  have cr : ContinuousOn (fun t => (y t).r) (Set.Icc t₀ w) := hy.r.mono (Set.Icc_subset_Icc_right hwb)
  have dr : ∀ t ∈ Set.Ioo t₀ w, HasDerivAt (fun t => (y t).r) (g t) t := fun t ht => (hsol t ht).r
  have dup : ∀ t ∈ Set.Ioo t₀ w, s.r < (y t).r → ∃ k < 0, HasDerivAt g k t := by
    intro t ht hlt
    refine ⟨_, ?_, climb_hasDeriv (hsol t ht)⟩
    rw [h.above _ _ _ ((alt_of_r hR hs.edge _).1 hlt)]
    exact (hall ⟨ht.1, ht.2.le⟩).2.1
  have ddn : ∀ t ∈ Set.Ioo t₀ w, (y t).r ≤ s.r → ∃ k > 0, HasDerivAt g k t := by
    intro t ht hle
    refine ⟨_, ?_, climb_hasDeriv (hsol t ht)⟩
    change 0 < climbAcc (V.EOM (y t) t delta) (y t)
    have : (y t).r * P.RP - P.RP ≤ P.hThres := by
      have := mul_le_mul_of_nonneg_right hle hR.le
      linarith [hs.edge]
    rw [h.below _ _ _ (hall ⟨ht.1, ht.2.le⟩).1.2.le this]
    exact (hall ⟨ht.1, ht.2.le⟩).2.2.1
  -- the flight is never above the edge
  have claim1 : ∀ t ∈ Set.Ioo t₀ w, (y t).r ≤ s.r := by
    intro t₁ ht₁
    by_contra hn
    have hn' : s.r < (y t₁).r := not_le.mp hn
    obtain ⟨τ, hτ, e, hafter⟩ := last_below ht₁.1.le (cr.mono (Set.Icc_subset_Icc_right ht₁.2.le)) (by rw [h0]) hn'
    have hsub : Set.Icc τ t₁ ⊆ Set.Icc t₀ w := Set.Icc_subset_Icc hτ.1 ht₁.2.le
    have hin' : ∀ t ∈ Set.Ioo τ t₁, t ∈ Set.Ioo t₀ w := fun t ht => ⟨hτ.1.trans_lt ht.1, ht.2.trans ht₁.2⟩
    have hga := strictAntiOn_off g ∅ τ t₁ (cg.mono hsub) fun t ht _ => by
      obtain ⟨k, hk, hd⟩ := dup t (hin' t ht) (hafter t ⟨ht.1, ht.2.le⟩)
      exact ⟨k, hk, hd⟩
    rcases le_or_gt (g τ) 0 with hle | hgt
    · have hra := strictAntiOn_off (fun t => (y t).r) ∅ τ t₁ (cr.mono hsub) fun t ht _ =>
        ⟨_, lt_of_lt_of_le (hga ⟨le_rfl, hτ.2.le⟩ ⟨ht.1.le, ht.2.le⟩ ht.1) hle, dr t (hin' t ht)⟩
      have := hra ⟨le_rfl, hτ.2.le⟩ ⟨hτ.2.le, le_rfl⟩ hτ.2
      simp only at this
      linarith
    · have hτ0 : t₀ < τ := lt_of_le_of_ne hτ.1 fun h => by rw [← h, hg0] at hgt; exact lt_irrefl _ hgt
      obtain ⟨k, hk, hd⟩ := ddn τ ⟨hτ0, hτ.2.trans ht₁.2⟩ e.le
      obtain ⟨t, h1, h2⟩ := ((passes hd hk).2.and (Ioc_mem_nhdsGT hτ.2)).exists
      have := hga ⟨le_rfl, hτ.2.le⟩ ⟨h2.1.le, h2.2⟩ h2.1
      linarith
  -- nor below it
  have claim2 : ∀ t ∈ Set.Ioo t₀ w, (y t).r = s.r := by
    intro t₁ ht₁
    refine le_antisymm (claim1 t₁ ht₁) ?_
    by_contra hn
    have hn' : (y t₁).r < s.r := not_le.mp hn
    obtain ⟨τ, hτ, e, hafter⟩ := last_below (g := fun t => -(y t).r) (k := -s.r) ht₁.1.le
      ((cr.mono (Set.Icc_subset_Icc_right ht₁.2.le)).neg) (by rw [h0]) (by linarith)
    have e' : (y τ).r = s.r := neg_injective e
    have hsub : Set.Icc τ t₁ ⊆ Set.Icc t₀ w := Set.Icc_subset_Icc hτ.1 ht₁.2.le
    have hin' : ∀ t ∈ Set.Ioo τ t₁, t ∈ Set.Ioo t₀ w := fun t ht => ⟨hτ.1.trans_lt ht.1, ht.2.trans ht₁.2⟩
    have hga := strictAntiOn_off (fun t => -g t) ∅ τ t₁ ((cg.mono hsub).neg) fun t ht _ => by
      obtain ⟨k, hk, hd⟩ := ddn t (hin' t ht) (claim1 t (hin' t ht))
      exact ⟨-k, by linarith, hd.fun_neg⟩
    rcases le_or_gt 0 (g τ) with hle | hgt
    · have hra := strictAntiOn_off (fun t => -(y t).r) ∅ τ t₁ ((cr.mono hsub).neg) fun t ht _ => by
        refine ⟨_, ?_, (dr t (hin' t ht)).fun_neg⟩
        have := hga ⟨le_rfl, hτ.2.le⟩ ⟨ht.1.le, ht.2.le⟩ ht.1
        simp only [neg_lt_neg_iff] at this
        linarith
      have := hra ⟨le_rfl, hτ.2.le⟩ ⟨hτ.2.le, le_rfl⟩ hτ.2
      simp only [neg_lt_neg_iff] at this
      linarith
    · have hτ0 : t₀ < τ := lt_of_le_of_ne hτ.1 fun h => by rw [← h, hg0] at hgt; exact lt_irrefl _ hgt
      obtain ⟨t, h1, h2⟩ := ((passes (dr τ ⟨hτ0, hτ.2.trans ht₁.2⟩).fun_neg (by linarith)).1.and (Ico_mem_nhdsLT hτ0)).exists
      rcases h2.1.eq_or_lt with h3 | h3
      · rw [← h3, h0] at h1; linarith
      · have := claim1 t ⟨h3, h2.2.trans (hτ.2.trans ht₁.2)⟩
        linarith
  -- so it stays at the edge, but is accelerated upwards there
  have hmid : (t₀ + w) / 2 ∈ Set.Ioo t₀ w := ⟨by linarith, by linarith⟩
  have hzero : ∀ t ∈ Set.Ioo t₀ w, g t = 0 := by
    intro t ht
    have hc : HasDerivAt (fun t => (y t).r) 0 t := (hasDerivAt_const t s.r).congr_of_eventuallyEq (by
      filter_upwards [Ioo_mem_nhds ht.1 ht.2] with z hz using claim2 z hz)
    exact (dr t ht).unique hc
  obtain ⟨k, hk, hd⟩ := ddn _ hmid (claim2 _ hmid).le
  have hc : HasDerivAt g 0 ((t₀ + w) / 2) := (hasDerivAt_const _ (0:ℝ)).congr_of_eventuallyEq (by
    filter_upwards [Ioo_mem_nhds hmid.1 hmid.2] with z hz using hzero z hz)
  exact absurd (hd.unique hc) hk.ne'

/-! ### Cases -/

/-- A vehicle at the edge of the atmosphere of Mars, flying eastwards above the equator. -/
def edgeState (P : Planet) (v : ℝ) : FState := ⟨1 + P.hThres / P.RP, 0, 0, v, 0, 0, 0⟩

/-- Gravity at the edge above the equator. -/
def edgeGravity (P : Planet) : ℝ := 1 / (1 + P.hThres / P.RP) ^ 2 + 1.5 * P.J2 / (1 + P.hThres / P.RP) ^ 4

theorem edge_grazing {P : Planet} (hP : Planet.init "MARS" = .ok P) {v : ℝ} (hv : v ≠ 0) : Grazing P (edgeState P v) :=
  ⟨hv, by simp [edgeState], by simp [edgeState], (mars_entry hP).2⟩

theorem edge_out {P : Planet} (hr' : 1 + P.hThres / P.RP ≠ 0) (LD : ℝ) (atm : Atmosphere) (st : InitState) (delta : ℝ) {v : ℝ} (hv : v ≠ 0) :
    let V := Vehicle.mk' 1000 100 LD 10 0 1 P atm true demoCurve st
    let s := edgeState P v
    s.v * cos s.gamma * ((V.EOM s 0 delta).gamma - V.a_nbar s.r s.theta s.phi s.v delta / s.v) =
      (v + P.OMEGAbar * s.r) ^ 2 / s.r - edgeGravity P := by
  intro V s
  change v * cos 0 * ((V.a_nbar (1 + P.hThres / P.RP) 0 0 v delta + V.gnbar (1 + P.hThres / P.RP) 0 0 0) / v +
    v / (1 + P.hThres / P.RP) * cos 0 + V.cfgammabar (1 + P.hThres / P.RP) 0 v 0 0 + V.cogammabar (1 + P.hThres / P.RP) 0 v 0 0
      - V.a_nbar (1 + P.hThres / P.RP) 0 0 v delta / v) =
    (v + P.OMEGAbar * (1 + P.hThres / P.RP)) ^ 2 / (1 + P.hThres / P.RP) - edgeGravity P
  unfold edgeGravity
  generalize V.a_nbar (1 + P.hThres / P.RP) 0 0 v delta = L
  have hg : V.gnbar (1 + P.hThres / P.RP) 0 0 0 = -(1 / (1 + P.hThres / P.RP) ^ 2 + 1.5 * P.J2 / (1 + P.hThres / P.RP) ^ 4) := by
    change cos 0 * (-1.0 / (1 + P.hThres / P.RP) ^ 2 + (1.5 * P.J2 / (1 + P.hThres / P.RP) ^ 4) * (3.0 * sin 0 * sin 0 - 1.0) +
      (2.0 * P.J3 / (1 + P.hThres / P.RP) ^ 5) * (5.0 * sin 0 ^ 3 - 3.0 * sin 0)) + -1.0 * sin 0 * cos 0 * 0.0 +
      -1.0 * sin 0 * sin 0 * V.gphibar (1 + P.hThres / P.RP) 0 = _
    rw [sin_zero, cos_zero]
    norm_num
    ring
  have hc : V.cfgammabar (1 + P.hThres / P.RP) 0 v 0 0 = P.OMEGAbar ^ 2 * (1 + P.hThres / P.RP) / v := by
    change (P.OMEGAbar ^ 2 * (1 + P.hThres / P.RP) / v) * cos 0 * (cos 0 * cos 0 + sin 0 * sin 0 * sin 0) = _
    rw [sin_zero, cos_zero]
    ring
  have ho : V.cogammabar (1 + P.hThres / P.RP) 0 v 0 0 = 2 * P.OMEGAbar := by
    change 2.0 * P.OMEGAbar * cos 0 * cos 0 = _
    rw [cos_zero]
    norm_num
  rw [hg, hc, ho, cos_zero]
  generalize 1 / (1 + P.hThres / P.RP) ^ 2 + 1.5 * P.J2 / (1 + P.hThres / P.RP) ^ 4 = G
  generalize 1 + P.hThres / P.RP = r at hr'
  field_simp
  ring

/-- The lift at the edge grows with the square of the speed. -/
theorem edge_lift {P : Planet} (hP : Planet.init "MARS" = .ok P) {atm : Atmosphere}
    (hatm : LoadedCubic P mars.km (fileRows mars) atm) (st : InitState) : ∃ K : ℝ, 0 < K ∧ ∀ v delta : ℝ,
    (Vehicle.mk' 1000 100 0.2 10 0 1 P atm true demoCurve st).a_nbar (1 + P.hThres / P.RP) 0 0 v delta =
      K * v ^ 2 * cos delta := by
  have hF : ("MARS", mars) ∈ shippedFiles := by simp [shippedFiles]
  obtain ⟨_, hR, _, hρ0, _⟩ := C01_planet_consistent "MARS" P hP
  set V := Vehicle.mk' 1000 100 0.2 10 0 1 P atm true demoCurve st with hV
  have hd := (C85_density_positive "MARS" mars hF P hP atm hatm ((1 + P.hThres / P.RP) * P.RP - P.RP)).mpr (mars_entry hP).2.le
  have h1 : 0 < P.rhobar atm (1 + P.hThres / P.RP) 0 0 := div_pos hd hρ0
  have h2 : 0 < V.Abar := div_pos (by norm_num) (div_pos (by norm_num) (mul_pos hρ0 hR))
  have h3 : 0 < V.CL := mul_pos (by norm_num : (0:ℝ) < 0.2) (div_pos (by norm_num) (by norm_num))
  have h4 : 0 < V.mbar := by
    change (0:ℝ) < 1000 / 1000
    norm_num
  have h5 : (0:ℝ) < 0.5 := by norm_num
  refine ⟨0.5 * P.rhobar atm (1 + P.hThres / P.RP) 0 0 * V.Abar * V.CL / V.mbar, by positivity, fun v delta => ?_⟩
  change (0.5 * P.rhobar atm (1 + P.hThres / P.RP) 0 0 * v ^ 2 * V.Abar * V.CL + 0.0 * sin V.alpha) * cos delta / V.mbar = _
  have e : (0.0 : ℝ) = 0 := by norm_num
  rw [e, zero_mul, add_zero]
  generalize (0.5 : ℝ) = c
  ring

/-- The speed at which gravity and the curvature of the level path balance. -/
theorem edge_balance {P : Planet} (hP : Planet.init "MARS" = .ok P) : 0 < 1 + P.hThres / P.RP ∧ 0 < edgeGravity P ∧
    ∃ v₀ : ℝ, 0 < v₀ ∧ v₀ < 2 ∧ ∀ v, 0 < v →
      ((v + P.OMEGAbar * (1 + P.hThres / P.RP)) ^ 2 / (1 + P.hThres / P.RP) - edgeGravity P < 0 ↔ v < v₀) ∧
      (0 < (v + P.OMEGAbar * (1 + P.hThres / P.RP)) ^ 2 / (1 + P.hThres / P.RP) - edgeGravity P ↔ v₀ < v) := by
  obtain ⟨_, hR, _, _, _, _, _, _, hV, htau, hVR, htV, hOm, _⟩ := C01_planet_consistent "MARS" P hP
  have hRv : P.RP = 3389500 := by simp [Planet.init] at hP; subst hP; norm_num [Planet.withScales]
  have hGM : P.GM = 42828370000000 := by simp [Planet.init] at hP; subst hP; norm_num [Planet.withScales]
  have hTh : P.hThres = 120000 := by simp [Planet.init] at hP; subst hP; norm_num [Planet.withScales]
  have hO : P.OMEGA = 7.088253e-5 := by simp [Planet.init] at hP; subst hP; norm_num [Planet.withScales]
  have hV1 : 3000 ≤ P.Vref := by
    rw [hRv, hGM] at hVR
    by_contra hn
    have := pow_lt_pow_left₀ (not_le.mp hn) hV.le (two_ne_zero)
    norm_num at this
    linarith
  have hJ : P.J2 = 1960.45e-6 := by simp [Planet.init] at hP; subst hP; rfl
  have hJ0 : 0 ≤ P.J2 := by rw [hJ]; norm_num
  have hJ1 : P.J2 ≤ 1 / 100 := by rw [hJ]; norm_num
  have ht1 : P.tau ≤ 1200 := by
    rw [hRv] at htV
    by_contra hn
    have := mul_lt_mul (not_le.mp hn) hV1 (by norm_num) htau.le
    linarith
  have hO0 : 0 < P.OMEGAbar := by
    rw [hOm, hO]
    positivity
  have hO1 : P.OMEGAbar ≤ 1 / 10 := by
    rw [hOm, hO]
    norm_num
    linarith
  have hr1 : (1:ℝ) ≤ 1 + P.hThres / P.RP := by
    rw [hTh]
    have : 0 < 120000 / P.RP := by positivity
    linarith
  have hr2 : 1 + P.hThres / P.RP ≤ 26 / 25 := by
    rw [hTh, hRv]; norm_num
  unfold edgeGravity
  have e15 : (1.5 : ℝ) = 3 / 2 := by norm_num
  rw [e15]
  generalize 1 + P.hThres / P.RP = r at hr1 hr2
  have hr0 : 0 < r := by linarith
  have hG1 : 4 / 5 ≤ 1 / r ^ 2 + 3 / 2 * P.J2 / r ^ 4 := by
    have h1 : 4 / 5 ≤ 1 / r ^ 2 := by
      rw [le_div_iff₀ (by positivity)]
      nlinarith
    have h2 : 0 ≤ 3 / 2 * P.J2 / r ^ 4 := by positivity
    linarith
  have hG2 : 1 / r ^ 2 + 3 / 2 * P.J2 / r ^ 4 ≤ 2 := by
    have h1 : 1 / r ^ 2 ≤ 1 := by
      rw [div_le_one (by positivity)]
      exact one_le_pow₀ hr1
    have h2 : 3 / 2 * P.J2 / r ^ 4 ≤ 1 := by
      rw [div_le_one (by positivity)]
      have := one_le_pow₀ hr1 (n := 4)
      linarith
    linarith
  generalize 1 / r ^ 2 + 3 / 2 * P.J2 / r ^ 4 = G at hG1 hG2
  generalize P.OMEGAbar = w at hO0 hO1
  have hGr : 0 ≤ G * r := by positivity
  have hs := sq_sqrt hGr
  have hs0 := sqrt_nonneg (G * r)
  have hwr : 0 < w * r := by positivity
  have hw1 : w * r ≤ 1 / 2 := by nlinarith
  refine ⟨hr0, by linarith, sqrt (G * r) - w * r, ?_, ?_, fun v hv => ⟨?_, ?_⟩⟩
  · have : (1 / 2 : ℝ) < sqrt (G * r) := lt_sqrt_of_sq_lt (by nlinarith)
    linarith
  · have : sqrt (G * r) < 2 := (sqrt_lt' two_pos).mpr (by nlinarith)
    linarith
  · rw [sub_neg, div_lt_iff₀ hr0, ← lt_sqrt (by positivity)]
    constructor <;> intro h <;> linarith
  · rw [sub_pos, lt_div_iff₀ hr0, ← sqrt_lt' (by positivity)]
    constructor <;> intro h <;> linarith

/-- Recorded start of the cases; flights take their start from elsewhere. -/
def edgeRecord : InitState := ⟨120, 0, 0, 4, 0, 0, 0, 0⟩

/-- Cases for `C88_grazing_one_flight`, `C88_grazing_two_flights` and `C88_grazing_no_flight`: a lifting vehicle flying
level at the edge of the atmosphere of Mars.  At twice the reference speed it climbs away on its only flight.  With the lift
down there is a speed at which it may either leave or enter the atmosphere; with the lift up there is a speed at which it has
no flight at all. -/
theorem C88_grazing_cases : ∃ (P : Planet) (atm : Atmosphere), Planet.init "MARS" = .ok P ∧
    LoadedCubic P mars.km (fileRows mars) atm ∧
    let V := Vehicle.mk' 1000 100 0.2 10 0 1 P atm true demoCurve edgeRecord
    (∃ (y : ℝ → FState) (b : ℝ), 0 < b ∧ y 0 = edgeState P 2 ∧ SwitchedFlight (fun t x => V.EOM x t 0) y 0 b ∅ ∧
      ∀ᶠ t in nhdsWithin 0 (Set.Ioi 0), P.hThres < (y t).r * P.RP - P.RP) ∧
    (∃ v, 0 < v ∧ ∃ (y y' : ℝ → FState) (b : ℝ), 0 < b ∧ y 0 = edgeState P v ∧ y' 0 = edgeState P v ∧
      SwitchedFlight (fun t x => V.EOM x t π) y 0 b ∅ ∧ SwitchedFlight (fun t x => V.EOM x t π) y' 0 b ∅ ∧
      ∀ t ∈ Set.Ioc 0 b, P.hThres < (y t).r * P.RP - P.RP ∧ (y' t).r * P.RP - P.RP < P.hThres) ∧
    ∃ v, 0 < v ∧ ¬ ∃ (y : ℝ → FState) (b : ℝ) (S : Finset ℝ), 0 < b ∧ y 0 = edgeState P v ∧
      SwitchedFlight (fun t x => V.EOM x t 0) y 0 b S := by
  obtain ⟨P, hP⟩ := (C01_planet_names "MARS").1.mpr (by simp [Spec.bodies])
  have hF : ("MARS", mars) ∈ shippedFiles := by simp [shippedFiles]
  obtain ⟨atm, hatm⟩ := (C85_loads "MARS" mars hF P hP).1
  refine ⟨P, atm, hP, hatm, ?_⟩
  intro V
  obtain ⟨K, hK, hl⟩ := edge_lift hP hatm edgeRecord
  obtain ⟨hr, hG, v₀, h0, h2, hb⟩ := edge_balance hP
  have hout := fun (delta v : ℝ) (hv : v ≠ 0) => edge_out hr.ne' 0.2 atm edgeRecord delta hv
  have hin : ∀ delta v : ℝ, v ≠ 0 → (edgeState P v).v * cos (edgeState P v).gamma * (V.EOM (edgeState P v) 0 delta).gamma =
      (v + P.OMEGAbar * (1 + P.hThres / P.RP)) ^ 2 / (1 + P.hThres / P.RP) - edgeGravity P + K * v ^ 2 * cos delta := by
    intro delta v hv
    have h := hout delta v hv
    simp only at h
    change v * cos 0 * (_ - V.a_nbar (1 + P.hThres / P.RP) 0 0 v delta / v) =
      (v + P.OMEGAbar * (1 + P.hThres / P.RP)) ^ 2 / (1 + P.hThres / P.RP) - edgeGravity P at h
    rw [← h, ← hl]
    change v * cos 0 * _ = v * cos 0 * (_ - V.a_nbar (1 + P.hThres / P.RP) 0 0 v delta / v) +
      V.a_nbar (1 + P.hThres / P.RP) 0 0 v delta
    rw [cos_zero]
    field_simp
    ring
  set F := fun v : ℝ => (v + P.OMEGAbar * (1 + P.hThres / P.RP)) ^ 2 / (1 + P.hThres / P.RP) - edgeGravity P with hFd
  have hF0 : F v₀ = 0 := by
    obtain ⟨a1, a2⟩ := hb v₀ h0
    have b1 : ¬ F v₀ < 0 := fun h => lt_irrefl _ (a1.mp h)
    have b2 : ¬ 0 < F v₀ := fun h => lt_irrefl _ (a2.mp h)
    exact le_antisymm (not_lt.mp b2) (not_lt.mp b1)
  have hFc : Continuous F := by
    rw [hFd]; fun_prop
  refine ⟨?_, ?_, ?_⟩
  · obtain ⟨⟨y, b, hb', h0', hy⟩, hside, -⟩ := C88_grazing_one_flight "MARS" mars hF P hP atm hatm 1000 100 0.2 10 0 1 true
      demoCurve edgeRecord (fun _ => demoCurve_smooth) 0 0 (edgeState P 2) (edge_grazing hP two_ne_zero) V rfl true
      (by
        rw [if_pos rfl, hin 0 2 two_ne_zero, cos_zero]
        have := (hb 2 two_pos).2.mpr h2
        have : 0 < K * 2 ^ 2 * 1 := by positivity
        linarith)
      (by
        rw [if_pos rfl, hout 0 2 two_ne_zero]
        exact (hb 2 two_pos).2.mpr h2)
    exact ⟨y, b, hb', h0', hy, by simpa using hside y b ∅ hb' h0' hy⟩
  · have hc : ContinuousAt (fun v => F v + K * v ^ 2 * cos π) v₀ := (hFc.add (by fun_prop)).continuousAt
    have hneg : F v₀ + K * v₀ ^ 2 * cos π < 0 := by
      rw [hF0, cos_pi]
      have : 0 < K * v₀ ^ 2 := by positivity
      linarith
    obtain ⟨v, hv1, hv2⟩ := (((hc.eventually (gt_mem_nhds hneg)).filter_mono nhdsWithin_le_nhds).and
      (eventually_mem_nhdsWithin (s := Set.Ioi v₀))).exists
    have hvp : 0 < v := h0.trans hv2
    refine ⟨v, hvp, C88_grazing_two_flights "MARS" mars hF P hP atm hatm 1000 100 0.2 10 0 1 true demoCurve edgeRecord
      (fun _ => demoCurve_smooth) π 0 (edgeState P v) (edge_grazing hP hvp.ne') V rfl ?_ ?_⟩
    · rw [hin π v hvp.ne']
      exact hv1
    · rw [hout π v hvp.ne']
      exact (hb v hvp).2.mpr hv2
  · have hc : ContinuousAt (fun v => F v + K * v ^ 2 * cos 0) v₀ := (hFc.add (by fun_prop)).continuousAt
    have hpos : 0 < F v₀ + K * v₀ ^ 2 * cos 0 := by
      rw [hF0, cos_zero]
      have : 0 < K * v₀ ^ 2 := by positivity
      linarith
    obtain ⟨v, ⟨hv1, hvp⟩, hv2⟩ := ((((hc.eventually (lt_mem_nhds hpos)).and (lt_mem_nhds h0)).filter_mono
      nhdsWithin_le_nhds).and (eventually_mem_nhdsWithin (s := Set.Iio v₀))).exists
    refine ⟨v, hvp, C88_grazing_no_flight "MARS" mars hF P hP atm hatm 1000 100 0.2 10 0 1 true demoCurve edgeRecord
      (fun _ => demoCurve_smooth) 0 0 (edgeState P v) (edge_grazing hP hvp.ne') V rfl ?_ ?_⟩
    · rw [hin 0 v hvp.ne']
      exact hv1
    · rw [hout 0 v hvp.ne']
      exact (hb v hvp).1.mpr hv2

end AMAT.Props
