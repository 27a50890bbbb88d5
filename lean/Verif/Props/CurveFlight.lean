import Verif.Props.SoundSpeed
import Verif.Props.SwitchedFlight

/-
Property C88 for vehicles with a drag curve, in the shipped atmospheres; and cases for the theorems about flights with
bank angle switches.
-/

noncomputable section

open Real

namespace AMAT.Props

open Real AMAT AMAT.Spec AMAT.Data AMAT.Spline AMAT.Lits AMAT.Piecewise

/-- In a shipped atmosphere the drag of a vehicle with a smooth drag curve varies smoothly with the state, at all
altitudes above zero except the edge of the atmosphere. -/
theorem shipped_smoothDrag (name : String) (F : AtmFile) (hF : (name, F) ∈ shippedFiles) (P : Planet)
    (hP : Planet.init name = .ok P) (atm : Atmosphere) (hatm : LoadedCubic P F.km (fileRows F) atm)
    (m beta LD A alpha RN : ℝ) (u : Bool) (f : ℝ → ℝ) (st : InitState) (s : FState)
    (hf : u = true → ContDiffAt ℝ 1 f (s.v * P.Vref / atm.sonicInt (s.r * P.RP - P.RP)))
    (h0 : 0 < s.r * P.RP - P.RP) (h1 : s.r * P.RP - P.RP ≠ P.hThres) :
    (Vehicle.mk' m beta LD A alpha RN P atm u f st).SmoothDrag s := by
  intro hu
  have hu' : u = true := hu
  change ContDiffAt ℝ 1 (fun p : ℝ × ℝ => P.density atm (p.1 * P.RP - P.RP) *
    f (p.2 * P.Vref / atm.sonicInt (p.1 * P.RP - P.RP))) (s.r, s.v)
  have hx : ContDiffAt ℝ 1 (fun p : ℝ × ℝ => p.1 * P.RP - P.RP) (s.r, s.v) := by fun_prop
  rcases lt_or_gt_of_ne h1 with hlt | hgt
  · obtain ⟨r, hr, r', hr', e0, e1⟩ := table_covers hF hP
    have hsm := interp_contDiffAt hatm.2.2.2 (t := s.r * P.RP - P.RP) (List.mem_map.mpr ⟨r, hr, rfl⟩)
      (List.mem_map.mpr ⟨r', hr', rfl⟩) (lt_of_le_of_lt e0 h0) (lt_of_lt_of_le hlt e1)
    have hd := (C88_shipped_density_smooth name F hF P hP atm hatm).1 _ h0.ne' h1
    have hpos := (C99_positive name F hF P hP atm hatm).2.2 (s.r * P.RP - P.RP)
    have a1 : ContDiffAt ℝ 1 (fun p : ℝ × ℝ => P.density atm (p.1 * P.RP - P.RP)) (s.r, s.v) :=
      ContDiffAt.comp (s.r, s.v) (g := P.density atm) hd hx
    have a2 : ContDiffAt ℝ 1 (fun p : ℝ × ℝ => atm.sonicInt (p.1 * P.RP - P.RP)) (s.r, s.v) :=
      ContDiffAt.comp (s.r, s.v) (g := atm.sonicInt) hsm hx
    have a3 : ContDiffAt ℝ 1 (fun p : ℝ × ℝ => p.2 * P.Vref / atm.sonicInt (p.1 * P.RP - P.RP)) (s.r, s.v) :=
      ContDiffAt.div (by fun_prop) a2 hpos.ne'
    exact a1.mul (ContDiffAt.comp (s.r, s.v) (g := f) (hf hu') a3)
  · refine contDiffAt_const (c := (0:ℝ)) |>.congr_of_eventuallyEq ?_
    have : ∀ᶠ p : ℝ × ℝ in nhds (s.r, s.v), P.hThres < p.1 * P.RP - P.RP := hx.continuousAt.eventually (lt_mem_nhds hgt)
    filter_upwards [this] with p hp
    rw [Planet.density, if_neg (fun hc => absurd hc.2 (not_le.mpr hp)), if_pos (show _ > P.hThres from hp), zero_mul]

/-- C88 for every vehicle, also with a drag curve, in the shipped atmospheres: through every state above the reference
altitude and off the edge of the atmosphere, off the poles, with non-zero speed, `cos γ ≠ -0.01` and a Mach number at
which the drag curve is continuously differentiable passes one and locally only one trajectory. -/
theorem C88_drag_curve_local_solution (name : String) (F : AtmFile) (hF : (name, F) ∈ shippedFiles) (P : Planet)
    (hP : Planet.init name = .ok P) (atm : Atmosphere) (hatm : LoadedCubic P F.km (fileRows F) atm)
    (m beta LD A alpha RN : ℝ) (u : Bool) (f : ℝ → ℝ) (st : InitState) (delta : ℝ) (s : FState) (t₀ : ℝ)
    (hf : u = true → ContDiffAt ℝ 1 f (s.v * P.Vref / atm.sonicInt (s.r * P.RP - P.RP)))
    (hr : s.r ≠ 0) (hv : s.v ≠ 0) (hphi : cos s.phi ≠ 0) (hg : cos s.gamma ≠ -0.01)
    (h0 : 0 < s.r * P.RP - P.RP) (h1 : s.r * P.RP - P.RP ≠ P.hThres) :
    (∃ y : ℝ → FState, y t₀ = s ∧ ∃ ε > 0, ∀ t ∈ Set.Ioo (t₀ - ε) (t₀ + ε),
      SolvesAt (fun x => (Vehicle.mk' m beta LD A alpha RN P atm u f st).EOM x t delta) y t) ∧
    ∀ y y' : ℝ → FState, y t₀ = s → y' t₀ = s →
      (∀ᶠ t in nhds t₀, SolvesAt (fun x => (Vehicle.mk' m beta LD A alpha RN P atm u f st).EOM x t delta) y t) →
      (∀ᶠ t in nhds t₀, SolvesAt (fun x => (Vehicle.mk' m beta LD A alpha RN P atm u f st).EOM x t delta) y' t) →
      ∀ᶠ t in nhds t₀, y t = y' t :=
  C88_local_solution (Vehicle.mk' m beta LD A alpha RN P atm u f st) delta s t₀
    (shipped_smoothDrag name F hF P hP atm hatm m beta LD A alpha RN u f st s hf h0 h1) hr hv hphi hg
    ((C88_shipped_density_smooth name F hF P hP atm hatm).1 _ h0.ne' h1)

/-- C88 for flights with bank angle switches in the shipped atmospheres, for every vehicle with a constant drag
coefficient or a continuously differentiable drag curve: two flights that start in the same state agree as long as the
first one stays above the reference altitude, off the edge of the atmosphere, off the poles, moving, and with
`cos γ ≠ -0.01`. -/
theorem C88_shipped_switched_unique (name : String) (F : AtmFile) (hF : (name, F) ∈ shippedFiles) (P : Planet)
    (hP : Planet.init name = .ok P) (atm : Atmosphere) (hatm : LoadedCubic P F.km (fileRows F) atm)
    (m beta LD A alpha RN : ℝ) (u : Bool) (f : ℝ → ℝ) (st : InitState) (hf : u = true → ContDiff ℝ 1 f)
    (delta : ℝ → ℝ) (y y' : ℝ → FState) (a b : ℝ) (S S' : Finset ℝ)
    (hpc : ∀ t ∈ Set.Ico a b, ∃ d, ∀ᶠ s in nhdsWithin t (Set.Ioi t), delta s = d)
    (hy : SwitchedFlight (fun t s => (Vehicle.mk' m beta LD A alpha RN P atm u f st).EOM s t (delta t)) y a b S)
    (hy' : SwitchedFlight (fun t s => (Vehicle.mk' m beta LD A alpha RN P atm u f st).EOM s t (delta t)) y' a b S')
    (h0 : y a = y' a)
    (hr : ∀ t ∈ Set.Ico a b, (y t).r ≠ 0) (hv : ∀ t ∈ Set.Ico a b, (y t).v ≠ 0)
    (hphi : ∀ t ∈ Set.Ico a b, cos (y t).phi ≠ 0) (hg : ∀ t ∈ Set.Ico a b, cos (y t).gamma ≠ -0.01)
    (hin : ∀ t ∈ Set.Ico a b, 0 < (y t).r * P.RP - P.RP ∧ (y t).r * P.RP - P.RP ≠ P.hThres) :
    ∀ t ∈ Set.Icc a b, y t = y' t :=
  C88_switched_unique (Vehicle.mk' m beta LD A alpha RN P atm u f st) delta y y' a b S S' hpc hy hy' h0
    (fun t ht => shipped_smoothDrag name F hF P hP atm hatm m beta LD A alpha RN u f st (y t)
      (fun hu => (hf hu).contDiffAt) (hin t ht).1 (hin t ht).2) hr hv hphi hg
    (fun t ht => (C88_shipped_density_smooth name F hF P hP atm hatm).1 _ (hin t ht).1.ne' (hin t ht).2)

/-! ### Cases -/

/-- A state in a layer of altitudes, moving, off the poles and not flying vertically. -/
structure Regular (P : Planet) (lo hi : ℝ) (s : FState) : Prop where
  r : 0 < s.r
  v : 0 < s.v
  low : lo < s.r * P.RP - P.RP
  high : s.r * P.RP - P.RP < hi
  phi : 0 < cos s.phi
  gamma : 0 < cos s.gamma

/-- From every regular state a flight goes on through regular states for some time, for a layer inside or above the
atmosphere. -/
theorem shipped_continuation {name : String} {F : AtmFile} (hF : (name, F) ∈ shippedFiles) {P : Planet}
    (hP : Planet.init name = .ok P) {atm : Atmosphere} (hatm : LoadedCubic P F.km (fileRows F) atm)
    (m beta LD A alpha RN : ℝ) (u : Bool) (f : ℝ → ℝ) (st : InitState) (hf : u = true → ContDiff ℝ 1 f)
    (delta : ℝ) (τ : ℝ) {lo hi : ℝ} (hlo : 0 ≤ lo) (hhi : hi ≤ P.hThres ∨ P.hThres ≤ lo) {s : FState}
    (hs : Regular P lo hi s) :
    ∃ (y : ℝ → FState) (ε : ℝ), 0 < ε ∧ y τ = s ∧ ∀ t ∈ Set.Icc (τ - ε) (τ + ε),
      SolvesAt (fun x => (Vehicle.mk' m beta LD A alpha RN P atm u f st).EOM x t delta) y t ∧ Regular P lo hi (y t) := by
  obtain ⟨⟨y, h0, ε, hε, hy⟩, -⟩ := C88_drag_curve_local_solution name F hF P hP atm hatm m beta LD A alpha RN u f st
    delta s τ (fun hu => (hf hu).contDiffAt) hs.r.ne' hs.v.ne' hs.phi.ne'
    (fun h => by have := hs.gamma; rw [h] at this; norm_num at this) (hlo.trans_lt hs.low)
    (by rcases hhi with h | h; exacts [(hs.high.trans_le h).ne, (h.trans_lt hs.low).ne'])
  have hS := hy τ ⟨by linarith, by linarith⟩
  have cr := hS.r.continuousAt
  have cv := hS.v.continuousAt
  have ca : ContinuousAt (fun t => (y t).r * P.RP - P.RP) τ := (cr.mul continuousAt_const).sub continuousAt_const
  have cp : ContinuousAt (fun t => cos (y t).phi) τ := continuous_cos.continuousAt.comp hS.phi.continuousAt
  have cg : ContinuousAt (fun t => cos (y t).gamma) τ := continuous_cos.continuousAt.comp hS.gamma.continuousAt
  have hev : ∀ᶠ t in nhds τ, t ∈ Set.Ioo (τ - ε) (τ + ε) ∧ Regular P lo hi (y t) := by
    filter_upwards [Ioo_mem_nhds (show τ - ε < τ by linarith) (show τ < τ + ε by linarith),
      cr.eventually (lt_mem_nhds (show 0 < (y τ).r by rw [h0]; exact hs.r)),
      cv.eventually (lt_mem_nhds (show 0 < (y τ).v by rw [h0]; exact hs.v)),
      ca.eventually (lt_mem_nhds (show lo < (y τ).r * P.RP - P.RP by rw [h0]; exact hs.low)),
      ca.eventually (gt_mem_nhds (show (y τ).r * P.RP - P.RP < hi by rw [h0]; exact hs.high)),
      cp.eventually (lt_mem_nhds (show 0 < cos (y τ).phi by rw [h0]; exact hs.phi)),
      cg.eventually (lt_mem_nhds (show 0 < cos (y τ).gamma by rw [h0]; exact hs.gamma))] with t a1 a2 a3 a4 a5 a6 a7
    exact ⟨a1, a2, a3, a4, a5, a6, a7⟩
  obtain ⟨η, hη, h2⟩ := Metric.eventually_nhds_iff.mp hev
  refine ⟨y, η / 2, by linarith, h0, fun t ht => ?_⟩
  have h3 := h2 (y := t) (by rw [Real.dist_eq, abs_lt]; constructor <;> linarith [ht.1, ht.2])
  exact ⟨hy t h3.1, h3.2⟩

/-- From every regular state there is a flight with a bank angle switch from `d₁` to `d₂`. -/
theorem shipped_switched_flight {name : String} {F : AtmFile} (hF : (name, F) ∈ shippedFiles) {P : Planet}
    (hP : Planet.init name = .ok P) {atm : Atmosphere} (hatm : LoadedCubic P F.km (fileRows F) atm)
    (m beta LD A alpha RN : ℝ) (u : Bool) (f : ℝ → ℝ) (st : InitState) (hf : u = true → ContDiff ℝ 1 f)
    (d₁ d₂ : ℝ) {lo hi : ℝ} (hlo : 0 ≤ lo) (hhi : hi ≤ P.hThres ∨ P.hThres ≤ lo) {s : FState} (hs : Regular P lo hi s) :
    ∃ (y : ℝ → FState) (τ b : ℝ), 0 < τ ∧ τ < b ∧ y 0 = s ∧
      SwitchedFlight (fun t s => (Vehicle.mk' m beta LD A alpha RN P atm u f st).EOM s t
        (if t < τ then d₁ else d₂)) y 0 b {τ} ∧ ∀ t ∈ Set.Icc 0 b, Regular P lo hi (y t) := by
  obtain ⟨y₁, τ, hτ, i1, h1⟩ := shipped_continuation hF hP hatm m beta LD A alpha RN u f st hf d₁ 0 hlo hhi hs
  have hm : τ ∈ Set.Icc (0 - τ) (0 + τ) := ⟨by linarith, by linarith⟩
  obtain ⟨y₂, ε, hε, i2, h2⟩ := shipped_continuation hF hP hatm m beta LD A alpha RN u f st hf d₂ τ hlo hhi
    (h1 τ hm).2
  have hsw := concat_flights (a := 0) (τ := τ) (b := τ + ε) (fun t ht => (h1 t ⟨by linarith [ht.1], by linarith [ht.2]⟩).1)
    (fun t ht => (h2 t ⟨by linarith [ht.1], by linarith [ht.2]⟩).1) i2.symm
  refine ⟨fun t => if t ≤ τ then y₁ t else y₂ t, τ, τ + ε, hτ, by linarith, ?_, ?_, ?_⟩
  rotate_left
  · convert hsw using 3 with t
    split_ifs <;> rfl
  · intro t ht
    by_cases h : t ≤ τ
    · simp only [h, if_true]; exact (h1 t ⟨by linarith [ht.1], by linarith⟩).2
    · simp only [h, if_false]; exact (h2 t ⟨by linarith, by linarith [ht.2]⟩).2
  · simp only [hτ.le, if_true]; exact i1

/-- A vehicle 50 km above the equator of Mars flying east and downwards at the reference speed. -/
theorem mars_regular {P : Planet} (hP : Planet.init "MARS" = .ok P) :
    Regular P 0 P.hThres ⟨1 + 50e3 / P.RP, 0, 0, 1, 0, -0.1, 0⟩ := by
  have hR : 0 < P.RP := (C01_planet_consistent "MARS" P hP).2.1
  have hT : P.hThres = 120e3 := by
    simp [Planet.init] at hP; subst hP; norm_num [Planet.withScales]
  have e : (1 + 50e3 / P.RP) * P.RP - P.RP = 50e3 := by
    have : 50e3 / P.RP * P.RP = 50e3 := div_mul_cancel₀ _ hR.ne'
    rw [add_mul, this, one_mul, add_sub_cancel_left]
  refine ⟨by positivity, by norm_num, by simp only [e]; norm_num, by simp only [e, hT]; norm_num, by simp, ?_⟩
  exact cos_pos_of_mem_Ioo ⟨by linarith [two_le_pi], by linarith [two_le_pi]⟩

theorem step_eventually (d₁ d₂ τ t : ℝ) :
    ∃ d, ∀ᶠ s in nhdsWithin t (Set.Ioi t), (if s < τ then d₁ else d₂) = d := by
  rcases lt_or_ge t τ with h | h
  · refine ⟨d₁, ?_⟩
    filter_upwards [Ioo_mem_nhdsGT h] with s hs
    rw [if_pos hs.2]
  · refine ⟨d₂, ?_⟩
    filter_upwards [self_mem_nhdsWithin] with s hs
    rw [if_neg (not_lt.mpr (h.trans (le_of_lt hs)))]

/-- A smooth drag curve: the drag coefficient rises from 1 at rest to 2 at high Mach numbers. -/
def demoCurve (M : ℝ) : ℝ := 2 - 1 / (1 + M ^ 2)

theorem demoCurve_smooth : ContDiff ℝ 1 demoCurve := by
  unfold demoCurve
  apply ContDiff.sub contDiff_const
  apply ContDiff.div contDiff_const (by fun_prop)
  intro M; positivity

theorem demoCurve_pos (M : ℝ) : 0 < demoCurve M := by
  unfold demoCurve
  have : 1 / (1 + M ^ 2) ≤ 1 := by
    rw [div_le_one (by positivity)]; nlinarith [sq_nonneg M]
  linarith

/-- Case for `C88_drag_curve_local_solution` (through which the flight is obtained), `C87_energy_any_vehicle`,
`C87_switched_strictly_decreases`, `C18_switched_never_increases` and `C88_shipped_switched_unique` (so also for
`C88_switched_unique`): a vehicle with a drag curve 50 km above Mars, whose bank angle jumps from 0 to a quarter turn,
flies on, only in one way, and loses energy all the time. -/
example : ∃ (P : Planet) (atm : Atmosphere) (y : ℝ → FState) (τ b : ℝ), Planet.init "MARS" = .ok P ∧
    LoadedCubic P mars.km (fileRows mars) atm ∧ 0 < τ ∧ τ < b ∧ y 0 = ⟨1 + 50e3 / P.RP, 0, 0, 1, 0, -0.1, 0⟩ ∧
    SwitchedFlight (fun t s => (Vehicle.mk' 1000 100 0.2 10 0 1 P atm true demoCurve ⟨0, 0, 0, 0, 0, 0, 0, 0⟩).EOM s t
      (if t < τ then 0 else π / 2)) y 0 b {τ} ∧
    StrictAntiOn (fun s => jacobi P.J2 P.J3 P.OMEGAbar (y s).r (y s).phi (y s).v) (Set.Icc 0 b) ∧
    AntitoneOn (fun s => jacobi P.J2 P.J3 P.OMEGAbar (y s).r (y s).phi (y s).v) (Set.Icc 0 b) ∧
    ∀ (y' : ℝ → FState) (S' : Finset ℝ), y' 0 = y 0 →
      SwitchedFlight (fun t s => (Vehicle.mk' 1000 100 0.2 10 0 1 P atm true demoCurve ⟨0, 0, 0, 0, 0, 0, 0, 0⟩).EOM s t
        (if t < τ then 0 else π / 2)) y' 0 b S' → ∀ t ∈ Set.Icc 0 b, y t = y' t := by
  obtain ⟨P, hP⟩ := (C01_planet_names "MARS").1.mpr (by simp [Spec.bodies])
  have hF : ("MARS", mars) ∈ shippedFiles := by simp [shippedFiles]
  obtain ⟨atm, hatm⟩ := (C85_loads "MARS" mars hF P hP).1
  obtain ⟨y, τ, b, h0, hτ, i0, hy, hreg⟩ := shipped_switched_flight hF hP hatm 1000 100 0.2 10 0 1 true demoCurve
    ⟨0, 0, 0, 0, 0, 0, 0, 0⟩ (fun _ => demoCurve_smooth) 0 (π / 2) le_rfl (Or.inl le_rfl) (mars_regular hP)
  refine ⟨P, atm, y, τ, b, hP, hatm, h0, hτ, i0, hy, ?_, ?_, ?_⟩
  · exact C87_switched_strictly_decreases "MARS" mars hF P hP atm hatm 1000 100 0.2 10 0 1 true demoCurve _ (by norm_num)
      (by norm_num) (by norm_num) demoCurve_pos _ y 0 b _ hy (fun t ht => (hreg t ht).r.ne') (fun t ht => (hreg t ht).v)
      (fun t ht => (hreg t ht).high.le)
  · refine C18_switched_never_increases "MARS" P hP 1000 100 0.2 10 0 1 atm true demoCurve _ (by norm_num)
      (by norm_num) (by norm_num) (fun M => (demoCurve_pos M).le) _ y 0 b _ ?_ hy (fun t ht => (hreg t ht).r.ne')
      (fun t ht => (hreg t ht).v.le)
    intro z hz0 hz1
    have := (C85_density_positive "MARS" mars hF P hP atm hatm z).mpr hz1
    rw [Planet.density, if_pos ⟨hz0, hz1⟩] at this
    exact this.le
  · intro y' S' e hy'
    exact C88_shipped_switched_unique "MARS" mars hF P hP atm hatm 1000 100 0.2 10 0 1 true demoCurve _
      (fun _ => demoCurve_smooth) _ y y' 0 b _ S' (fun t _ => step_eventually _ _ _ _) hy hy' e.symm
      (fun t ht => (hreg t (Set.Ico_subset_Icc_self ht)).r.ne') (fun t ht => (hreg t (Set.Ico_subset_Icc_self ht)).v.ne')
      (fun t ht => (hreg t (Set.Ico_subset_Icc_self ht)).phi.ne')
      (fun t ht h => by
        have := (hreg t (Set.Ico_subset_Icc_self ht)).gamma
        rw [h] at this; norm_num at this)
      (fun t ht => ⟨(hreg t (Set.Ico_subset_Icc_self ht)).low, (hreg t (Set.Ico_subset_Icc_self ht)).high.ne⟩)

/-- Case for `C61_switched_stays_equatorial`: a lifting vehicle 50 km above the equator of Venus that reverses its lift
from up to down stays above the equator. -/
example : ∃ (P : Planet) (atm : Atmosphere) (y : ℝ → FState) (τ b : ℝ), Planet.init "VENUS" = .ok P ∧ 0 < τ ∧ τ < b ∧
    (y 0).gamma = -0.1 ∧
    SwitchedFlight (fun t s => (Vehicle.mk' 1000 100 0.2 10 0 1 P atm false (fun _ => 0) ⟨0, 0, 0, 0, 0, 0, 0, 0⟩).EOM s t
      (if t < τ then 0 else π)) y 0 b {τ} ∧
    ∀ t ∈ Set.Icc 0 b, (y t).phi = 0 ∧ (y t).psi = 0 := by
  obtain ⟨P, hP⟩ := (C01_planet_names "VENUS").1.mpr (by simp [Spec.bodies])
  have hF : ("VENUS", venus) ∈ shippedFiles := by simp [shippedFiles]
  obtain ⟨atm, hatm⟩ := (C85_loads "VENUS" venus hF P hP).1
  have hJ : P.J3 = 0 := (C61_bodies "VENUS" P hP).mpr (by simp)
  have hs : Regular P 0 P.hThres ⟨1 + 50e3 / P.RP, 0, 0, 1, 0, -0.1, 0⟩ := by
    have hR : 0 < P.RP := (C01_planet_consistent "VENUS" P hP).2.1
    have hT : P.hThres = 180e3 := by
      simp [Planet.init] at hP; subst hP; norm_num [Planet.withScales]
    have e : (1 + 50e3 / P.RP) * P.RP - P.RP = 50e3 := by
      have : 50e3 / P.RP * P.RP = 50e3 := div_mul_cancel₀ _ hR.ne'
      rw [add_mul, this, one_mul, add_sub_cancel_left]
    refine ⟨by positivity, by norm_num, by simp only [e]; norm_num, by simp only [e, hT]; norm_num, by simp, ?_⟩
    exact cos_pos_of_mem_Ioo ⟨by linarith [two_le_pi], by linarith [two_le_pi]⟩
  obtain ⟨y, τ, b, h0, hτ, i0, hy, hreg⟩ := shipped_switched_flight hF hP hatm 1000 100 0.2 10 0 1 false (fun _ => 0)
    ⟨0, 0, 0, 0, 0, 0, 0, 0⟩ (by simp) 0 π le_rfl (Or.inl le_rfl) hs
  refine ⟨P, atm, y, τ, b, hP, h0, hτ, by rw [i0], hy, ?_⟩
  have := C61_switched_stays_equatorial _ hJ (fun t => if t < τ then 0 else π) y 0 b {τ} hy
    (fun t _ => by split_ifs <;> simp) (fun t ht => (hreg t ht).r.ne') (fun t ht => (hreg t ht).v.ne')
    (fun t ht => (hreg t ht).phi.ne') (fun t ht => by have := (hreg t ht).gamma; positivity) (by rw [i0])
    (by rw [i0, sin_zero])
  intro t ht
  refine ⟨(this t ht).1, ?_⟩
  rw [(this t ht).2, i0]

/-- Case for `C97_switched_conserves`: the circular orbit of `C65_orbit_exists`, with the lift reversed after one hour. -/
example : ∃ (P : Planet) (r v : ℝ), Planet.init "URANUS" = .ok P ∧ 0 < r ∧ 0 < v ∧ ∀ t ∈ Set.Icc (0:ℝ) 86400,
    stateMomentum P.OMEGAbar ⟨r, v / r * t, 0, v, 0, 0, v * t⟩ =
      stateMomentum P.OMEGAbar ⟨r, v / r * 0, 0, v, 0, 0, v * 0⟩ := by
  obtain ⟨P, V, r, v, hP, hV, hr, hv, hJ, hvac, hbal, rfl, hth⟩ := C65_orbit_exists
  refine ⟨P, r, v, hP, hr, hv, ?_⟩
  have hs := fun δ => C65_circular_orbit_is_solution _ δ r v hr hv hJ hvac hbal
  refine C97_switched_conserves "URANUS" P hP hJ 300 78 0.35 3.1416 0 1 _ _ _ (by norm_num) (by norm_num) (by norm_num)
    (fun t => if t < 3600 then 0 else π) (fun t => ⟨r, v / r * t, 0, v, 0, 0, v * t⟩) 0 86400 {3600}
    ⟨fun t _ => (hs 0 t).r.continuousAt.continuousWithinAt, fun t _ => (hs 0 t).theta.continuousAt.continuousWithinAt,
      fun t _ => (hs 0 t).phi.continuousAt.continuousWithinAt, fun t _ => (hs 0 t).v.continuousAt.continuousWithinAt,
      fun t _ => (hs 0 t).psi.continuousAt.continuousWithinAt, fun t _ => (hs 0 t).gamma.continuousAt.continuousWithinAt,
      fun t _ => (hs 0 t).drange.continuousAt.continuousWithinAt, fun t _ _ => hs _ t⟩
    (fun t _ => by split_ifs <;> simp) (fun _ _ => hth) (fun _ _ => by simp) (fun _ _ => hv.ne')
    (fun _ _ => by simp; norm_num) rfl (by simp)

/-- Case for `C18_switched_constant`: a vehicle 500 km above Mars, climbing, that changes its bank angle. -/
example : ∃ (P : Planet) (atm : Atmosphere) (y : ℝ → FState) (τ b : ℝ), Planet.init "MARS" = .ok P ∧ 0 < τ ∧ τ < b ∧
    (y 0).gamma = 0.1 ∧
    SwitchedFlight (fun t s => (Vehicle.mk' 1000 100 0.2 10 0 1 P atm false (fun _ => 0) ⟨0, 0, 0, 0, 0, 0, 0, 0⟩).EOM s t
      (if t < τ then 0 else π / 2)) y 0 b {τ} ∧
    ∀ t ∈ Set.Icc 0 b, jacobi P.J2 P.J3 P.OMEGAbar (y t).r (y t).phi (y t).v
      = jacobi P.J2 P.J3 P.OMEGAbar (y 0).r (y 0).phi (y 0).v := by
  obtain ⟨P, hP⟩ := (C01_planet_names "MARS").1.mpr (by simp [Spec.bodies])
  have hF : ("MARS", mars) ∈ shippedFiles := by simp [shippedFiles]
  obtain ⟨atm, hatm⟩ := (C85_loads "MARS" mars hF P hP).1
  have hT : P.hThres = 120e3 := by
    simp [Planet.init] at hP; subst hP; norm_num [Planet.withScales]
  have hs : Regular P P.hThres 1000e3 ⟨1 + 500e3 / P.RP, 0, 0.5, 1, 0.3, 0.1, 0⟩ := by
    have hR : 0 < P.RP := (C01_planet_consistent "MARS" P hP).2.1
    have e : (1 + 500e3 / P.RP) * P.RP - P.RP = 500e3 := by
      have : 500e3 / P.RP * P.RP = 500e3 := div_mul_cancel₀ _ hR.ne'
      rw [add_mul, this, one_mul, add_sub_cancel_left]
    refine ⟨by positivity, by norm_num, by simp only [e, hT]; norm_num, by simp only [e]; norm_num, ?_, ?_⟩
    · exact cos_pos_of_mem_Ioo ⟨by linarith [two_le_pi], by linarith [two_le_pi]⟩
    · exact cos_pos_of_mem_Ioo ⟨by linarith [two_le_pi], by linarith [two_le_pi]⟩
  obtain ⟨y, τ, b, h0, hτ, i0, hy, hreg⟩ := shipped_switched_flight hF hP hatm 1000 100 0.2 10 0 1 false (fun _ => 0)
    ⟨0, 0, 0, 0, 0, 0, 0, 0⟩ (by simp) 0 (π / 2) (by rw [hT]; norm_num) (Or.inr le_rfl) hs
  refine ⟨P, atm, y, τ, b, hP, h0, hτ, by rw [i0], hy, ?_⟩
  exact C18_switched_constant "MARS" P hP 1000 100 0.2 10 0 1 atm false _ _ (by norm_num) _ y 0 b {τ} hy
    (fun t ht => (hreg t ht).low)

end AMAT.Props
