import Mathlib.Tactic.NormNum
import Mathlib.Tactic.Linarith
import Mathlib.Tactic.FieldSimp
import Mathlib.Tactic.Positivity
import Mathlib.Topology.Order.Lattice
import Mathlib.Topology.Algebra.Ring.Real
import Verif.Model.Planet
import Verif.Spec.Bodies
import Verif.Lemmas.Interp
import Verif.Props.Tables

/-
Properties C01 – C04, C07, C08 and C64 of `planet.py`.
-/

noncomputable section

open Classical

namespace AMAT.Props

open AMAT

/-! ### C01 -/

/-- C01: the constructor accepts exactly the documented names; everything else is a `ValueError`. -/
theorem C01_planet_names (s : String) :
    ((∃ P, Planet.init s = .ok P) ↔ s ∈ Spec.bodies) ∧
    (s ∉ Spec.bodies → Planet.init s = .error .valueError) := by
  have key : s ∉ Spec.bodies → Planet.init s = .error .valueError := by
    intro h
    simp only [Spec.bodies, List.mem_cons, List.not_mem_nil, or_false, not_or] at h
    obtain ⟨h1, h2, h3, h4, h5, h6, h7, h8⟩ := h
    simp [Planet.init, h1, h2, h3, h4, h5, h6, h7, h8]
  refine ⟨⟨?_, ?_⟩, key⟩
  · rintro ⟨P, hP⟩
    by_contra h
    rw [key h] at hP
    exact absurd hP (by simp)
  · intro h
    simp only [Spec.bodies, List.mem_cons, List.not_mem_nil, or_false] at h
    rcases h with rfl | rfl | rfl | rfl | rfl | rfl | rfl | rfl <;> simp [Planet.init]

/-- Case analysis principle: a property of every accepted body. -/
theorem init_cases {s : String} {P : Planet} (h : Planet.init s = .ok P) (Q : Planet → Prop)
    (H : ∀ t ∈ Spec.bodies, ∀ P, Planet.init t = .ok P → Q P) : Q P :=
  H s ((C01_planet_names s).1.mp ⟨P, h⟩) P h

/-- C01: every constructed body has positive constants, ordered altitude thresholds, and reference
scales satisfying `Vref²·RP = GM`, `tau·Vref = RP`, `OMEGAbar = OMEGA·tau`. -/
theorem C01_planet_consistent (s : String) (P : Planet) (h : Planet.init s = .ok P) :
    P.ID = s ∧ 0 < P.RP ∧ 0 < P.GM ∧ 0 < P.rho0 ∧ 1 < P.CPCV ∧ 0 < P.hTrap ∧ P.hTrap < P.hSkip ∧
    P.hSkip ≤ P.hThres ∧ 0 < P.Vref ∧ 0 < P.tau ∧
    P.Vref ^ 2 * P.RP = P.GM ∧ P.tau * P.Vref = P.RP ∧ P.OMEGAbar = P.OMEGA * P.tau ∧
    P.EARTHG = 9.80665 := by
  have scales : ∀ (ID : String) (RP OMEGA GM rho0 CPCV J2 J3 a0 d0 hT hS hTr : ℝ) (hL : Option ℝ),
      0 < RP → 0 < GM →
      let P := Planet.withScales ID RP OMEGA GM rho0 CPCV J2 J3 a0 d0 hT hS hTr hL
      0 < P.Vref ∧ 0 < P.tau ∧
      P.Vref ^ 2 * P.RP = P.GM ∧ P.tau * P.Vref = P.RP ∧ P.OMEGAbar = P.OMEGA * P.tau ∧
      P.EARTHG = 9.80665 := by
    intro ID RP OMEGA GM rho0 CPCV J2 J3 a0 d0 hT hS hTr hL hRP hGM
    have hV : 0 < Real.sqrt (GM / RP) := Real.sqrt_pos.mpr (div_pos hGM hRP)
    refine ⟨hV, div_pos hRP hV, ?_, ?_, rfl, rfl⟩
    · simp only [Planet.withScales]
      rw [Real.sq_sqrt (div_pos hGM hRP).le]; field_simp
    · simp only [Planet.withScales]; field_simp
  have hs := (C01_planet_names s).1.mp ⟨P, h⟩
  simp only [Spec.bodies, List.mem_cons, List.not_mem_nil, or_false] at hs
  rcases hs with rfl | rfl | rfl | rfl | rfl | rfl | rfl | rfl <;>
    · simp [Planet.init] at h
      subst h
      refine ⟨rfl, ?_, ?_, ?_, ?_, ?_, ?_, ?_, scales _ _ _ _ _ _ _ _ _ _ _ _ _ _ ?_ ?_⟩ <;>
        norm_num [Planet.withScales]

/-- The hypothesis is met by each of the eight bodies; Mars and Neptune serve as concrete cases below.  Case for
`C01_planet_consistent`, `C02_roundtrip_physical` and `C02_roundtrip_all_bodies`. -/
theorem demo_mars : ∃ P, Planet.init "MARS" = .ok P ∧ P.RP = 3389.5e3 ∧ P.hThres = 120e3 ∧ P.hSkip = 120e3 ∧
    P.hTrap = 10e3 ∧ P.GM = 4.282837e13 ∧ P.rho0 = 0.0200 ∧ 0 < P.Vref ∧ 0 < P.tau := by
  obtain ⟨P, hP⟩ := (C01_planet_names "MARS").1.mpr (by simp [Spec.bodies])
  obtain ⟨_, _, _, _, _, _, _, _, hV, ht, _⟩ := C01_planet_consistent "MARS" P hP
  refine ⟨P, hP, ?_, ?_, ?_, ?_, ?_, ?_, hV, ht⟩ <;> (simp [Planet.init] at hP; subst hP; rfl)

theorem demo_neptune : ∃ P, Planet.init "NEPTUNE" = .ok P ∧ P.RP = 24622e3 ∧ P.hThres = 1000e3 ∧ P.hSkip = 1000e3 ∧
    P.hTrap = 10e3 ∧ P.GM = 6.8365299e15 ∧ P.rho0 = 0.44021 ∧ P.J3 = 0 ∧ 0 < P.Vref ∧ 0 < P.tau := by
  obtain ⟨P, hP⟩ := (C01_planet_names "NEPTUNE").1.mpr (by simp [Spec.bodies])
  obtain ⟨_, _, _, _, _, _, _, _, hV, ht, _⟩ := C01_planet_consistent "NEPTUNE" P hP
  refine ⟨P, hP, ?_, ?_, ?_, ?_, ?_, ?_, ?_, hV, ht⟩ <;> (simp [Planet.init] at hP; subst hP; rfl)

/-- C01: the constants are those of the named body, checked against independent reference data:
the surface gravity `GM/RP²` is within 2 % of the published value, and the rotation rate is
negative exactly for the retrograde rotators. -/
theorem C01_planet_reference_data (s : String) (P : Planet) (h : Planet.init s = .ok P) :
    |P.GM / P.RP ^ 2 - Spec.surfaceGravity s| ≤ 0.02 * Spec.surfaceGravity s ∧
    (P.OMEGA < 0 ↔ Spec.retrograde s) ∧ (¬ Spec.retrograde s → 0 < P.OMEGA) := by
  have hs := (C01_planet_names s).1.mp ⟨P, h⟩
  simp only [Spec.bodies, List.mem_cons, List.not_mem_nil, or_false] at hs
  rcases hs with rfl | rfl | rfl | rfl | rfl | rfl | rfl | rfl <;>
    · simp [Planet.init] at h
      subst h
      refine ⟨?_, ?_, ?_⟩
      · rw [abs_le]
        simp only [Spec.surfaceGravity, Planet.withScales, String.reduceEq, if_true, if_false]
        norm_num
      · simp only [Planet.withScales, Spec.retrograde, String.reduceEq, or_false, or_true,
          iff_true, iff_false]
        norm_num
      · simp only [Planet.withScales, Spec.retrograde, String.reduceEq, or_false, or_true]
        norm_num

example : ∃ P, Planet.init "TITAN" = .ok P := (C01_planet_names "TITAN").1.mpr (by simp [Spec.bodies])
example : Planet.init "titan" = .error .valueError :=
  (C01_planet_names "titan").2 (by simp [Spec.bodies])

/-! ### C02 -/

/-- C02: physical → dimensionless → physical is the identity, for every state. -/
theorem C02_roundtrip_physical (P : Planet) (hR : P.RP ≠ 0) (hV : P.Vref ≠ 0) (tbar : ℝ) (s : FState) :
    (P.dimensionalize tbar (P.nonDimState s)).2 = s := by
  ext <;> simp [Planet.dimensionalize, Planet.nonDimState, hR, hV]

/-- C02: dimensionless → physical → dimensionless is the identity, and physical time is `tau` times
dimensionless time. -/
theorem C02_roundtrip_dimensionless (P : Planet) (hR : P.RP ≠ 0) (hV : P.Vref ≠ 0) (tbar : ℝ)
    (s : FState) :
    P.nonDimState (P.dimensionalize tbar s).2 = s ∧ (P.dimensionalize tbar s).1 = P.tau * tbar := by
  refine ⟨?_, rfl⟩
  ext <;> simp [Planet.dimensionalize, Planet.nonDimState, hR, hV]

/-- Both round trips on Mars. -/
example : ∃ P, Planet.init "MARS" = .ok P ∧ ∀ tbar s, (P.dimensionalize tbar (P.nonDimState s)).2 = s ∧
    P.nonDimState (P.dimensionalize tbar s).2 = s := by
  obtain ⟨P, hP, hR, -, -, -, -, -, hV, -⟩ := demo_mars
  have hR' : P.RP ≠ 0 := by rw [hR]; norm_num
  exact ⟨P, hP, fun tbar s => ⟨C02_roundtrip_physical P hR' hV.ne' tbar s,
    (C02_roundtrip_dimensionless P hR' hV.ne' tbar s).1⟩⟩

/-- C02: every constructed body satisfies the non-degeneracy needed by the round trips; hence the
round trips hold for every supported body, and angles are never altered. -/
theorem C02_roundtrip_all_bodies (name : String) (P : Planet) (h : Planet.init name = .ok P)
    (tbar : ℝ) (s : FState) :
    (P.dimensionalize tbar (P.nonDimState s)).2 = s ∧
    P.nonDimState (P.dimensionalize tbar s).2 = s ∧
    (P.nonDimState s).theta = s.theta ∧ (P.nonDimState s).phi = s.phi ∧
    (P.nonDimState s).psi = s.psi ∧ (P.nonDimState s).gamma = s.gamma := by
  obtain ⟨_, hR, _, _, _, _, _, _, hV, _⟩ := C01_planet_consistent name P h
  exact ⟨C02_roundtrip_physical P hR.ne' hV.ne' tbar s,
    (C02_roundtrip_dimensionless P hR.ne' hV.ne' tbar s).1, rfl, rfl, rfl, rfl⟩

/-- C02: the scaling is the physical one: dimensionless radius 1 is the surface, dimensionless speed 1
is the circular-orbit speed at the surface, and dimensionless time `2π` is the period of that
circular orbit. -/
theorem C02_scale_meaning (name : String) (P : Planet) (h : Planet.init name = .ok P) (s : FState) :
    (s.r = P.RP → (P.nonDimState s).r = 1) ∧
    (s.v ^ 2 = P.GM / P.RP → 0 ≤ s.v → (P.nonDimState s).v = 1) ∧
    (P.dimensionalize (2 * Real.pi) s).1 * P.Vref = 2 * Real.pi * P.RP := by
  obtain ⟨_, hR, hG, _, _, _, _, _, hV, _, hVV, hT, _⟩ := C01_planet_consistent name P h
  refine ⟨?_, ?_, ?_⟩
  · intro hr; simp [Planet.nonDimState, hr, hR.ne']
  · intro hv h0
    have : s.v = P.Vref := by
      have h2 : s.v ^ 2 = P.Vref ^ 2 := by rw [hv]; field_simp; linarith
      exact (pow_left_inj₀ h0 hV.le (by norm_num)).mp h2
    simp [Planet.nonDimState, this, hV.ne']
  · simp only [Planet.dimensionalize]
    calc P.tau * (2 * Real.pi) * P.Vref = 2 * Real.pi * (P.tau * P.Vref) := by ring
      _ = _ := by rw [hT]

/-- On Neptune a state on the surface at the reference speed has dimensionless radius and speed 1. -/
example : ∃ (P : Planet) (s : FState), Planet.init "NEPTUNE" = .ok P ∧ (P.nonDimState s).r = 1 ∧
    (P.nonDimState s).v = 1 := by
  obtain ⟨P, hP, hR, -, -, -, -, -, -, hV, -⟩ := demo_neptune
  obtain ⟨_, hR0, _, _, _, _, _, _, _, _, hVV, _⟩ := C01_planet_consistent _ P hP
  have h := C02_scale_meaning _ P hP ⟨P.RP, 0, 0, P.Vref, 0, 0, 0⟩
  refine ⟨P, _, hP, h.1 rfl, h.2.1 ?_ hV.le⟩
  rw [eq_div_iff hR0.ne']; exact hVV

/-- C02: altitude and radius conversions are mutually inverse. -/
theorem C02_altitude_radius_inverse (P : Planet) (x : ℝ) :
    P.computeH (P.computeR x) = x ∧ P.computeR (P.computeH x) = x := by
  simp [Planet.computeH, Planet.computeR]

/-! ### C03, C04 -/

/-- C03: the scalar density lookup in the three altitude regimes, which cover every altitude when
`0 ≤ h_thres`. -/
theorem C03_density_regimes (P : Planet) (atm : Atmosphere) (h : ℝ) (hT : 0 ≤ P.hThres) :
    (0 ≤ h → h ≤ P.hThres → P.density atm h = atm.densityInt h) ∧
    (P.hThres < h → P.density atm h = 0) ∧
    (h < 0 → P.density atm h = P.rho0) := by
  refine ⟨?_, ?_, ?_⟩
  · intro h0 h1; simp [Planet.density, h0, h1]
  · intro h1
    have : ¬ (0 ≤ h ∧ h ≤ P.hThres) := fun hh => absurd hh.2 (not_le.mpr h1)
    simp [Planet.density, this, h1]
  · intro h1
    have h2 : ¬ (0 ≤ h ∧ h ≤ P.hThres) := fun hh => absurd hh.1 (not_le.mpr h1)
    have h3 : ¬ h > P.hThres := by linarith
    simp [Planet.density, h2, h3]

/-- The three regimes on Mars, with a table of constant value 1. -/
example : ∃ P, Planet.init "MARS" = .ok P ∧ P.density ⟨fun _ => 1, fun _ => 1, fun _ => 1, fun _ => 1⟩ 50e3 = 1 ∧
    P.density ⟨fun _ => 1, fun _ => 1, fun _ => 1, fun _ => 1⟩ 130e3 = 0 ∧
    P.density ⟨fun _ => 1, fun _ => 1, fun _ => 1, fun _ => 1⟩ (-1) = P.rho0 := by
  obtain ⟨P, hP, -, hT, -⟩ := demo_mars
  have h0 : 0 ≤ P.hThres := by rw [hT]; norm_num
  exact ⟨P, hP, (C03_density_regimes P _ 50e3 h0).1 (by norm_num) (by rw [hT]; norm_num),
    (C03_density_regimes P _ 130e3 h0).2.1 (by rw [hT]; norm_num),
    (C03_density_regimes P _ (-1) h0).2.2 (by norm_num)⟩

/-- C03: for every supported body the density seen by the equations of motion is non-negative
whenever the loaded table is non-negative on `[0, h_thres]`; the dimensionless density is the
physical one divided by the surface value and is non-negative too. -/
theorem C03_density_nonneg (name : String) (P : Planet) (hP : Planet.init name = .ok P)
    (atm : Atmosphere) (hd : ∀ h, 0 ≤ h → h ≤ P.hThres → 0 ≤ atm.densityInt h) (r theta phi : ℝ) :
    0 ≤ P.rho atm r theta phi ∧ 0 ≤ P.rhobar atm r theta phi ∧
    P.rhobar atm r theta phi * P.rho0 = P.rho atm (r * P.RP) theta phi := by
  obtain ⟨_, hR, _, hrho, _, hTr, hTS, hST, _⟩ := C01_planet_consistent name P hP
  have hT : 0 ≤ P.hThres := by linarith
  have key : ∀ h, 0 ≤ P.density atm h := by
    intro h
    have H := C03_density_regimes P atm h hT
    rcases lt_or_ge h 0 with h0 | h0
    · rw [H.2.2 h0]; exact hrho.le
    · rcases lt_or_ge P.hThres h with h1 | h1
      · rw [H.2.1 h1]
      · rw [H.1 h0 h1]; exact hd h h0 h1
  refine ⟨key _, div_nonneg (key _) hrho.le, ?_⟩
  simp only [Planet.rhobar, Planet.rho2]
  exact div_mul_cancel₀ _ hrho.ne'

example : ∃ (P : Planet) (atm : Atmosphere), Planet.init "MARS" = .ok P ∧
    ∀ h, 0 ≤ h → h ≤ P.hThres → 0 ≤ atm.densityInt h := by
  obtain ⟨P, hP⟩ := (C01_planet_names "MARS").1.mpr (by simp [Spec.bodies])
  exact ⟨P, ⟨fun h => 1 / (1 + h ^ 2), fun _ => 0, fun _ => 0, fun _ => 0⟩, hP,
    fun h _ _ => by positivity⟩

/-- C04 (partial): the density used by the integrator and the density used for loads and heating agree
at every altitude in `[0, h_thres]`.  Missing part of the full claim: agreement at *every* altitude,
which is false (`C04_densities_disagree`, `C04_agree_iff`). -/
theorem C04_densities_agree_partial (P : Planet) (atm : Atmosphere) (r theta phi : ℝ)
    (h0 : 0 ≤ r - P.RP) (h1 : r - P.RP ≤ P.hThres) :
    P.rho atm r theta phi = P.rhoVec atm r := by
  simp [Planet.rho, Planet.rhoVec, Planet.density, h0, h1]

/-- A point 50 km above the surface of Mars meets the hypotheses, whatever the atmosphere. -/
example : ∃ P, Planet.init "MARS" = .ok P ∧ ∀ atm, P.rho atm 3439.5e3 0.1 0.2 = P.rhoVec atm 3439.5e3 := by
  obtain ⟨P, hP, hR, hT, -⟩ := demo_mars
  exact ⟨P, hP, fun atm => C04_densities_agree_partial P atm _ _ _ (by rw [hR]; norm_num)
    (by rw [hR, hT]; norm_num)⟩

/-- C04: exact characterisation of agreement outside the sampled range: above `h_thres` the two agree
only where the table is zero, and below ground only where the table returns the surface density. -/
theorem C04_agree_iff (P : Planet) (atm : Atmosphere) (r theta phi : ℝ) (hT : 0 ≤ P.hThres) :
    P.rho atm r theta phi = P.rhoVec atm r ↔
      (0 ≤ r - P.RP ∧ r - P.RP ≤ P.hThres) ∨
      (P.hThres < r - P.RP ∧ atm.densityInt (r - P.RP) = 0) ∨
      (r - P.RP < 0 ∧ atm.densityInt (r - P.RP) = P.rho0) := by
  have H := C03_density_regimes P atm (r - P.RP) hT
  simp only [Planet.rho, Planet.rhoVec]
  rcases lt_or_ge (r - P.RP) 0 with h0 | h0
  · rw [H.2.2 h0]
    constructor
    · intro h; exact Or.inr (Or.inr ⟨h0, h.symm⟩)
    · rintro (h | h | h)
      · linarith [h.1]
      · linarith [h.1]
      · exact h.2.symm
  · rcases lt_or_ge P.hThres (r - P.RP) with h1 | h1
    · rw [H.2.1 h1]
      constructor
      · intro h; exact Or.inr (Or.inl ⟨h1, h.symm⟩)
      · rintro (h | h | h)
        · linarith [h.2]
        · exact h.2.symm
        · linarith [h.1]
    · rw [H.1 h0 h1]; simp [h0, h1]

/-- 130 km above Mars the two densities differ when the table holds a non-zero value there. -/
example : ∃ P, Planet.init "MARS" = .ok P ∧ P.rho ⟨fun _ => 1, fun _ => 1, fun _ => 1, fun _ => 1⟩ 3519.5e3 0 0
    ≠ P.rhoVec ⟨fun _ => 1, fun _ => 1, fun _ => 1, fun _ => 1⟩ 3519.5e3 := by
  obtain ⟨P, hP, hR, hT, -⟩ := demo_mars
  refine ⟨P, hP, fun h => ?_⟩
  rcases (C04_agree_iff P _ _ 0 0 (by rw [hT]; norm_num)).mp h with h | h | h
  · have := h.2; rw [hR, hT] at this; norm_num at this
  · exact one_ne_zero h.2
  · have := h.1; rw [hR] at this; norm_num at this

/-- C04 (finding): the full claim is false.  For every supported body, with a linearly interpolated
table that covers more than `[0, h_thres]` there is an altitude where the integrator flies in vacuum
while loads and heating are computed with positive density; and with *any* table the two differ at
every altitude below the first table row (below ground the integrator uses `rho0`, the other path 0). -/
theorem C04_densities_disagree (name : String) (P : Planet) (hP : Planet.init name = .ok P) :
    (∃ (nodes : List (ℝ × ℝ)) (f : ℝ → ℝ), interp1d nodes 0 0 = .ok f ∧ (∀ p ∈ nodes, 0 < p.2) ∧
      ∀ atm : Atmosphere, atm.densityInt = f →
        ∃ r, P.hThres < P.computeH r ∧ P.rho atm r 0 0 = 0 ∧ 0 < P.rhoVec atm r) ∧
    (∀ (nodes : List (ℝ × ℝ)) (f : ℝ → ℝ), interp1d nodes 0 0 = .ok f → (∀ p ∈ nodes, 0 ≤ p.1) →
      ∀ atm : Atmosphere, atm.densityInt = f → ∀ r, P.computeH r < 0 →
        P.rho atm r 0 0 = P.rho0 ∧ P.rhoVec atm r = 0 ∧ P.rho0 ≠ 0) := by
  obtain ⟨_, hR, _, hrho, _, hTr, hTS, hST, _⟩ := C01_planet_consistent name P hP
  have hT : 0 < P.hThres := by linarith
  constructor
  · obtain ⟨f, hf⟩ := (C05_table_accepted [((0:ℝ), (2:ℝ)), (2 * P.hThres, 1)] 0 0).mpr (by simp)
    refine ⟨_, f, hf, by simp, ?_⟩
    rintro atm rfl
    refine ⟨P.RP + 2 * P.hThres, ?_, ?_, ?_⟩
    · simp [Planet.computeH]; linarith
    · have H := C03_density_regimes P atm (2 * P.hThres) hT.le
      simp only [Planet.rho]
      rw [show P.RP + 2 * P.hThres - P.RP = 2 * P.hThres by ring]
      exact H.2.1 (by linarith)
    · simp only [Planet.rhoVec]
      rw [show P.RP + 2 * P.hThres - P.RP = 2 * P.hThres by ring]
      have := C05_table_nodes _ 0 0 _ hf (by simp; linarith) (2 * P.hThres, (1:ℝ)) (by simp)
      simp only at this
      rw [this]; norm_num
  · rintro nodes f hf hnodes atm rfl r hr
    simp only [Planet.computeH] at hr
    have H := C03_density_regimes P atm (r - P.RP) hT.le
    refine ⟨H.2.2 hr, ?_, hrho.ne'⟩
    exact (C05_table_outside nodes 0 0 _ hf (r - P.RP)).1
      (fun p hp => lt_of_lt_of_le hr (hnodes p hp))

/-- Mars is a body to which this applies. -/
example : ∃ (P : Planet) (atm : Atmosphere) (r : ℝ), Planet.init "MARS" = .ok P ∧ P.rho atm r 0 0 ≠ P.rhoVec atm r := by
  obtain ⟨P, hP, -⟩ := demo_mars
  obtain ⟨nodes, f, -, -, h⟩ := (C04_densities_disagree "MARS" P hP).1
  obtain ⟨r, -, h1, h2⟩ := h ⟨f, f, f, f⟩ rfl
  exact ⟨P, _, r, hP, by rw [h1]; exact h2.ne⟩

/-! ### C07: profile slices -/

/-- C07: in a file of `NMONTE·NPOS` rows the profile numbers `1 … NMONTE` select consecutive blocks of
exactly `NPOS` rows; row `j` of profile `i` is row `(i-1)·NPOS + j` of the file (so distinct profiles
share no row), and the blocks in order make up the whole file. -/
theorem C07_profiles_partition {α : Type} (rows : List α) (NPOS NMONTE : ℕ)
    (hlen : rows.length = NMONTE * NPOS) :
    (∀ i, 1 ≤ i → i ≤ NMONTE → (profileSlice rows NPOS i).length = NPOS) ∧
    (∀ i, 1 ≤ i → i ≤ NMONTE → ∀ j, j < NPOS →
      (profileSlice rows NPOS i)[j]? = rows[(i - 1) * NPOS + j]?) ∧
    ((List.range NMONTE).flatMap (fun k => profileSlice rows NPOS (k + 1)) = rows) := by
  refine ⟨?_, ?_, ?_⟩
  · intro i h1 h2
    have h3 : i * NPOS ≤ NMONTE * NPOS := Nat.mul_le_mul_right _ h2
    obtain ⟨k, rfl⟩ : ∃ k, i = k + 1 := ⟨i - 1, by omega⟩
    have e : (k + 1) * NPOS = k * NPOS + NPOS := by ring
    simp only [profileSlice, List.length_drop, List.length_take, hlen, Nat.add_sub_cancel]
    rw [Nat.min_eq_left h3]; omega
  · intro i h1 h2 j hj
    obtain ⟨k, rfl⟩ : ∃ k, i = k + 1 := ⟨i - 1, by omega⟩
    have e : (k + 1) * NPOS = k * NPOS + NPOS := by ring
    simp only [profileSlice, Nat.add_sub_cancel]
    rw [List.getElem?_drop, List.getElem?_take]
    have : k * NPOS + j < (k + 1) * NPOS := by omega
    simp [this]
  · have key : ∀ n, (List.range n).flatMap (fun k => profileSlice rows NPOS (k + 1))
        = rows.take (n * NPOS) := by
      intro n
      induction n with
      | zero => simp
      | succ n ih =>
          rw [List.range_succ, List.flatMap_append, ih]
          simp only [List.flatMap_cons, List.flatMap_nil, List.append_nil, profileSlice,
            Nat.add_sub_cancel]
          have hle : n * NPOS ≤ (n + 1) * NPOS := Nat.mul_le_mul_right _ (by omega)
          have : (rows.take ((n + 1) * NPOS)).take (n * NPOS) = rows.take (n * NPOS) := by
            rw [List.take_take, Nat.min_eq_left hle]
          rw [← this, List.take_append_drop]
    rw [key, ← hlen, List.take_length]

/-- A file of two profiles of three rows. -/
example : profileSlice ["a", "b", "c", "d", "e", "f"] 3 1 ++ profileSlice ["a", "b", "c", "d", "e", "f"] 3 2
    = ["a", "b", "c", "d", "e", "f"] := by
  simpa [List.range_succ] using (C07_profiles_partition ["a", "b", "c", "d", "e", "f"] 3 2 rfl).2.2

/-- C07: every profile number the Monte Carlo driver can draw is usable (at least two positions per
profile), and a number beyond the file is rejected with `ValueError`. -/
theorem C07_profile_usable (rows : List DensRow) (NPOS NMONTE : ℕ)
    (hlen : rows.length = NMONTE * NPOS) (hN : 2 ≤ NPOS) (sigma : ℝ) (i : ℕ) (h1 : 1 ≤ i) :
    ((∃ f, loadAtmosphereModel5 rows sigma NPOS i = .ok f) ↔ i ≤ NMONTE) ∧
    (NMONTE < i → loadAtmosphereModel5 rows sigma NPOS i = .error .valueError) := by
  have key : NMONTE < i → loadAtmosphereModel5 rows sigma NPOS i = .error .valueError := by
    intro h
    have : (profileSlice rows NPOS i) = [] := by
      simp only [profileSlice]
      apply List.drop_eq_nil_of_le
      have : NMONTE * NPOS ≤ (i - 1) * NPOS := Nat.mul_le_mul_right _ (by omega)
      rw [List.length_take, hlen]; exact le_trans (Nat.min_le_right _ _) this
    simp [loadAtmosphereModel5, interp1d, this]
  refine ⟨⟨?_, ?_⟩, key⟩
  · rintro ⟨f, hf⟩
    by_contra h
    rw [key (by omega)] at hf
    exact absurd hf (by simp)
  · intro h
    have := (C07_profiles_partition rows NPOS NMONTE hlen).1 i h1 h
    exact (C05_table_accepted _ 0 0).mpr (by simp [this, hN])

example : ([1, 2, 3, 4, 5, 6] : List ℕ).length = 3 * 2 ∧
    profileSlice ([1, 2, 3, 4, 5, 6] : List ℕ) 2 2 = [3, 4] := by decide

/-! ### C08: sigma scaling -/

/-- Closed form of the sigma-scaled density. -/
theorem mcDensity5_closed (row : DensRow) (s : ℝ) :
    mcDensity5 row s = row.avg + row.pert + (row.high - row.avg) * max s 0
      + (row.avg - row.low) * min s 0 := by
  simp only [mcDensity5, pSigmaFunc, nSigmaFunc]
  rcases lt_or_ge s 0 with h | h
  · simp [h, not_le.mpr h, max_eq_right h.le, min_eq_left h.le]; ring
  · simp [h, not_lt.mpr h]; ring

/-- C08: sigma 0 gives mean plus perturbation, +1 the high profile plus perturbation, −1 the low profile
plus perturbation; between and beyond it is linear on each side; it is continuous in sigma and, when
low ≤ mean ≤ high, non-decreasing in sigma. -/
theorem C08_sigma_scaling (row : DensRow) :
    mcDensity5 row 0 = row.avg + row.pert ∧
    mcDensity5 row 1 = row.high + row.pert ∧
    mcDensity5 row (-1) = row.low + row.pert ∧
    (∀ s, 0 ≤ s → mcDensity5 row s = (1 - s) * mcDensity5 row 0 + s * mcDensity5 row 1) ∧
    (∀ s, s ≤ 0 → mcDensity5 row s = (1 + s) * mcDensity5 row 0 + (-s) * mcDensity5 row (-1)) ∧
    Continuous (mcDensity5 row) ∧
    (row.low ≤ row.avg → row.avg ≤ row.high → Monotone (mcDensity5 row)) := by
  have c := mcDensity5_closed row
  have e0 : mcDensity5 row 0 = row.avg + row.pert := by rw [c]; simp
  have e1 : mcDensity5 row 1 = row.high + row.pert := by rw [c]; simp; ring
  have e2 : mcDensity5 row (-1) = row.low + row.pert := by rw [c]; simp; ring
  refine ⟨e0, e1, e2, ?_, ?_, ?_, ?_⟩
  · intro s hs; rw [e0, e1, c, max_eq_left hs, min_eq_right hs]; ring
  · intro s hs; rw [e0, e2, c, max_eq_right hs, min_eq_left hs]; ring
  · have : mcDensity5 row = fun s => row.avg + row.pert + (row.high - row.avg) * max s 0
      + (row.avg - row.low) * min s 0 := funext c
    rw [this]
    fun_prop
  · intro h1 h2 s t hst
    rw [c, c]
    have m1 : max s 0 ≤ max t 0 := max_le_max hst le_rfl
    have m2 : min s 0 ≤ min t 0 := min_le_min hst le_rfl
    have := mul_le_mul_of_nonneg_left m1 (sub_nonneg.mpr h2)
    have := mul_le_mul_of_nonneg_left m2 (sub_nonneg.mpr h1)
    linarith

/-- C08: the two loaders feed that law as documented: with `loadMonteCarloDensityFile2` sigma 0 reproduces
the total density column exactly; with `loadMonteCarloDensityFile3` ±1 sigma moves the density by the
stated percentage of the mean. Heights given in km become metres. -/
theorem C08_loaders (height low avg high total sd : ℝ) :
    mcDensity5 (loadMC2 false height low avg high total) 0 = total ∧
    mcDensity5 (loadMC3 false height avg sd total) 0 = total ∧
    mcDensity5 (loadMC3 false height avg sd total) 1 = total + avg * (sd / 100) ∧
    mcDensity5 (loadMC3 false height avg sd total) (-1) = total - avg * (sd / 100) ∧
    (loadMC2 true height low avg high total).height = 1000 * height ∧
    (loadMC3 true height avg sd total).height = 1000 * height ∧
    (loadMC2 false height low avg high total).height = height := by
  refine ⟨?_, ?_, ?_, ?_, ?_, ?_, ?_⟩
  · rw [(C08_sigma_scaling _).1]; simp [loadMC2]
  · rw [(C08_sigma_scaling _).1]; simp [loadMC3]
  · rw [(C08_sigma_scaling _).2.1]; simp [loadMC3]; ring
  · rw [(C08_sigma_scaling _).2.2.1]; simp [loadMC3]; ring
  · simp [loadMC2]; ring
  · simp [loadMC3]; ring
  · simp [loadMC2]

/-- C08: the model without perturbation is the same law with the perturbation removed. -/
theorem C08_model6_is_model5_without_perturbation (row : DensRow) (s : ℝ) :
    mcDensity6 row s = mcDensity5 { row with pert := 0 } s := by
  simp [mcDensity6, mcDensity5]

/-- C08: at every tabulated height of the selected profile, the interpolant built from the file returns
the scaled density of that very row. -/
theorem C08_profile_lookup (rows : List DensRow) (sigma : ℝ) (NPOS i : ℕ) (f : ℝ → ℝ)
    (hf : loadAtmosphereModel5 rows sigma NPOS i = .ok f)
    (hd : (profileSlice rows NPOS i).Pairwise (fun p q => p.height ≠ q.height))
    (row : DensRow) (hrow : row ∈ profileSlice rows NPOS i) :
    f row.height = mcDensity5 row sigma := by
  have := C05_table_nodes _ 0 0 f hf (by rw [List.pairwise_map]; exact hd)
    (row.height, mcDensity5 row sigma) (List.mem_map.mpr ⟨row, hrow, rfl⟩)
  exact this

example : (loadMC2 true 1 0.8 1 1.3 1.1).low ≤ (loadMC2 true 1 0.8 1 1.3 1.1).avg ∧
    (loadMC2 true 1 0.8 1 1.3 1.1).avg ≤ (loadMC2 true 1 0.8 1 1.3 1.1).high := by
  norm_num [loadMC2]

/-! ### C64: sign of sampled densities -/

/-- C64 (finding): a physically meaningful row (0 < low < mean < high, no perturbation) gets a *negative*
density for sufficiently negative sigma, which the normally distributed sigma can take: the claim "sampled
densities are non-negative" is false of the code. -/
theorem C64_sampled_density_can_be_negative :
    ∃ row : DensRow, 0 < row.low ∧ row.low < row.avg ∧ row.avg < row.high ∧ row.pert = 0 ∧
      mcDensity5 row (-3) < 0 := by
  refine ⟨⟨0, 0.5, 1, 1.5, 0⟩, by norm_num, by norm_num, by norm_num, rfl, ?_⟩
  rw [mcDensity5_closed]
  norm_num

/-- C64 (partial): for sigma ≥ −1 the sampled density is at least the low profile plus the perturbation, hence
non-negative whenever that is.  Missing: sigma < −1, where it is false. -/
theorem C64_sampled_density_nonneg_partial (row : DensRow) (s : ℝ) (hs : -1 ≤ s)
    (h1 : row.low ≤ row.avg) (h2 : row.avg ≤ row.high) (h3 : 0 ≤ row.low + row.pert) :
    0 ≤ mcDensity5 row s := by
  have := (C08_sigma_scaling row).2.2.2.2.2.2 h1 h2 hs
  rw [(C08_sigma_scaling row).2.2.1] at this
  linarith

/-- A typical row and sigma meeting the hypotheses. -/
example : 0 ≤ mcDensity5 ⟨10, 0.5, 1, 1.6, 0.1⟩ (-0.7) :=
  C64_sampled_density_nonneg_partial _ _ (by norm_num) (by norm_num) (by norm_num) (by norm_num)

/-- C64: the exact condition: with `low < mean ≤ high` the sampled density is negative exactly when sigma lies
below `-(mean + pert)/(mean - low)` (for a non-negative total density). -/
theorem C64_negative_iff (row : DensRow) (s : ℝ) (h1 : row.low < row.avg) (h2 : row.avg ≤ row.high)
    (h3 : 0 ≤ row.avg + row.pert) :
    mcDensity5 row s < 0 ↔ s < -(row.avg + row.pert) / (row.avg - row.low) := by
  have hd : 0 < row.avg - row.low := by linarith
  rw [mcDensity5_closed, lt_div_iff₀ hd]
  rcases lt_or_ge s 0 with h | h
  · rw [max_eq_right h.le, min_eq_left h.le]
    constructor <;> intro h' <;> nlinarith
  · rw [max_eq_left h, min_eq_right h]
    constructor
    · intro h'
      nlinarith [mul_nonneg (sub_nonneg.mpr h2) h]
    · intro h'
      nlinarith [mul_nonneg h hd.le]

/-- The same row turns negative below sigma = −2.2. -/
example (s : ℝ) : mcDensity5 ⟨10, 0.5, 1, 1.6, 0.1⟩ s < 0 ↔ s < -2.2 := by
  have := C64_negative_iff ⟨10, 0.5, 1, 1.6, 0.1⟩ s (by norm_num) (by norm_num) (by norm_num)
  rw [this]; norm_num

end AMAT.Props
