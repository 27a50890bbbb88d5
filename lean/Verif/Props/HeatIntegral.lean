import Verif.Props.PropagationOutcome
import Mathlib.Analysis.SpecialFunctions.Pow.Continuity
import Verif.Lemmas.TrapezoidLimit
import Verif.Props.HeatingProps
import Verif.Props.Sensitivity

/-
C105: the reported heat load tends to the time integral of the heat rate along the flight.
-/

noncomputable section

open Real

namespace AMAT.Spec

/-- Speeds (m/s) at which the heat-rate formulas of a body switch to another formula with another value. -/
def jumpSpeeds (id : String) : List ℝ :=
  if id = "EARTH" then [9000] else if id = "VENUS" then [8000, 10000] else []

end AMAT.Spec

namespace AMAT.Props

open Real AMAT AMAT.Spec AMAT.Data AMAT.Lits MeasureTheory Filter Topology

theorem trapz_take_sum (l : List (ℝ × ℝ)) (dt : ℝ) (q : ℕ → ℝ) (k : ℕ)
    (h : ∀ j ≤ k, l[j]? = some (j * dt, q j)) :
    trapz (l.take (k + 1)) = ∑ j ∈ Finset.range k, dt * (q j + q (j + 1)) / 2 := by
  induction k with
  | zero =>
    have h0 := h 0 le_rfl
    cases l with
    | nil => simp at h0
    | cons a l => simp [trapz]
  | succ k ih =>
    have hk := h k (by omega)
    have hk1 := h (k + 1) le_rfl
    have e1 : l.take (k + 1) = l.take k ++ [((k:ℝ) * dt, q k)] := by
      rw [List.take_add_one, hk]; rfl
    have e2 : l.take (k + 1 + 1) = l.take k ++ ((k:ℝ) * dt, q k) :: [(((k + 1 : ℕ):ℝ) * dt, q (k + 1))] := by
      rw [List.take_add_one, hk1, e1]; simp
    rw [e2, trapz_append, ← e1, ih fun j hj => h j (by omega), Finset.sum_range_succ]
    congr 1
    simp only [trapz]
    push_cast
    ring

/-- The radiative velocity function of the Earth from 9 km/s on, as a sum of ramps. -/
theorem earthFV_ramps {v : ℝ} (hv : 9000 ≤ v) : earthFV v = 1.5 + 0.0335 * (v - 9000) + 0.0825 * max 0 (v - 10000)
    + 0.092 * max 0 (v - 11000) + 0.093 * max 0 (v - 12000) + 0.104 * max 0 (v - 13000) + 0.08 * max 0 (v - 14000)
    + 0.005 * max 0 (v - 15000) - 0.49 * max 0 (v - 16000) := by
  unfold earthFV interpSorted earthRadNodes
  simp only [List.head?_cons, List.getLast?_cons_cons, List.getLast?_singleton, interpSeg, reduceCtorEq, or_false, or_true,
    if_true]
  rw [if_neg (not_lt.mpr hv)]
  have pos : ∀ a : ℝ, a ≤ v → max 0 (v - a) = v - a := fun a h => max_eq_right (by linarith)
  have neg : ∀ a : ℝ, v ≤ a → max 0 (v - a) = 0 := fun a h => max_eq_left (by linarith)
  by_cases c : 16000 < v
  · rw [if_pos c, pos 10000 (by linarith), pos 11000 (by linarith), pos 12000 (by linarith), pos 13000 (by linarith),
      pos 14000 (by linarith), pos 15000 (by linarith), pos 16000 (by linarith)]
    ring
  rw [if_neg c, neg 16000 (not_lt.mp c)]
  split_ifs with c1 c2 c3 c4 c5 c6
  · rw [neg 10000 (by linarith), neg 11000 (by linarith), neg 12000 (by linarith), neg 13000 (by linarith),
      neg 14000 (by linarith), neg 15000 (by linarith)]
    ring
  · rw [pos 10000 (by linarith), neg 11000 (by linarith), neg 12000 (by linarith), neg 13000 (by linarith),
      neg 14000 (by linarith), neg 15000 (by linarith)]
    ring
  · rw [pos 10000 (by linarith), pos 11000 (by linarith), neg 12000 (by linarith), neg 13000 (by linarith),
      neg 14000 (by linarith), neg 15000 (by linarith)]
    ring
  · rw [pos 10000 (by linarith), pos 11000 (by linarith), pos 12000 (by linarith), neg 13000 (by linarith),
      neg 14000 (by linarith), neg 15000 (by linarith)]
    ring
  · rw [pos 10000 (by linarith), pos 11000 (by linarith), pos 12000 (by linarith), pos 13000 (by linarith),
      neg 14000 (by linarith), neg 15000 (by linarith)]
    ring
  · rw [pos 10000 (by linarith), pos 11000 (by linarith), pos 12000 (by linarith), pos 13000 (by linarith),
      pos 14000 (by linarith), neg 15000 (by linarith)]
    ring
  · rw [pos 10000 (by linarith), pos 11000 (by linarith), pos 12000 (by linarith), pos 13000 (by linarith),
      pos 14000 (by linarith), pos 15000 (by linarith)]
    ring

theorem earthFV_continuousAt {v : ℝ} (hv : v ≠ 9000) : ContinuousAt earthFV v := by
  rcases lt_or_gt_of_ne hv with h | h
  · refine (continuousAt_const (y := (0:ℝ))).congr ?_
    filter_upwards [gt_mem_nhds h] with w hw
    unfold earthFV interpSorted earthRadNodes
    simp only [List.head?_cons, List.getLast?_cons_cons, List.getLast?_singleton]
    rw [if_pos hw]
  · have hc : Continuous fun v : ℝ => 1.5 + 0.0335 * (v - 9000) + 0.0825 * max 0 (v - 10000)
        + 0.092 * max 0 (v - 11000) + 0.093 * max 0 (v - 12000) + 0.104 * max 0 (v - 13000) + 0.08 * max 0 (v - 14000)
        + 0.005 * max 0 (v - 15000) - 0.49 * max 0 (v - 16000) := by fun_prop
    refine hc.continuousAt.congr ?_
    filter_upwards [lt_mem_nhds h] with w hw
    exact (earthFV_ramps (le_of_lt hw)).symm

/-- The heat rates are continuous in density and speed, except at the speeds where a formula is replaced by another. -/
theorem heat_continuousAt (name : String) (P : Planet) (hP : Planet.init name = .ok P) {qc qr : ℝ → ℝ → ℝ → ℝ}
    (hc : qConvFn P.ID = some qc) (hr : qRadFn P.ID = some qr) (RN rho v : ℝ) (hj : v ∉ jumpSpeeds P.ID) :
    ContinuousAt (fun p : ℝ × ℝ => qc RN p.1 p.2 + qr RN p.1 p.2) (rho, v) := by
  have e := (C01_planet_consistent name P hP).1
  have hs := (C01_planet_names name).1.mp ⟨_, hP⟩
  rw [e] at hc hr hj
  have p1 : ∀ a : ℝ, 0 ≤ a → Continuous fun p : ℝ × ℝ => p.1 ^ a := fun a ha => continuous_fst.rpow_const fun _ => Or.inr ha
  have p2 : ∀ a : ℝ, 0 ≤ a → Continuous fun p : ℝ × ℝ => p.2 ^ a := fun a ha => continuous_snd.rpow_const fun _ => Or.inr ha
  have sg : ∀ k : ℝ, Continuous fun p : ℝ × ℝ => k * (p.1 / RN) ^ (0.5:ℝ) * p.2 ^ (3.0:ℝ) := fun k =>
    (continuous_const.mul ((continuous_fst.div_const RN).rpow_const fun _ => Or.inr (by norm_num))).mul (p2 _ (by norm_num))
  have ig : Continuous fun p : ℝ × ℝ =>
      2.24008E-7 * p.1 ^ (0.452130:ℝ) * p.2 ^ (2.691800:ℝ) * Real.sqrt (0.291 / RN) :=
    ((continuous_const.mul (p1 _ (by norm_num))).mul (p2 _ (by norm_num))).mul continuous_const
  have ice : Continuous fun p : ℝ × ℝ =>
      8.125812E-3 * p.1 ^ (0.498140:ℝ) * (p.2 / 10000) ^ (15.113:ℝ) * (RN / 0.291) :=
    ((continuous_const.mul (p1 _ (by norm_num))).mul
      ((continuous_snd.div_const _).rpow_const fun _ => Or.inr (by norm_num))).mul continuous_const
  have gas : Continuous fun p : ℝ × ℝ =>
      (9.7632379E-40 * (2 * RN) ^ (-0.17905:ℝ) * p.1 ^ (1.763827469:ℝ) * p.2 ^ (10.993852:ℝ)) * 1E3 / 1E4 :=
    (((continuous_const.mul (p1 _ (by norm_num))).mul (p2 _ (by norm_num))).mul continuous_const).div_const _
  simp only [Spec.bodies, List.mem_cons, List.not_mem_nil, or_false] at hs
  rcases hs with rfl | rfl | rfl | rfl | rfl | rfl | rfl | rfl
  · obtain rfl := Option.some.inj hc
    obtain rfl := Option.some.inj hr
    refine (sg _).continuousAt.add ?_
    simp only [jumpSpeeds, String.reduceEq, if_false, if_true, List.mem_cons, List.not_mem_nil, or_false, not_or] at hj
    have m : ∀ k a : ℝ, 0 ≤ a → Continuous fun p : ℝ × ℝ => k * p.2 ^ a * p.1 ^ (1.2:ℝ) * RN ^ (0.49:ℝ) := fun k a ha =>
      ((continuous_const.mul (p2 _ ha)).mul (p1 _ (by norm_num))).mul continuous_const
    rcases lt_or_gt_of_ne hj.1 with h | h
    · refine (m 3.33E-34 10.0 (by norm_num)).continuousAt.congr ?_
      filter_upwards [continuous_snd.continuousAt.eventually (gt_mem_nhds h)] with p hp
      rw [if_pos hp]
    rcases lt_or_gt_of_ne hj.2 with h' | h'
    · refine (m 1.22E-16 5.5 (by norm_num)).continuousAt.congr ?_
      filter_upwards [continuous_snd.continuousAt.eventually (gt_mem_nhds h'),
        continuous_snd.continuousAt.eventually (lt_mem_nhds h)] with p hp hp'
      rw [if_neg (not_lt.mpr hp'.le), if_pos ⟨hp'.le, hp⟩]
    · refine (m 3.07E-48 13.4 (by norm_num)).continuousAt.congr ?_
      filter_upwards [continuous_snd.continuousAt.eventually (lt_mem_nhds h'),
        continuous_snd.continuousAt.eventually (lt_mem_nhds h)] with p hp hp'
      rw [if_neg (not_lt.mpr hp'.le), if_neg fun hh => absurd hh.2 (not_lt.mpr hp.le)]
  · obtain rfl := Option.some.inj hc
    obtain rfl := Option.some.inj hr
    simp only [jumpSpeeds, if_true, List.mem_singleton] at hj
    refine (sg _).continuousAt.add ?_
    exact ((continuous_const.mul (p1 _ (by norm_num))).continuousAt (x := (rho, v))).mul
      ((earthFV_continuousAt hj).comp' (f := Prod.snd) continuous_snd.continuousAt)
  · obtain rfl := Option.some.inj hc
    obtain rfl := Option.some.inj hr
    exact (sg _).continuousAt.add continuousAt_const
  · obtain rfl := Option.some.inj hc
    obtain rfl := Option.some.inj hr
    exact (sg _).continuousAt.add gas.continuousAt
  · obtain rfl := Option.some.inj hc
    obtain rfl := Option.some.inj hr
    exact (sg _).continuousAt.add gas.continuousAt
  · obtain rfl := Option.some.inj hc
    obtain rfl := Option.some.inj hr
    exact (sg _).continuousAt.add continuousAt_const
  · obtain rfl := Option.some.inj hc
    obtain rfl := Option.some.inj hr
    exact ig.continuousAt.add ice.continuousAt
  · obtain rfl := Option.some.inj hc
    obtain rfl := Option.some.inj hr
    exact ig.continuousAt.add ice.continuousAt

/-- The heat rate at a state, by the formulas of the body. -/
def heatAt (V : Vehicle) (qc qr : ℝ → ℝ → ℝ → ℝ) (s : FState) : ℝ :=
  qc V.RN (V.planet.rhoVec V.atm (s.r * V.planet.RP)) (s.v * V.planet.Vref) +
    qr V.RN (V.planet.rhoVec V.atm (s.r * V.planet.RP)) (s.v * V.planet.Vref)

theorem run_heat {V : Vehicle} {mode : ScipyMode} {I : Integrator} {tSec dt deltaDeg : ℝ} {out : PropOut}
    {qc qr : ℝ → ℝ → ℝ → ℝ} (hc : qConvFn V.planet.ID = some qc) (hr : qRadFn V.planet.ID = some qr)
    (h : V.propogateEntry mode I tSec dt deltaDeg = .ok out) {j : ℕ} {p : ℝ × FState} (hj : j < out.index)
    (hp : (samples V I tSec dt deltaDeg)[j]? = some p) :
    (List.zip out.c.t out.qStagTotal)[j]? = some (V.planet.tau * p.1, heatAt V qc qr p.2) := by
  have hal := C24_arrays_aligned V mode I tSec dt deltaDeg out h
  obtain ⟨-, -, et, er, -, -, ev, -⟩ := hal
  have hp' : V.postProcess mode (TrajArrays.ofSamples (samples V I tSec dt deltaDeg)) (deltaDeg * π / 180.0) 0
    = .ok out := h
  obtain ⟨idx, flag, qc', qr', heat, -, hq1, hq2, -, rfl⟩ := postProcess_inv hp'
  simp only [TrajArrays.truncate] at et er ev hj ⊢
  have hS : ((samples V I tSec dt deltaDeg).take idx)[j]? = some p := by rw [List.getElem?_take_of_lt hj, hp]
  rw [er, ev, Vehicle.qStagConvective, hc, Option.map_some] at hq1
  rw [er, ev, Vehicle.qStagRadiative, hr, Option.map_some] at hq2
  obtain rfl := Option.some.inj hq1
  obtain rfl := Option.some.inj hq2
  rw [List.zip, et, List.getElem?_zipWith, List.getElem?_zipWith, List.getElem?_zipWith, List.getElem?_zipWith]
  simp only [List.getElem?_map, hS, Option.map_some]
  rfl

/-- C105: the heat load reported for a flight is, in the limit of small steps and small integration errors, the time
integral of the heat rate along the flight.  Take any curve `y` through the atmosphere (in particular the exact flight) that
is at the edge of the atmosphere and at a speed where a heat-rate formula is replaced by another only for an instant.  For
every sequence of runs whose steps tend to zero and whose samples tend to the curve, the entry of the heat-load history at
(almost) the time `tEnd` tends to the integral up to `tEnd` of convective plus radiative rate, at the density of the
atmosphere flown. -/
theorem C105_heat_load_converges (name : String) (F : AtmFile) (hF : (name, F) ∈ shippedFiles) (P : Planet)
    (hP : Planet.init name = .ok P) (atm : Atmosphere) (hatm : LoadedCubic P F.km (fileRows F) atm)
    (V : Vehicle) (hVP : V.planet = P) (hVa : V.atm = atm) (hRN : 0 < V.RN) (mode : ScipyMode) (deltaDeg : ℝ)
    (y : ℝ → FState) (tEnd h0 : ℝ) (hT : 0 ≤ tEnd) (hh : 0 < h0)
    (hcr : ContinuousOn (fun t => (y t).r) (Set.Icc 0 (tEnd / P.tau)))
    (hcv : ContinuousOn (fun t => (y t).v) (Set.Icc 0 (tEnd / P.tau)))
    (hreg : ∀ t ∈ Set.Icc 0 (tEnd / P.tau), h0 ≤ (y t).r * P.RP - P.RP)
    (hae : ∀ᵐ s ∂(volume : Measure ℝ), s ∈ Set.Ioo 0 tEnd →
      (y (s / P.tau)).r * P.RP - P.RP < P.hThres ∧ (y (s / P.tau)).v * P.Vref ∉ jumpSpeeds P.ID)
    (I : ℕ → Integrator) (tSec dt δ : ℕ → ℝ) (out : ℕ → PropOut) (k : ℕ → ℕ) (J : ℕ → ℝ)
    (hI : ∀ n, OdeintLike (I n)) (hts : ∀ n, 0 ≤ tSec n) (hdt : ∀ n, 0 < dt n) (hdt0 : Tendsto dt atTop (𝓝 0))
    (hδ : Tendsto δ atTop (𝓝 0))
    (hrun : ∀ n, V.propogateEntry mode (I n) (tSec n) (dt n) deltaDeg = .ok (out n))
    (hk : ∀ n, k n < (out n).index) (hkT : ∀ n, k n * dt n ≤ tEnd) (hkl : Tendsto (fun n => k n * dt n) atTop (𝓝 tEnd))
    (hsamp : ∀ n, ∀ p ∈ (samples V (I n) (tSec n) (dt n) deltaDeg).take (k n + 1),
      Near (δ n) p.2 (y p.1) ∧ p.2.r * P.RP - P.RP ≤ P.hThres ∧ 0 ≤ p.2.v)
    (hJ : ∀ n, (out n).heatload[k n]? = some (J n)) :
    ∃ qc qr, qConvFn P.ID = some qc ∧ qRadFn P.ID = some qr ∧
      Tendsto J atTop (𝓝 (∫ s in (0:ℝ)..tEnd,
        (qc V.RN (P.density atm ((y (s / P.tau)).r * P.RP - P.RP)) ((y (s / P.tau)).v * P.Vref) +
          qr V.RN (P.density atm ((y (s / P.tau)).r * P.RP - P.RP)) ((y (s / P.tau)).v * P.Vref)))) := by
  subst hVP hVa
  obtain ⟨_, hR, _, _, _, hTr, hTS, hST, hV, htau, _⟩ := C01_planet_consistent name V.planet hP
  obtain ⟨qc, qr, hc, hr, lawc, lawr, -⟩ := C25_heat_laws name V.planet hP
  obtain ⟨c1, -, c3, c4⟩ := lawc V.RN hRN
  obtain ⟨r1, -, r3, r4⟩ := lawr V.RN hRN
  refine ⟨qc, qr, hc, hr, ?_⟩
  set P := V.planet with hPdef
  set S := fun n => samples V (I n) (tSec n) (dt n) deltaDeg with hS
  set q : ℕ → ℕ → ℝ := fun n j => (((S n)[j]?).map fun p => heatAt V qc qr p.2).getD 0 with hq
  -- the samples
  have hgrid : ∀ n j, j ≤ k n → ∃ p, (S n)[j]? = some p ∧ p ∈ (S n).take (k n + 1) ∧ p.1 = j * dt n / P.tau := by
    intro n j hj
    obtain ⟨-, hlen, -⟩ := C24_arrays_aligned V mode (I n) (tSec n) (dt n) deltaDeg (out n) (hrun n)
    have hjl : j < (S n).length := lt_of_lt_of_le (lt_of_le_of_lt hj (hk n)) hlen
    have hp : (S n)[j]? = some (S n)[j] := List.getElem?_eq_getElem hjl
    refine ⟨(S n)[j], hp, ?_, ?_⟩
    · exact List.mem_of_getElem? (i := j) (by rw [List.getElem?_take_of_lt (by omega), hp])
    · obtain ⟨i1, -⟩ := hI n (fun t y => V.EOM y t (deltaDeg * π / 180.0))
        (V.planet.nonDimState (Vehicle.entryState V.planet V.init)) (Vehicle.tGrid V.planet (tSec n) (dt n))
      have i1' : (S n).map Prod.fst = Vehicle.tGrid P (tSec n) (dt n) := i1
      obtain ⟨g1, g2⟩ := tGrid_get name P hP (tSec n) (dt n) (hts n) (hdt n)
      have hl : (S n).length = ⌈tSec n / dt n⌉₊ + 1 := by rw [← g1, ← i1', List.length_map]
      have := g2 j (by omega)
      rw [← i1', List.getElem?_map, hp] at this
      exact Option.some.inj this
  have hJq : ∀ n, J n = ∑ j ∈ Finset.range (k n), dt n * (q n j + q n (j + 1)) / 2 := by
    intro n
    obtain ⟨hhead, hint⟩ := C27_heat_load_is_integral V mode (I n) (tSec n) (dt n) deltaDeg (out n) (hrun n)
    obtain ⟨a, b, ha, hb, hab⟩ := hint 0 (k n) (Nat.zero_le _) (hk n)
    rw [List.head?_eq_getElem?, ha] at hhead
    rw [hJ n] at hb
    obtain rfl := Option.some.inj hhead
    obtain rfl := Option.some.inj hb
    rw [List.drop_zero, sub_zero] at hab
    rw [hab]
    refine trapz_take_sum _ (dt n) (q n) (k n) fun j hj => ?_
    obtain ⟨p, hp, -, hp1⟩ := hgrid n j hj
    rw [run_heat hc hr (hrun n) (lt_of_le_of_lt hj (hk n)) hp, hp1]
    simp only [hq, hp, Option.map_some, Option.getD_some]
    congr 2
    rw [← hPdef]
    field_simp
  -- bounds
  obtain ⟨B, hB0, hB⟩ := density_bounded hF hP hatm (show 0 < h0 / 2 by linarith)
  have hT' : 0 ≤ tEnd / P.tau := by positivity
  obtain ⟨W, hW⟩ := isCompact_Icc.exists_bound_of_continuousOn hcv
  have hW0 : 0 ≤ W := (norm_nonneg _).trans (hW 0 ⟨le_rfl, hT'⟩)
  have htime : ∀ n j, j ≤ k n → (j:ℝ) * dt n / P.tau ∈ Set.Icc 0 (tEnd / P.tau) := by
    intro n j hj
    have := (hdt n).le
    refine ⟨by positivity, div_le_div_of_nonneg_right ?_ htau.le⟩
    refine le_trans ?_ (hkT n)
    have : (j:ℝ) ≤ k n := by exact_mod_cast hj
    gcongr
  have hrho : ∀ r : ℝ, 0 ≤ r * P.RP - P.RP → r * P.RP - P.RP ≤ P.hThres →
      P.rhoVec V.atm (r * P.RP) = P.density V.atm (r * P.RP - P.RP) := by
    intro r h0 h1
    unfold Planet.rhoVec Planet.density
    rw [if_pos ⟨h0, h1⟩]
  have hlow : ∀ n j p, j ≤ k n → δ n * P.RP ≤ h0 / 2 → (S n)[j]? = some p → p ∈ (S n).take (k n + 1) →
      p.1 = j * dt n / P.tau → h0 / 2 ≤ p.2.r * P.RP - P.RP := by
    intro n j p hj hδn hp hmem hp1
    have h1 := (hsamp n p hmem).1.r
    have h2 := hreg p.1 (by rw [hp1]; exact htime n j hj)
    have h3 := mul_le_mul_of_nonneg_right (abs_le.mp h1).1 hR.le
    linarith
  have ev1 : ∀ᶠ n in atTop, δ n * P.RP ≤ h0 / 2 := by
    have : Tendsto (fun n => δ n * P.RP) atTop (𝓝 0) := by simpa using hδ.mul_const P.RP
    exact (this.eventually (gt_mem_nhds (show (0:ℝ) < h0 / 2 by linarith))).mono fun n h => h.le
  have ev2 : ∀ᶠ n in atTop, δ n ≤ 1 := (hδ.eventually (gt_mem_nhds one_pos)).mono fun n h => h.le
  have hM : ∀ᶠ n in atTop, ∀ j ≤ k n,
      |q n j| ≤ qc V.RN B ((W + 1) * P.Vref) + qr V.RN B ((W + 1) * P.Vref) := by
    filter_upwards [ev1, ev2] with n hn1 hn2 j hj
    obtain ⟨p, hp, hmem, hp1⟩ := hgrid n j hj
    obtain ⟨hnear, htop, hv0⟩ := hsamp n p hmem
    have hl := hlow n j p hj hn1 hp hmem hp1
    simp only [hq, hp, Option.map_some, Option.getD_some, heatAt]
    rw [← hPdef, hrho _ (by linarith) htop]
    have hd0 : 0 ≤ P.density V.atm (p.2.r * P.RP - P.RP) :=
      ((C85_density_positive name F hF P hP V.atm hatm _).mpr htop).le
    have hdB : P.density V.atm (p.2.r * P.RP - P.RP) ≤ B := (le_abs_self _).trans (hB _ hl)
    have hvW : p.2.v ≤ W + 1 := by
      have h1 := (abs_le.mp hnear.v).2
      have h2 := hW p.1 (by rw [hp1]; exact htime n j hj)
      rw [Real.norm_eq_abs] at h2
      linarith [le_abs_self (y p.1).v]
    have hvV : 0 ≤ p.2.v * P.Vref := by positivity
    have hvV' : p.2.v * P.Vref ≤ (W + 1) * P.Vref := by gcongr
    rw [abs_of_nonneg (add_nonneg (c1 _ _ hd0 hvV) (r1 _ _ hd0 hvV))]
    exact add_le_add ((c3 _ _ _ hd0 hdB hvV).trans (c4 _ _ _ hB0 hvV hvV'))
      ((r3 _ _ _ hd0 hdB hvV).trans (r4 _ _ _ hB0 hvV hvV'))
  rw [show J = fun n => ∑ j ∈ Finset.range (k n), dt n * (q n j + q n (j + 1)) / 2 from funext hJq]
  refine trapezoid_limit _ _ tEnd dt hdt hdt0 q k hT hkl hM ?_
  filter_upwards [hae] with s hs hin j hj hjs
  obtain ⟨htop, hjump⟩ := hs hin
  have hsI : s / P.tau ∈ Set.Icc 0 (tEnd / P.tau) :=
    ⟨div_nonneg hin.1.le htau.le, div_le_div_of_nonneg_right hin.2.le htau.le⟩
  have hsN : Set.Icc 0 (tEnd / P.tau) ∈ 𝓝 (s / P.tau) :=
    Icc_mem_nhds (div_pos hin.1 htau) (div_lt_div_of_pos_right hin.2 htau)
  have hjt : Tendsto (fun n => (j n : ℝ) * dt n / P.tau) atTop (𝓝 (s / P.tau)) := hjs.div_const _
  have lim : ∀ (g : FState → ℝ), ContinuousOn (fun t => g (y t)) (Set.Icc 0 (tEnd / P.tau)) →
      (∀ a b x, Near x a b → |g a - g b| ≤ x) →
      Tendsto (fun n => (((S n)[j n]?).map fun p => g p.2).getD (g (y (s / P.tau)))) atTop (𝓝 (g (y (s / P.tau)))) := by
    intro g hg hnear
    have t1 : Tendsto (fun n => g (y ((j n : ℝ) * dt n / P.tau))) atTop (𝓝 (g (y (s / P.tau)))) :=
      ((hg _ hsI).continuousAt hsN).tendsto.comp hjt
    have t2 : Tendsto (fun n => (((S n)[j n]?).map fun p => g p.2).getD (g (y (s / P.tau))) -
        g (y ((j n : ℝ) * dt n / P.tau))) atTop (𝓝 0) := by
      refine squeeze_zero_norm' ?_ hδ
      filter_upwards [hj] with n hn
      obtain ⟨p, hp, hmem, hp1⟩ := hgrid n (j n) hn
      rw [hp, Option.map_some, Option.getD_some, Real.norm_eq_abs, ← hp1]
      exact hnear _ _ _ (hsamp n p hmem).1
    simpa using t2.add t1
  have lr := lim (fun s => s.r) hcr fun a b x hn => hn.r
  have lv := lim (fun s => s.v) hcv fun a b x hn => hn.v
  -- density and heat rate
  have hlow0 := hreg _ hsI
  obtain ⟨ra, hra, rb, hrb, e0, e1⟩ := table_covers hF hP
  have hdc : ContinuousAt V.atm.densityInt ((y (s / P.tau)).r * P.RP - P.RP) :=
    (Spline.interp_contDiffAt hatm.2.2.1 (List.mem_map.mpr ⟨ra, hra, rfl⟩) (List.mem_map.mpr ⟨rb, hrb, rfl⟩)
      (lt_of_le_of_lt e0 (by linarith)) (lt_of_lt_of_le htop e1)).continuousAt
  have ld := hdc.tendsto.comp ((lr.mul_const P.RP).sub_const P.RP)
  have lq := (heat_continuousAt name P hP hc hr V.RN _ _ hjump).tendsto.comp (ld.prodMk_nhds (lv.mul_const P.Vref))
  have ed : V.atm.densityInt ((y (s / P.tau)).r * P.RP - P.RP) = P.density V.atm ((y (s / P.tau)).r * P.RP - P.RP) := by
    unfold Planet.density
    rw [if_pos ⟨by linarith, htop.le⟩]
  rw [ed] at lq
  refine lq.congr' ?_
  filter_upwards [hj] with n hn
  obtain ⟨p, hp, -, -⟩ := hgrid n (j n) hn
  simp only [Function.comp_apply, hp, Option.map_some, Option.getD_some, hq, heatAt]
  rfl

/-- C105 for the exact flight: it suffices that the samples of the runs follow, up to errors tending to zero, curves that
obey the equations of motion up to defects tending to zero. -/
theorem C105_heat_load_of_flight (name : String) (F : AtmFile) (hF : (name, F) ∈ shippedFiles) (P : Planet)
    (hP : Planet.init name = .ok P) (atm : Atmosphere) (hatm : LoadedCubic P F.km (fileRows F) atm)
    (m beta LD A alpha RN : ℝ) (u : Bool) (f : ℝ → ℝ) (st : InitState) (hf : u = true → ContDiff ℝ 1 f) (hRN : 0 < RN)
    (mode : ScipyMode) (deltaDeg tEnd : ℝ) (hT : 0 ≤ tEnd) (y : ℝ → FState) (S : Finset ℝ)
    (hy : SwitchedFlight (fun t s => (Vehicle.mk' m beta LD A alpha RN P atm u f st).EOM s t (deltaDeg * π / 180.0)) y 0
      (tEnd / P.tau) S)
    (hreg : ∀ t ∈ Set.Icc 0 (tEnd / P.tau), Departure P (y t))
    (hae : ∀ᵐ s ∂(volume : Measure ℝ), s ∈ Set.Ioo 0 tEnd →
      (y (s / P.tau)).r * P.RP - P.RP < P.hThres ∧ (y (s / P.tau)).v * P.Vref ∉ jumpSpeeds P.ID)
    (I : ℕ → Integrator) (tSec dt δ : ℕ → ℝ) (out : ℕ → PropOut) (k : ℕ → ℕ) (J : ℕ → ℝ) (z : ℕ → ℝ → FState)
    (S' : ℕ → Finset ℝ)
    (hI : ∀ n, OdeintLike (I n)) (hts : ∀ n, 0 ≤ tSec n) (hdt : ∀ n, 0 < dt n) (hdt0 : Tendsto dt atTop (𝓝 0))
    (hδ : Tendsto δ atTop (𝓝 0))
    (hz : ∀ n, NearFlight (fun t s => (Vehicle.mk' m beta LD A alpha RN P atm u f st).EOM s t (deltaDeg * π / 180.0)) (z n) 0
      (tEnd / P.tau) (S' n) (δ n)) (hz0 : ∀ n, Near (δ n) (z n 0) (y 0))
    (hrun : ∀ n, (Vehicle.mk' m beta LD A alpha RN P atm u f st).propogateEntry mode (I n) (tSec n) (dt n) deltaDeg
      = .ok (out n))
    (hk : ∀ n, k n < (out n).index) (hkT : ∀ n, k n * dt n ≤ tEnd) (hkl : Tendsto (fun n => k n * dt n) atTop (𝓝 tEnd))
    (hsamp : ∀ n, ∀ p ∈ (samples (Vehicle.mk' m beta LD A alpha RN P atm u f st) (I n) (tSec n) (dt n) deltaDeg).take
      (k n + 1), Near (δ n) p.2 (z n p.1) ∧ p.2.r * P.RP - P.RP ≤ P.hThres ∧ 0 ≤ p.2.v)
    (hJ : ∀ n, (out n).heatload[k n]? = some (J n)) :
    ∃ qc qr, qConvFn P.ID = some qc ∧ qRadFn P.ID = some qr ∧
      Tendsto J atTop (𝓝 (∫ s in (0:ℝ)..tEnd,
        (qc RN (P.density atm ((y (s / P.tau)).r * P.RP - P.RP)) ((y (s / P.tau)).v * P.Vref) +
          qr RN (P.density atm ((y (s / P.tau)).r * P.RP - P.RP)) ((y (s / P.tau)).v * P.Vref)))) := by
  obtain ⟨_, hR, _, _, _, _, _, _, _, htau, _⟩ := C01_planet_consistent name P hP
  have hT' : 0 ≤ tEnd / P.tau := by positivity
  obtain ⟨C, ρ, hC, hρ, hclose⟩ := C102_errors_grow_linearly name F hF P hP atm hatm m beta LD A alpha RN u f st hf
    (deltaDeg * π / 180.0) _ hT' y S hy hreg
  have halt : ContinuousOn (fun t => (y t).r * P.RP - P.RP) (Set.Icc 0 (tEnd / P.tau)) :=
    (hy.r.mul continuousOn_const).sub continuousOn_const
  obtain ⟨t₀, ht₀, hmin⟩ := isCompact_Icc.exists_isMinOn (Set.nonempty_Icc.mpr hT') halt
  obtain ⟨N, hN⟩ := eventually_atTop.mp (hδ.eventually (gt_mem_nhds hρ))
  have hδ0 : ∀ n, 0 ≤ δ n := fun n => (abs_nonneg _).trans (hz0 n).r
  have hsh : ∀ {g : ℕ → ℝ} {a : ℝ}, Tendsto g atTop (𝓝 a) → Tendsto (fun n => g (n + N)) atTop (𝓝 a) := fun h =>
    h.comp (tendsto_add_atTop_nat N)
  have hs : ∀ n, ∀ p ∈ (samples (Vehicle.mk' m beta LD A alpha RN P atm u f st) (I (n + N)) (tSec (n + N)) (dt (n + N))
      deltaDeg).take (k (n + N) + 1), Near ((1 + 3 * C) * δ (n + N)) p.2 (y p.1) ∧ p.2.r * P.RP - P.RP ≤ P.hThres ∧
      0 ≤ p.2.v := by
    intro n p hmem
    obtain ⟨h1, h2, h3⟩ := hsamp (n + N) p hmem
    refine ⟨?_, h2, h3⟩
    have hn := (hN (n + N) (by omega)).le
    -- the time of the sample lies on the grid
    have hp1 : p.1 ∈ Set.Icc 0 (tEnd / P.tau) := by
      obtain ⟨j, hj⟩ := List.mem_iff_getElem?.mp hmem
      have hjk : j < k (n + N) + 1 := by
        by_contra hh
        rw [List.getElem?_take_eq_none (by omega)] at hj
        simp at hj
      rw [List.getElem?_take_of_lt hjk] at hj
      obtain ⟨i1, -⟩ := hI (n + N) (fun t s => (Vehicle.mk' m beta LD A alpha RN P atm u f st).EOM s t (deltaDeg * π / 180.0))
        (P.nonDimState (Vehicle.entryState P st)) (Vehicle.tGrid P (tSec (n + N)) (dt (n + N)))
      have i1' : (samples (Vehicle.mk' m beta LD A alpha RN P atm u f st) (I (n + N)) (tSec (n + N)) (dt (n + N))
        deltaDeg).map Prod.fst = Vehicle.tGrid P (tSec (n + N)) (dt (n + N)) := i1
      obtain ⟨g1, g2⟩ := tGrid_get name P hP (tSec (n + N)) (dt (n + N)) (hts _) (hdt _)
      have hjl := (List.getElem?_eq_some_iff.mp hj).1
      have hl := congrArg List.length i1'
      rw [List.length_map, g1] at hl
      have e := g2 j (by omega)
      rw [← i1', List.getElem?_map, hj] at e
      rw [show p.1 = j * dt (n + N) / P.tau from Option.some.inj e]
      have hd := (hdt (n + N)).le
      refine ⟨by positivity, div_le_div_of_nonneg_right (le_trans ?_ (hkT (n + N))) htau.le⟩
      have : (j:ℝ) ≤ k (n + N) := by exact_mod_cast Nat.lt_succ_iff.mp hjk
      gcongr
    have h4 := hclose (z (n + N)) _ _ _ _ hT' le_rfl (hδ0 _) hn hn (hz0 _) (hz _) p.1 hp1
    rw [near_iff] at h1 h4 ⊢
    have h5 := norm_sub_le_norm_sub_add_norm_sub p.2.toR7 (z (n + N) p.1).toR7 (y p.1).toR7
    linarith
  obtain ⟨qc, qr, hc, hr, hlim⟩ := C105_heat_load_converges name F hF P hP atm hatm
    (Vehicle.mk' m beta LD A alpha RN P atm u f st) rfl rfl hRN mode deltaDeg y tEnd _ hT (hreg t₀ ht₀).alt hy.r hy.v
    (fun t ht => hmin ht) hae (fun n => I (n + N)) (fun n => tSec (n + N)) (fun n => dt (n + N))
    (fun n => (1 + 3 * C) * δ (n + N)) (fun n => out (n + N)) (fun n => k (n + N)) (fun n => J (n + N))
    (fun n => hI _) (fun n => hts _) (fun n => hdt _) (hsh hdt0) (by simpa using (hsh hδ).const_mul (1 + 3 * C))
    (fun n => hrun _) (fun n => hk _) (fun n => hkT _) (hsh hkl) hs (fun n => hJ _)
  exact ⟨qc, qr, hc, hr, (tendsto_add_atTop_iff_nat N).mp hlim⟩

/-- C105, why the speeds of `jumpSpeeds` are excluded: in air of any density the radiative heat rate at the Earth jumps from
zero to a positive value at 9 km/s. -/
theorem C105_earth_rate_jumps (RN rho : ℝ) (hRN : 0 < RN) (hrho : 0 < rho) :
    ∃ qr, qRadFn "EARTH" = some qr ∧ 0 < qr RN rho 9000 ∧ ∀ v < 9000, qr RN rho v = 0 := by
  refine ⟨_, rfl, ?_, fun v hv => ?_⟩
  · have h : earthFV 9000 = 1.5 := by
      rw [earthFV_ramps le_rfl]
      norm_num
    simp only [h]
    positivity
  · have h : earthFV v = 0 := by
      unfold earthFV interpSorted earthRadNodes
      simp only [List.head?_cons, List.getLast?_cons_cons, List.getLast?_singleton]
      rw [if_pos hv]
    simp only [h, mul_zero]

/-- Case: a nose radius of 1 m in air of 1e-4 kg/m³. -/
example : ∃ qr, qRadFn "EARTH" = some qr ∧ 0 < qr 1 0.0001 9000 ∧ qr 1 0.0001 8999 = 0 := by
  obtain ⟨qr, h, hp, hz⟩ := C105_earth_rate_jumps 1 0.0001 (by norm_num) (by norm_num)
  exact ⟨qr, h, hp, hz 8999 (by norm_num)⟩

/-! ### Case -/

/-- An integrator that returns the initial state and then the points of a given curve. -/
def traceIntegrator (y : ℝ → FState) : Integrator := fun _ y0 grid =>
  match grid with
  | [] => []
  | t :: ts => (t, y0) :: ts.map fun u => (u, y u)

theorem traceIntegrator_ok (y : ℝ → FState) : OdeintLike (traceIntegrator y) := by
  intro f y0 grid
  cases grid with
  | nil => simp [traceIntegrator]
  | cons t ts => simp [traceIntegrator, Function.comp_def]

/-- The flight of `mars_reference` sampled exactly with the steps `dt / (n + 1)`, and the runs that result. -/
theorem mars_runs (u : Bool) : ∃ (P : Planet) (atm : Atmosphere) (y : ℝ → FState) (S : Finset ℝ) (dt : ℝ) (out : ℕ → PropOut),
    Planet.init "MARS" = .ok P ∧ LoadedCubic P mars.km (fileRows mars) atm ∧ 0 < dt ∧
    SwitchedFlight (fun t s => (Vehicle.mk' 1000 100 0.2 10 0 1 P atm u demoCurve ⟨100, 0, 0, 4, 0, -10, 0, 0⟩).EOM s t
      (60 * π / 180.0)) y 0 (dt / P.tau) S ∧
    (∀ t ∈ Set.Icc 0 (dt / P.tau), Safe P 49999 100001 0.1 2.4 0.1 1 (y t)) ∧
    (∀ (n : ℕ), ∀ p ∈ samples (Vehicle.mk' 1000 100 0.2 10 0 1 P atm u demoCurve ⟨100, 0, 0, 4, 0, -10, 0, 0⟩)
      (traceIntegrator y) dt (dt / (n + 1 : ℕ)) 60, p.2 = y p.1 ∧ Safe P 49999 100001 0.1 2.4 0.1 1 p.2) ∧
    (∀ n : ℕ, (Vehicle.mk' 1000 100 0.2 10 0 1 P atm u demoCurve ⟨100, 0, 0, 4, 0, -10, 0, 0⟩).propogateEntry .strict
      (traceIntegrator y) dt (dt / (n + 1 : ℕ)) 60 = .ok (out n)) ∧ ∀ n, (out n).index = n + 2 := by
  obtain ⟨P, atm, y, S, dt, hP, hatm, hdt, y0, hy, hsafe, -⟩ := mars_reference u
  obtain ⟨_, hR, _, _, _, _, _, _, hVr, htau, _⟩ := C01_planet_consistent "MARS" P hP
  have hSk : P.hSkip = 120000 := by simp [Planet.init] at hP; subst hP; norm_num [Planet.withScales]
  have hTr : P.hTrap = 10000 := by simp [Planet.init] at hP; subst hP; norm_num [Planet.withScales]
  set V := Vehicle.mk' 1000 100 0.2 10 0 1 P atm u demoCurve ⟨100, 0, 0, 4, 0, -10, 0, 0⟩ with hVdef
  have hle : dt / P.tau ≤ (dt + dt) / P.tau := div_le_div_of_nonneg_right (by linarith) htau.le
  have hd : ∀ n : ℕ, 0 < dt / (n + 1 : ℕ) := fun n => by positivity
  have hceil : ∀ n : ℕ, ⌈dt / (dt / (n + 1 : ℕ))⌉₊ = n + 1 := fun n => by
    rw [div_div_cancel₀ hdt.ne', Nat.ceil_natCast]
  have hg := fun n : ℕ => tGrid_get "MARS" P hP dt (dt / (n + 1 : ℕ)) hdt.le (hd n)
  have hkd : ∀ n : ℕ, ((n + 1 : ℕ) : ℝ) * (dt / (n + 1 : ℕ)) = dt := fun n => mul_div_cancel₀ _ (by positivity)
  -- the samples
  have hsam : ∀ n : ℕ, samples V (traceIntegrator y) dt (dt / (n + 1 : ℕ)) 60 =
      (Vehicle.tGrid P dt (dt / (n + 1 : ℕ))).map fun t => (t, y t) := by
    intro n
    obtain ⟨g1, g2⟩ := hg n
    have g0 := g2 0 (by omega)
    unfold samples traceIntegrator
    change (match Vehicle.tGrid P dt (dt / (n + 1 : ℕ)) with
      | [] => []
      | t :: ts => (t, P.nonDimState (Vehicle.entryState P ⟨100, 0, 0, 4, 0, -10, 0, 0⟩)) :: ts.map fun u => (u, y u)) = _
    cases hgr : Vehicle.tGrid P dt (dt / (n + 1 : ℕ)) with
    | nil => rw [hgr] at g1; simp at g1
    | cons t ts =>
      rw [hgr] at g0
      simp only [List.getElem?_cons_zero, Nat.cast_zero, zero_mul, zero_div, Option.some.injEq] at g0
      subst g0
      rw [List.map_cons, ← y0]
  have hmem : ∀ (n : ℕ), ∀ t ∈ Vehicle.tGrid P dt (dt / (n + 1 : ℕ)), t ∈ Set.Icc 0 (dt / P.tau) := by
    intro n t ht
    obtain ⟨g1, g2⟩ := hg n
    obtain ⟨j, hj⟩ := List.mem_iff_getElem?.mp ht
    have hjl := (List.getElem?_eq_some_iff.mp hj).1
    rw [g1] at hjl
    rw [g2 j hjl] at hj
    rw [hceil] at hjl
    obtain rfl := Option.some.inj hj
    refine ⟨by positivity, div_le_div_of_nonneg_right ?_ htau.le⟩
    have : (j:ℝ) ≤ (n + 1 : ℕ) := by exact_mod_cast Nat.lt_succ_iff.mp hjl
    calc (j:ℝ) * (dt / (n + 1 : ℕ)) ≤ (n + 1 : ℕ) * (dt / (n + 1 : ℕ)) := by gcongr
      _ = dt := hkd n
  have hsf : ∀ t ∈ Set.Icc 0 (dt / P.tau), Safe P 49999 100001 0.1 2.4 0.1 1 (y t) := fun t ht =>
    hsafe t ⟨ht.1, ht.2.trans hle⟩
  have hsm : ∀ (n : ℕ), ∀ p ∈ samples V (traceIntegrator y) dt (dt / (n + 1 : ℕ)) 60, p.2 = y p.1 ∧
      Safe P 49999 100001 0.1 2.4 0.1 1 p.2 := by
    intro n p hp
    rw [hsam] at hp
    obtain ⟨t, ht, rfl⟩ := List.mem_map.mp hp
    exact ⟨rfl, hsf t (hmem n t ht)⟩
  -- the runs
  have hrun : ∀ n : ℕ, ∃ out, V.propogateEntry .strict (traceIntegrator y) dt (dt / (n + 1 : ℕ)) 60 = .ok out ∧
      out.index = n + 2 := by
    intro n
    obtain ⟨g1, g2⟩ := hg n
    have hlen : (samples V (traceIntegrator y) dt (dt / (n + 1 : ℕ)) 60).length = n + 2 := by
      rw [hsam, List.length_map, g1, hceil]
    have hall := hsm n
    cases hsp : samples V (traceIntegrator y) dt (dt / (n + 1 : ℕ)) 60 with
    | nil => rw [hsp] at hlen; simp at hlen
    | cons p Q =>
      have hp := (hall p (by rw [hsp]; exact List.mem_cons_self)).2
      have hVP : V.planet = P := rfl
      obtain ⟨out, ho⟩ := C24_returns_inside "MARS" V hP .strict (traceIntegrator y) dt (dt / (n + 1 : ℕ)) 60 p Q hsp
        (by rw [hVP, hTr]; linarith [hp.low]) (by rw [hVP, hSk]; linarith [hp.high]) (by
          rintro ⟨⟨r, hr, hr1⟩, -⟩
          have := (hall r (by rw [hsp]; exact hr)).2.low
          rw [hVP, hTr] at hr1
          linarith)
      refine ⟨out, ho, ?_⟩
      have hpp : V.postProcess .strict (TrajArrays.ofSamples (samples V (traceIntegrator y) dt (dt / (n + 1 : ℕ)) 60))
        (60 * π / 180.0) 0 = .ok out := ho
      obtain ⟨idx, flag, qc, qr, heat, hc, -, -, -, rfl⟩ := postProcess_inv hpp
      have hrr : (V.planet.dimensionalizeArr (TrajArrays.ofSamples (samples V (traceIntegrator y) dt (dt / (n + 1 : ℕ))
          60))).r = (samples V (traceIntegrator y) dt (dt / (n + 1 : ℕ)) 60).map (fun p => p.2.r * P.RP) := by
        simp [Planet.dimensionalizeArr, TrajArrays.ofSamples, Function.comp_def, hVP]
      rw [hrr, hVP] at hc
      have hne : ((samples V (traceIntegrator y) dt (dt / (n + 1 : ℕ)) 60).map fun p => p.2.r * P.RP).map P.computeH ≠ [] := by
        rw [hsp]; simp
      obtain ⟨M, hM, hMm, -⟩ := pyMax_spec hne
      obtain ⟨mm, hm, hmm, -⟩ := pyMin_spec hne
      simp only [List.map_map, List.mem_map, Function.comp_apply, Planet.computeH] at hMm hmm
      obtain ⟨r, hr, hr1⟩ := hMm
      obtain ⟨r', hr', hr1'⟩ := hmm
      have a1 := (hall r hr).2.high
      have a2 := (hall r' hr').2.low
      rw [classify_eq P hM hm, if_neg (by rw [hSk]; rintro ⟨-, h⟩; linarith),
        if_pos ⟨by rw [hTr]; linarith, by rw [hSk]; linarith⟩] at hc
      have := congrArg Prod.fst (Except.ok.inj hc)
      simp only [List.length_map, hlen] at this
      exact this.symm
  choose out hout hidx using hrun
  exact ⟨P, atm, y, S, dt, out, hP, hatm, hdt, flight_mono hy le_rfl hle, hsf, hsm, hout, hidx⟩

/-- Case for `C105_heat_load_converges` and `C105_heat_load_of_flight`: the flight of `mars_reference` (100 km above Mars),
sampled exactly with the steps `dt / (n + 1)`; the last entries of the heat-load histories tend to the integral. -/
example : ∃ (P : Planet) (atm : Atmosphere) (y : ℝ → FState) (dt : ℝ) (out : ℕ → PropOut) (J : ℕ → ℝ) (q : ℝ → ℝ),
    Planet.init "MARS" = .ok P ∧ LoadedCubic P mars.km (fileRows mars) atm ∧ 0 < dt ∧
    (∀ n : ℕ, (Vehicle.mk' 1000 100 0.2 10 0 1 P atm true demoCurve ⟨100, 0, 0, 4, 0, -10, 0, 0⟩).propogateEntry .strict
      (traceIntegrator y) dt (dt / (n + 1 : ℕ)) 60 = .ok (out n)) ∧
    (∀ n, (out n).heatload.getLast? = some (J n)) ∧ Tendsto J atTop (𝓝 (∫ s in (0:ℝ)..dt, q s)) := by
  obtain ⟨P, atm, y, S, dt, out, hP, hatm, hdt, hyT, hsf, hsm, hout, hidx⟩ := mars_runs true
  have hF : ("MARS", mars) ∈ shippedFiles := by simp [shippedFiles]
  obtain ⟨hID, hR, _, _, _, _, _, _, hVr, htau, _⟩ := C01_planet_consistent "MARS" P hP
  have hTh : P.hThres = 120000 := by simp [Planet.init] at hP; subst hP; norm_num [Planet.withScales]
  set V := Vehicle.mk' 1000 100 0.2 10 0 1 P atm true demoCurve ⟨100, 0, 0, 4, 0, -10, 0, 0⟩ with hVdef
  have hd : ∀ n : ℕ, 0 < dt / (n + 1 : ℕ) := fun n => by positivity
  have hkd : ∀ n : ℕ, ((n + 1 : ℕ) : ℝ) * (dt / (n + 1 : ℕ)) = dt := fun n => mul_div_cancel₀ _ (by positivity)
  have hJex : ∀ n, ∃ x, (out n).heatload[n + 1]? = some x ∧ (out n).heatload.getLast? = some x := by
    intro n
    obtain ⟨-, -, -, -, -, -, -, -, -, -, hl, -⟩ := C24_arrays_aligned V .strict _ dt _ 60 (out n) (hout n)
    have h1 : (out n).heatload.length = n + 2 := by rw [hl (out n).heatload (by simp), hidx]
    refine ⟨(out n).heatload[n + 1], List.getElem?_eq_getElem (by omega), ?_⟩
    rw [List.getLast?_eq_getElem?, show (out n).heatload.length - 1 = n + 1 by omega]
    exact List.getElem?_eq_getElem (by omega)
  choose J hJ hJl using hJex
  obtain ⟨qc, qr, -, -, hlim⟩ := C105_heat_load_of_flight "MARS" mars hF P hP atm hatm 1000 100 0.2 10 0 1 true demoCurve
    ⟨100, 0, 0, 4, 0, -10, 0, 0⟩ (fun _ => demoCurve_smooth) one_pos .strict 60 dt hdt.le y S hyT
    (fun t ht => (hsf t ht).departure (by norm_num) (by norm_num) (by norm_num) (by norm_num))
    (by
      refine ae_of_all _ fun s hs => ?_
      have := hsf (s / P.tau) ⟨div_nonneg hs.1.le htau.le, div_le_div_of_nonneg_right hs.2.le htau.le⟩
      exact ⟨by rw [hTh]; linarith [this.high], by rw [hID]; simp [jumpSpeeds]⟩)
    (fun _ => traceIntegrator y) (fun _ => dt) (fun n => dt / (n + 1 : ℕ)) (fun _ => 0) out (fun n => n + 1) J (fun _ => y)
    (fun _ => S) (fun _ => traceIntegrator_ok y) (fun _ => hdt.le) hd
    (by
      have := tendsto_one_div_add_atTop_nhds_zero_nat (𝕜 := ℝ)
      have := this.const_mul dt
      rw [mul_zero] at this
      refine this.congr fun n => ?_
      push_cast
      ring)
    tendsto_const_nhds
    (fun _ => ⟨hyT.r, hyT.theta, hyT.phi, hyT.v, hyT.psi, hyT.gamma, hyT.drange, fun t ht hS =>
      ⟨V.EOM (y t) t (60 * π / 180.0), by
        have := hyT.solves t ht hS
        exact ⟨this.r, this.theta, this.phi, this.v, this.psi, this.gamma, this.drange⟩, by
        rw [near_iff, sub_self, norm_zero]⟩⟩)
    (fun _ => by rw [near_iff, sub_self, norm_zero]) hout (fun n => by rw [hidx]; omega) (fun n => (hkd n).le)
    (by simp only [hkd]; exact tendsto_const_nhds)
    (fun n p hp => by
      obtain ⟨h1, h2⟩ := hsm n p (List.mem_of_mem_take hp)
      refine ⟨by rw [h1, near_iff, sub_self, norm_zero], by rw [hTh]; linarith [h2.high], ?_⟩
      have := h2.slow
      norm_num at this
      linarith)
    hJ
  exact ⟨P, atm, y, dt, out, J, _, hP, hatm, hdt, hout, hJl, hlim⟩

end AMAT.Props
