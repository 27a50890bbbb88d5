import Mathlib.Tactic.FieldSimp
import Verif.Lemmas.Heating
import Verif.Lemmas.Trapz
import Verif.Props.TrajectoryProps

/-! Properties C25, C26, C27: stagnation-point heating and heat loads. -/

noncomputable section

open Classical Real

namespace AMAT.Props

open AMAT Lits

/-! ### C25 -/

/-- Specification of a physically sensible heat-rate law `q(RN, ρ, v)`: non-negative, zero in vacuum, non-decreasing
in density and in speed. -/
def Spec.HeatLaw (q : ℝ → ℝ → ℝ → ℝ) : Prop :=
  ∀ RN, 0 < RN →
    (∀ rho v, 0 ≤ rho → 0 ≤ v → 0 ≤ q RN rho v) ∧
    (∀ v, 0 ≤ v → q RN 0 v = 0) ∧
    (∀ rho rho' v, 0 ≤ rho → rho ≤ rho' → 0 ≤ v → q RN rho v ≤ q RN rho' v) ∧
    (∀ rho v v', 0 ≤ rho → 0 ≤ v → v ≤ v' → q RN rho v ≤ q RN rho v')

/-- C25: for each of the eight bodies the convective rate is a sensible heat-rate law, strictly positive for positive
density and speed, and strictly decreasing in the nose radius there; the radiative rate is a sensible heat-rate law. -/
theorem C25_heat_laws (name : String) (P : Planet) (hP : Planet.init name = .ok P) :
    ∃ qc qr, qConvFn P.ID = some qc ∧ qRadFn P.ID = some qr ∧ Spec.HeatLaw qc ∧ Spec.HeatLaw qr ∧
      (∀ RN RN' rho v, 0 < RN → RN < RN' → 0 < rho → 0 < v → 0 < qc RN' rho v ∧ qc RN' rho v < qc RN rho v) := by
  have e := (C01_planet_consistent name P hP).1
  have hs := (C01_planet_names name).1.mp ⟨_, hP⟩
  rw [e]
  -- Sutton-Graves form
  have sg : ∀ k : ℝ, 0 < k → Spec.HeatLaw (fun RN rho v => k * (rho / RN) ^ (0.5:ℝ) * v ^ (3.0:ℝ)) ∧
      (∀ RN RN' rho v : ℝ, 0 < RN → RN < RN' → 0 < rho → 0 < v →
        0 < k * (rho / RN') ^ (0.5:ℝ) * v ^ (3.0:ℝ) ∧
        k * (rho / RN') ^ (0.5:ℝ) * v ^ (3.0:ℝ) < k * (rho / RN) ^ (0.5:ℝ) * v ^ (3.0:ℝ)) := by
    intro k hk
    constructor
    · intro RN hRN
      refine ⟨fun rho v h1 h2 => by positivity, fun v hv => ?_, fun rho rho' v h1 h2 h3 => by dsimp only; gcongr,
        fun rho v v' h1 h2 h3 => by dsimp only; gcongr⟩
      dsimp only; rw [zero_div, Real.zero_rpow (by norm_num)]; simp
    · intro RN RN' rho v h1 h2 h3 h4
      have hRN' : 0 < RN' := h1.trans h2
      refine ⟨by positivity, ?_⟩
      have : (rho / RN') ^ (0.5:ℝ) < (rho / RN) ^ (0.5:ℝ) := by
        apply Real.rpow_lt_rpow (by positivity) _ (by norm_num)
        exact div_lt_div_of_pos_left h3 h1 h2
      gcongr
  -- ice giants
  have ig : Spec.HeatLaw (fun RN rho v =>
      2.24008E-7 * rho ^ (0.452130:ℝ) * v ^ (2.691800:ℝ) * Real.sqrt (0.291 / RN)) ∧
      (∀ RN RN' rho v : ℝ, 0 < RN → RN < RN' → 0 < rho → 0 < v →
        0 < 2.24008E-7 * rho ^ (0.452130:ℝ) * v ^ (2.691800:ℝ) * Real.sqrt (0.291 / RN') ∧
        2.24008E-7 * rho ^ (0.452130:ℝ) * v ^ (2.691800:ℝ) * Real.sqrt (0.291 / RN') <
        2.24008E-7 * rho ^ (0.452130:ℝ) * v ^ (2.691800:ℝ) * Real.sqrt (0.291 / RN)) := by
    constructor
    · intro RN hRN
      refine ⟨fun rho v h1 h2 => by positivity, fun v hv => ?_, fun rho rho' v h1 h2 h3 => by dsimp only; gcongr,
        fun rho v v' h1 h2 h3 => by dsimp only; gcongr⟩
      dsimp only; rw [Real.zero_rpow (by norm_num)]; simp
    · intro RN RN' rho v h1 h2 h3 h4
      have hRN' : 0 < RN' := h1.trans h2
      refine ⟨by positivity, ?_⟩
      have : √(0.291 / RN') < √(0.291 / RN) := by
        apply Real.sqrt_lt_sqrt (by positivity)
        exact div_lt_div_of_pos_left (by norm_num) h1 h2
      gcongr
  have zero : Spec.HeatLaw (fun _ _ _ => 0) := by
    intro RN _; simp
  have venus : Spec.HeatLaw (fun RN rho v =>
      if v < 8000 then 3.33E-34 * v ^ (10.0:ℝ) * rho ^ (1.2:ℝ) * RN ^ (0.49:ℝ)
      else if 8000 ≤ v ∧ v < 10000 then 1.22E-16 * v ^ (5.5:ℝ) * rho ^ (1.2:ℝ) * RN ^ (0.49:ℝ)
      else 3.07E-48 * v ^ (13.4:ℝ) * rho ^ (1.2:ℝ) * RN ^ (0.49:ℝ)) := by
    have e2 : (fun RN rho v : ℝ =>
      if v < 8000 then 3.33E-34 * v ^ (10.0:ℝ) * rho ^ (1.2:ℝ) * RN ^ (0.49:ℝ)
      else if 8000 ≤ v ∧ v < 10000 then 1.22E-16 * v ^ (5.5:ℝ) * rho ^ (1.2:ℝ) * RN ^ (0.49:ℝ)
      else 3.07E-48 * v ^ (13.4:ℝ) * rho ^ (1.2:ℝ) * RN ^ (0.49:ℝ)) =
      fun RN rho v => venusG v * rho ^ (1.2:ℝ) * RN ^ (0.49:ℝ) := by
      funext RN rho v; unfold venusG; split_ifs <;> rfl
    rw [e2]
    intro RN hRN
    refine ⟨fun rho v h1 h2 => ?_, fun v hv => ?_, fun rho rho' v h1 h2 h3 => ?_,
        fun rho v v' h1 h2 h3 => ?_⟩
    · have := venusG_nonneg h2; positivity
    · simp only [Real.zero_rpow (show (1.2:ℝ) ≠ 0 by norm_num), mul_zero, zero_mul]
    · have := venusG_nonneg h3; dsimp only; gcongr
    · have := venusG_mono h2 h3; dsimp only; gcongr
  have earth : Spec.HeatLaw (fun RN rho v => 4.736E4 * RN ^ (0.6:ℝ) * rho ^ (1.22:ℝ) * earthFV v) := by
    intro RN hRN
    refine ⟨fun rho v h1 h2 => ?_, fun v hv => ?_, fun rho rho' v h1 h2 h3 => ?_,
        fun rho v v' h1 h2 h3 => ?_⟩
    · have := earthFV_nonneg v; positivity
    · dsimp only; rw [Real.zero_rpow (by norm_num)]; simp
    · have := earthFV_nonneg v; dsimp only; gcongr
    · have := earthFV_mono h3; dsimp only; gcongr
  have gas : Spec.HeatLaw (fun RN rho v =>
      (9.7632379E-40 * (2 * RN) ^ (-0.17905:ℝ) * rho ^ (1.763827469:ℝ) * v ^ (10.993852:ℝ)) * 1E3 / 1E4) := by
    intro RN hRN
    refine ⟨fun rho v h1 h2 => by positivity, fun v hv => ?_, fun rho rho' v h1 h2 h3 => by dsimp only; gcongr,
        fun rho v v' h1 h2 h3 => by dsimp only; gcongr⟩
    dsimp only; rw [Real.zero_rpow (by norm_num)]; simp
  have ice : Spec.HeatLaw (fun RN rho v =>
      8.125812E-3 * rho ^ (0.498140:ℝ) * (v / 10000) ^ (15.113:ℝ) * (RN / 0.291)) := by
    intro RN hRN
    refine ⟨fun rho v h1 h2 => by positivity, fun v hv => ?_, fun rho rho' v h1 h2 h3 => by dsimp only; gcongr,
        fun rho v v' h1 h2 h3 => by dsimp only; gcongr⟩
    dsimp only; rw [Real.zero_rpow (by norm_num)]; simp
  simp only [Spec.bodies, List.mem_cons, List.not_mem_nil, or_false] at hs
  rcases hs with rfl | rfl | rfl | rfl | rfl | rfl | rfl | rfl
  · exact ⟨_, _, rfl, rfl, (sg _ (by norm_num)).1, venus, (sg _ (by norm_num)).2⟩
  · exact ⟨_, _, rfl, rfl, (sg _ (by norm_num)).1, earth, (sg _ (by norm_num)).2⟩
  · exact ⟨_, _, rfl, rfl, (sg _ (by norm_num)).1, zero, (sg _ (by norm_num)).2⟩
  · exact ⟨_, _, rfl, rfl, (sg _ (by norm_num)).1, gas, (sg _ (by norm_num)).2⟩
  · exact ⟨_, _, rfl, rfl, (sg _ (by norm_num)).1, gas, (sg _ (by norm_num)).2⟩
  · exact ⟨_, _, rfl, rfl, (sg _ (by norm_num)).1, zero, (sg _ (by norm_num)).2⟩
  · exact ⟨_, _, rfl, rfl, ig.1, ice, ig.2⟩
  · exact ⟨_, _, rfl, rfl, ig.1, ice, ig.2⟩

/-- Case for `C25_heat_laws`: at Uranus a nose radius of 2 m heats less than one of 1 m. -/
example : ∃ (P : Planet) (qc : ℝ → ℝ → ℝ → ℝ), Planet.init "URANUS" = .ok P ∧ qConvFn P.ID = some qc ∧
    qc 2 1e-4 20000 < qc 1 1e-4 20000 := by
  obtain ⟨P, hP⟩ := (C01_planet_names "URANUS").1.mpr (by simp [Spec.bodies])
  obtain ⟨qc, qr, h1, -, -, -, h5⟩ := C25_heat_laws "URANUS" P hP
  exact ⟨P, qc, hP, h1, (h5 1 2 1e-4 20000 one_pos (by norm_num) (by norm_num) (by norm_num)).2⟩

/-- C25 on arrays: for a supported body, a positive nose radius and arrays of equal length whose densities and speeds
are non-negative, the total heating is computed (no exception), is non-negative at every point, and is zero at every
point where the density is zero. -/
theorem C25_total_array (name : String) (V : Vehicle) (hP : Planet.init name = .ok V.planet) (hRN : 0 < V.RN)
    (r v : List ℝ) (hlen : r.length = v.length)
    (hrho : ∀ x ∈ r, 0 ≤ V.planet.rhoVec V.atm x) (hv : ∀ x ∈ v, 0 ≤ x) :
    ∃ q, V.qStagTotal r v = .ok q ∧ q.length = r.length ∧ (∀ x ∈ q, 0 ≤ x) ∧
      ∀ (i : ℕ) (x : ℝ), r[i]? = some x → V.planet.rhoVec V.atm x = 0 → q[i]? = some 0 := by
  obtain ⟨qc, qr, h1, h2, hc, hr, _⟩ := C25_heat_laws name V.planet hP
  obtain ⟨c1, c2, _, _⟩ := hc V.RN hRN
  obtain ⟨r1, r2, _, _⟩ := hr V.RN hRN
  have key : ∀ (i : ℕ) (x : ℝ), r[i]? = some x → ∃ w ∈ v, v[i]? = some w := by
    intro i x hx
    have hi : i < v.length := by rw [← hlen]; exact (List.getElem?_eq_some_iff.mp hx).1
    exact ⟨v[i], List.getElem_mem hi, List.getElem?_eq_getElem hi⟩
  refine ⟨_, by simp only [Vehicle.qStagTotal, Vehicle.qStagConvective, Vehicle.qStagRadiative, h1, h2,
    Option.map_some, needNumber, bind, Except.bind, pure, Except.pure]; rfl, by simp [hlen], ?_, ?_⟩
  · intro y hy
    obtain ⟨i, hi⟩ := List.mem_iff_getElem?.mp hy
    simp only [List.getElem?_zipWith] at hi
    cases hr' : r[i]? with
    | none => simp [hr'] at hi
    | some x =>
        obtain ⟨w, hw, hw'⟩ := key i x hr'
        simp only [hr', hw', Option.some.injEq] at hi
        rw [← hi]
        have hx := hrho x (List.mem_iff_getElem?.mpr ⟨i, hr'⟩)
        exact add_nonneg (c1 _ _ hx (hv w hw)) (r1 _ _ hx (hv w hw))
  · intro i x hx h0
    obtain ⟨w, hw, hw'⟩ := key i x hx
    simp only [List.getElem?_zipWith, hx, hw', h0, c2 w (hv w hw), r2 w (hv w hw), add_zero]

/-- Non-vacuity of C25: a Titan vehicle with two trajectory points, one of them in vacuum. -/
example : ∃ (V : Vehicle) (r v : List ℝ), Planet.init "TITAN" = .ok V.planet ∧ 0 < V.RN ∧ r.length = v.length ∧
    (∀ x ∈ r, 0 ≤ V.planet.rhoVec V.atm x) ∧ (∀ x ∈ v, 0 ≤ x) ∧
    ∃ (i : ℕ) (x : ℝ), r[i]? = some x ∧ V.planet.rhoVec V.atm x = 0 := by
  obtain ⟨P, hP⟩ := (C01_planet_names "TITAN").1.mpr (by simp [Spec.bodies])
  refine ⟨Vehicle.mk' 300 78 0 1 0 1 P ⟨fun h => |h|, fun _ => 1, fun _ => 1, fun _ => 1⟩ false (fun _ => 1)
    ⟨0, 0, 0, 0, 0, 0, 0, 0⟩, [P.RP, P.RP + 1], [100, 200], hP, by norm_num [Vehicle.mk'], rfl, ?_, ?_, 0, P.RP, rfl, ?_⟩
  · intro x _; exact abs_nonneg _
  · intro x hx; simp at hx; rcases hx with rfl | rfl <;> norm_num
  · simp [Planet.rhoVec, Vehicle.mk']

/-! ### C26 -/

theorem rnLoop_ok (mode : ScipyMode) (tc rc vc : List ℝ) (g : ℝ → ℝ × ℝ) (V W : Vehicle) (rn : List ℝ)
    (acc : List (ℝ × ℝ)) (hVW : ∀ R, ({ W with RN := R } : Vehicle) = { V with RN := R })
    (h : ∀ R ∈ rn, ({ V with RN := R } : Vehicle).rnPass mode tc rc vc = .ok (g R)) :
    ∃ R', Vehicle.rnLoop mode tc rc vc W rn acc = ({ W with RN := R' }, .ok (acc ++ rn.map g)) := by
  induction rn generalizing W acc with
  | nil => exact ⟨W.RN, by simp [Vehicle.rnLoop]⟩
  | cons R rn ih =>
      have h1 := h R (by simp)
      rw [← hVW R] at h1
      obtain ⟨R', h2⟩ := ih { W with RN := R } (acc ++ [g R]) (fun R => hVW R)
        (fun R hR => h R (List.mem_cons_of_mem _ hR))
      refine ⟨R', ?_⟩
      simp only [Vehicle.rnLoop, h1, h2, List.map_cons, List.append_assoc, List.cons_append, List.nil_append]

/-- C26: for a supported body and non-empty arrays of equal length, the sweep returns for every requested radius the
peak and the trapezoidal integral of the heat-rate history of the *same vehicle with that radius* — so the answer for
one radius does not depend on the others or on their order — and the vehicle is exactly as before. -/
theorem C26_sweep (name : String) (V : Vehicle) (hP : Planet.init name = .ok V.planet) (mode : ScipyMode)
    (tc rc vc rn : List ℝ) (hne : rc ≠ []) (h1 : rc.length = vc.length) (h2 : tc.length = rc.length) :
    ∃ g : ℝ → ℝ × ℝ, V.computeHeatingForMultipleRN mode tc rc vc rn = (V, .ok (rn.map g)) ∧
      ∀ R, ∃ q, ({ V with RN := R } : Vehicle).qStagTotal rc vc = .ok q ∧
        ((g R).1 ∈ q ∧ ∀ x ∈ q, x ≤ (g R).1) ∧ (g R).2 = Spec.trapz (List.zip tc q) := by
  obtain ⟨qc, qr, hc, hr, _⟩ := C25_heat_laws name V.planet hP
  have total : ∀ R, ∃ q, ({ V with RN := R } : Vehicle).qStagTotal rc vc = .ok q ∧ q.length = rc.length := by
    intro R
    refine ⟨_, by simp only [Vehicle.qStagTotal, Vehicle.qStagConvective, Vehicle.qStagRadiative, hc, hr,
      Option.map_some, needNumber, bind, Except.bind, pure, Except.pure]; rfl, by simp [h1]⟩
  have pass : ∀ R, ∃ m : ℝ × ℝ, ({ V with RN := R } : Vehicle).rnPass mode tc rc vc = .ok m ∧
      ∃ q, ({ V with RN := R } : Vehicle).qStagTotal rc vc = .ok q ∧
        (m.1 ∈ q ∧ ∀ x ∈ q, x ≤ m.1) ∧ m.2 = Spec.trapz (List.zip tc q) := by
    intro R
    obtain ⟨q, hq, hl⟩ := total R
    have hqne : q ≠ [] := by
      intro h0; rw [h0] at hl; simp at hl; exact hne (List.eq_nil_of_length_eq_zero hl.symm)
    obtain ⟨M, hM, hMm, hMub⟩ := pyMax_spec hqne
    have hz : (List.zip tc q).length = rc.length := by simp [h2, hl]
    have hzne : List.zip tc q ≠ [] := by
      intro h0; rw [h0] at hz; simp at hz; exact hne (List.eq_nil_of_length_eq_zero hz.symm)
    have hcum : cumTrapz mode (List.zip tc q) 0 = .ok (0 :: trapzFrom 0 (List.zip tc q)) := by
      cases hzz : List.zip tc q with
      | nil => exact absurd hzz hzne
      | cons a l => simp [cumTrapz]
    have hlen : (0 :: trapzFrom 0 (List.zip tc q)).length = (List.zip tc q).length := by
      have : 0 < (List.zip tc q).length := List.length_pos_of_ne_nil hzne
      simp [trapzFrom_length]; simp at this; omega
    have hlast : (0 :: trapzFrom 0 (List.zip tc q)).getLast? = some (Spec.trapz (List.zip tc q)) := by
      have hpos : 0 < (List.zip tc q).length := List.length_pos_of_ne_nil hzne
      rw [List.getLast?_eq_getElem?, hlen, cumsum_getElem? 0 _ _ (by omega), Nat.sub_add_cancel hpos,
        List.take_length, zero_add]
    refine ⟨(M, Spec.trapz (List.zip tc q)), ?_, q, hq, ⟨hMm, hMub⟩, rfl⟩
    simp only [Vehicle.rnPass, hq, hM, hcum, hlast, bind, Except.bind, pure, Except.pure]
  choose g hg using pass
  obtain ⟨R', hloop⟩ := rnLoop_ok mode tc rc vc g V V rn [] (fun _ => rfl) (fun R _ => (hg R).1)
  refine ⟨g, ?_, fun R => (hg R).2⟩
  simp only [Vehicle.computeHeatingForMultipleRN, hloop, List.nil_append]

/-- C26 (finding): when the trajectory arrays are empty the sweep raises `ValueError` and the vehicle is left with the
first requested nose radius instead of its own. -/
theorem C26_exception_leaves_radius (name : String) (V : Vehicle) (hP : Planet.init name = .ok V.planet)
    (mode : ScipyMode) (tc : List ℝ) (R : ℝ) (rn : List ℝ) :
    V.computeHeatingForMultipleRN mode tc [] [] (R :: rn) = ({ V with RN := R }, .error .valueError) := by
  obtain ⟨qc, qr, hc, hr, _⟩ := C25_heat_laws name V.planet hP
  simp [Vehicle.computeHeatingForMultipleRN, Vehicle.rnLoop, Vehicle.rnPass, Vehicle.qStagTotal,
    Vehicle.qStagConvective, Vehicle.qStagRadiative, hc, hr, needNumber, bind, Except.bind, pure, Except.pure, pyMax]

/-- Case for `C26_sweep`: the hypotheses. -/
example : ∃ (V : Vehicle) (tc rc vc : List ℝ), Planet.init "MARS" = .ok V.planet ∧ rc ≠ [] ∧
    rc.length = vc.length ∧ tc.length = rc.length := by
  obtain ⟨P, hP⟩ := (C01_planet_names "MARS").1.mpr (by simp [Spec.bodies])
  exact ⟨Vehicle.mk' 300 78 0 1 0 1 P ⟨fun h => |h|, fun _ => 1, fun _ => 1, fun _ => 1⟩ false (fun _ => 1)
    ⟨0, 0, 0, 0, 0, 0, 0, 0⟩, [0, 1], [P.RP, P.RP + 1], [100, 200], hP, by simp, rfl, rfl⟩

/-! ### C27 -/

/-- The stored times increase. -/
theorem times_sorted (name : String) (V : Vehicle) (hP : Planet.init name = .ok V.planet) (mode : ScipyMode)
    (I : Integrator) (hI : SolveIvpLike I) (tSec dt deltaDeg : ℝ) (hdt : 0 < dt) (out : PropOut)
    (h : V.propogateEntry mode I tSec dt deltaDeg = .ok out) : out.c.t.Pairwise (· ≤ ·) := by
  obtain ⟨_, _, ht, _⟩ := C24_arrays_aligned V mode I tSec dt deltaDeg out h
  obtain ⟨_, _, _, _, _, _, _, _, _, htau, _⟩ := C01_planet_consistent name _ hP
  have g1 := (hI (fun t y => V.EOM y t (deltaDeg * π / 180.0))
    (V.planet.nonDimState (Vehicle.entryState V.planet V.init)) (Vehicle.tGrid V.planet tSec dt)).1
  change (samples V I tSec dt deltaDeg).map Prod.fst <+: _ at g1
  have g2 : (Vehicle.tGrid V.planet tSec dt).Pairwise (· ≤ ·) := by
    unfold Vehicle.tGrid arange0
    rw [List.pairwise_map]
    refine List.Pairwise.imp ?_ List.pairwise_lt_range
    intro a b hab
    have : (a:ℝ) ≤ b := by exact_mod_cast hab.le
    have : 0 < dt / V.planet.tau := by positivity
    gcongr
  have g3 : ((samples V I tSec dt deltaDeg).map Prod.fst).Pairwise (· ≤ ·) := g2.sublist g1.sublist
  rw [ht, List.pairwise_map]
  rw [List.pairwise_map] at g3
  refine (g3.sublist (List.take_sublist _ _)).imp ?_
  intro a b hab
  gcongr

/-- C27: the heat-load history stored by `propogateEntry` starts at zero and its increment over any sub-interval is
the trapezoidal integral of the stored heat rate over that sub-interval. -/
theorem C27_heat_load_is_integral (V : Vehicle) (mode : ScipyMode) (I : Integrator) (tSec dt deltaDeg : ℝ)
    (out : PropOut) (h : V.propogateEntry mode I tSec dt deltaDeg = .ok out) :
    out.heatload.head? = some 0 ∧
    ∀ i j, i ≤ j → j < out.index → ∃ a b, out.heatload[i]? = some a ∧ out.heatload[j]? = some b ∧
      b - a = Spec.trapz (((List.zip out.c.t out.qStagTotal).take (j + 1)).drop i) := by
  have hal := C24_arrays_aligned V mode I tSec dt deltaDeg out h
  obtain ⟨_, _, _, _, _, _, _, _, _, _, hlen, _⟩ := hal
  have lt := hlen out.c.t (by simp)
  have lq := hlen out.qStagTotal (by simp)
  obtain ⟨idx, flag, qc, qr, heat, hc, hq, hq2, hh, rfl⟩ := postProcess_inv h
  obtain ⟨hne, rfl, _⟩ := cumTrapz_ok hh
  refine ⟨rfl, ?_⟩
  intro i j hij hj
  simp only [TrajArrays.truncate] at lt lq hj ⊢
  set Z := List.zip (List.take idx (V.planet.dimensionalizeArr (V.solveTrajectory I (V.planet.nonDimState
    (Vehicle.entryState V.planet V.init)) tSec dt (deltaDeg * π / 180.0))).t) (List.zipWith (· + ·) qc qr) with hZ
  have lZ : Z.length = idx := by rw [hZ, List.length_zip, lt, lq]; simp
  refine ⟨_, _, cumsum_getElem? 0 Z i (by omega), cumsum_getElem? 0 Z j (by omega), ?_⟩
  rw [← trapz_take_sub Z i j hij (by omega)]
  ring

/-- Case for `C27_heat_load_is_integral`: a flight at Venus. -/
example : ∃ (P : Planet) (out : PropOut), Planet.init "VENUS" = .ok P ∧
    (demoEntry P 150 11).propogateEntry .strict constIntegrator 1200 0.1 0 = .ok out ∧
    out.heatload.head? = some 0 := by
  obtain ⟨P, hP⟩ := (C01_planet_names "VENUS").1.mpr (by simp [Spec.bodies])
  have hT : P.hTrap = 10000 := by simp [Planet.init] at hP; subst hP; rfl
  have hS : P.hSkip = 180000 := by simp [Planet.init] at hP; subst hP; rfl
  obtain ⟨out, ho, -⟩ := demo_flight hP (h := 150) (v := 11) .strict 0 (by rw [hT]; norm_num) (by rw [hS]; norm_num)
  exact ⟨P, out, hP, ho, (C27_heat_load_is_integral _ _ _ _ _ _ out ho).1⟩

/-- C27: for a supported body, non-negative densities and speeds along the trajectory and a positive nose radius, the
heat load never decreases. -/
theorem C27_heat_load_monotone (name : String) (V : Vehicle) (hP : Planet.init name = .ok V.planet)
    (mode : ScipyMode) (I : Integrator) (hI : SolveIvpLike I) (tSec dt deltaDeg : ℝ) (hdt : 0 < dt)
    (hRN : 0 < V.RN) (out : PropOut) (h : V.propogateEntry mode I tSec dt deltaDeg = .ok out)
    (hrho : ∀ x ∈ out.c.r, 0 ≤ V.planet.rhoVec V.atm x) (hv : ∀ x ∈ out.c.v, 0 ≤ x) :
    out.heatload.Pairwise (· ≤ ·) := by
  have hsorted := times_sorted name V hP mode I hI tSec dt deltaDeg hdt out h
  have hint := C27_heat_load_is_integral V mode I tSec dt deltaDeg out h
  obtain ⟨_, _, _, _, _, _, _, _, _, _, hlen, _⟩ := C24_arrays_aligned V mode I tSec dt deltaDeg out h
  have lt := hlen out.c.t (by simp)
  have lr := hlen out.c.r (by simp)
  have lv := hlen out.c.v (by simp)
  have lh := hlen out.heatload (by simp)
  have hqnn : ∀ x ∈ out.qStagTotal, 0 ≤ x := by
    obtain ⟨q, hq, _, hq0, _⟩ := C25_total_array name V hP hRN out.c.r out.c.v (by rw [lr, lv]) hrho hv
    have : out.qStagTotal = q := by
      obtain ⟨idx, flag, qc, qr, heat, hc, hq1, hq2, hh, rfl⟩ := postProcess_inv h
      simp only [Vehicle.qStagTotal, TrajArrays.truncate] at hq ⊢
      rw [hq1, hq2] at hq
      simpa [needNumber, bind, Except.bind, pure, Except.pure] using hq
    rw [this]; exact hq0
  rw [List.pairwise_iff_getElem]
  intro i j hi hj hij
  obtain ⟨a, b, ha, hb, hab⟩ := hint.2 i j hij.le (by omega)
  rw [List.getElem?_eq_getElem hi] at ha
  rw [List.getElem?_eq_getElem hj] at hb
  simp only [Option.some.injEq] at ha hb
  rw [ha, hb]
  have : 0 ≤ b - a := by
    rw [hab]
    have hzs : (List.zip out.c.t out.qStagTotal).Pairwise (fun p q => p.1 ≤ q.1) := by
      have : ((List.zip out.c.t out.qStagTotal).map Prod.fst).Pairwise (· ≤ ·) := by
        rw [List.map_fst_zip (by rw [lt, hlen out.qStagTotal (by simp)])]; exact hsorted
      rwa [List.pairwise_map] at this
    apply trapz_nonneg
    · exact hzs.sublist ((List.drop_sublist _ _).trans (List.take_sublist _ _))
    · intro p hp
      have hp' : p ∈ List.zip out.c.t out.qStagTotal :=
        ((List.drop_sublist _ _).trans (List.take_sublist _ _)).subset hp
      exact hqnn _ (List.of_mem_zip hp').2
  linarith

/-- Case for `C27_heat_load_monotone`: that flight. -/
example : ∃ (P : Planet) (out : PropOut), Planet.init "VENUS" = .ok P ∧
    (demoEntry P 150 11).propogateEntry .strict constIntegrator 1200 0.1 0 = .ok out ∧
    out.heatload.Pairwise (· ≤ ·) := by
  obtain ⟨P, hP⟩ := (C01_planet_names "VENUS").1.mpr (by simp [Spec.bodies])
  have hT : P.hTrap = 10000 := by simp [Planet.init] at hP; subst hP; rfl
  have hS : P.hSkip = 180000 := by simp [Planet.init] at hP; subst hP; rfl
  obtain ⟨out, ho, -, -, -, -, hv⟩ := demo_flight hP (h := 150) (v := 11) .strict 0 (by rw [hT]; norm_num)
    (by rw [hS]; norm_num)
  refine ⟨P, out, hP, ho, C27_heat_load_monotone "VENUS" _ hP .strict _ constIntegrator_ok.2 1200 0.1 0 (by norm_num)
    (by norm_num [demoEntry, Vehicle.mk']) out ho ?_ ?_⟩
  · intro x _
    exact zero_le_one
  · intro x hx
    rw [hv x hx]; norm_num

/-- C27: splitting a history at any sample, the integral over the whole is the sum of the integrals over the two
pieces, even when the clock of the second piece is restarted; so adding up the final loads of consecutive segments
gives the load of the whole. -/
theorem C27_segments_add (l1 l2 : List (ℝ × ℝ)) (p : ℝ × ℝ) (restart : ℝ) :
    Spec.trapz (l1 ++ p :: l2) =
      Spec.trapz (l1 ++ [p]) + Spec.trapz ((p :: l2).map fun q => (q.1 + restart, q.2)) := by
  rw [trapz_shift, trapz_append]

/-- C27 (finding): with the second integrator (`propogateEntry2`) an initial heat load is never accumulated.  With the
SciPy version in the lock file the call cannot succeed when the initial heat load is non-zero; with older SciPy versions
it succeeds, but every entry after the first ignores the initial heat load. -/
theorem C27_initial_load_lost (V : Vehicle) (mode : ScipyMode) (I : Integrator) (tSec dt deltaDeg : ℝ)
    (out : PropOut) (h : V.propogateEntry2 mode I tSec dt deltaDeg = .ok out) :
    (mode = .strict → V.init.heatLoad0 = 0) ∧
    out.heatload.head? = some V.init.heatLoad0 ∧
    ∀ i, 1 ≤ i → i < out.heatload.length →
      out.heatload[i]? = some (Spec.trapz ((List.zip out.c.t out.qStagTotal).take (i + 1))) := by
  obtain ⟨idx, flag, qc, qr, heat, hc, hq, hq2, hh, rfl⟩ := postProcess_inv h
  obtain ⟨hne, rfl, hs⟩ := cumTrapz_ok hh
  refine ⟨hs, rfl, ?_⟩
  intro i hi hlt
  simp only [TrajArrays.truncate] at hlt ⊢
  have hpos := List.length_pos_of_ne_nil hne
  set Z := List.zip (List.take idx (V.planet.dimensionalizeArr (V.solveTrajectory2 I (V.planet.nonDimState
    (Vehicle.entryState V.planet V.init)) tSec dt (deltaDeg * π / 180.0))).t) (List.zipWith (· + ·) qc qr) with hZ
  have := cumsum_getElem? 0 Z i (by
    simp only [List.length_cons, trapzFrom_length] at hlt
    omega)
  obtain ⟨k, rfl⟩ : ∃ k, i = k + 1 := ⟨i - 1, by omega⟩
  rw [List.getElem?_cons_succ] at this ⊢
  rw [this, zero_add]

/-- C27 (finding), concrete: a Mars vehicle entering with an accumulated load of 5 J/cm² in thin air; with an older
SciPy the reported history *drops* to 0 at the second point.  Case for `C27_initial_load_lost`. -/
theorem C27_heat_load_drops : ∃ (V : Vehicle) (I : Integrator) (out : PropOut), Planet.init "MARS" = .ok V.planet ∧
    OdeintLike I ∧ V.propogateEntry2 .legacy I 1 1 0 = .ok out ∧ out.heatload = [5, 0] := by
  obtain ⟨P, hP⟩ := (C01_planet_names "MARS").1.mpr (by simp [Spec.bodies])
  have hid := (C01_planet_consistent "MARS" P hP).1
  obtain ⟨_, _, _, _, _, _, _, _, _, htau, _⟩ := C01_planet_consistent "MARS" P hP
  have hR : P.RP = 3389.5e3 := by simp [Planet.init] at hP; subst hP; rfl
  have hT : P.hTrap = 10e3 := by simp [Planet.init] at hP; subst hP; rfl
  have hS : P.hSkip = 120e3 := by simp [Planet.init] at hP; subst hP; rfl
  let V := Vehicle.mk' 500 100 0.2 1 0 1 P ⟨fun _ => 0, fun _ => 1, fun _ => 1, fun _ => 1⟩ false (fun _ => 1)
    ⟨100, 0, 0, 6, 0, -7, 0, 5⟩
  have hV : V.planet = P := rfl
  set y0 := P.nonDimState (Vehicle.entryState P V.init) with hy0
  have e : y0.r * P.RP - P.RP = 100000 := by
    have : P.RP ≠ 0 := by rw [hR]; norm_num
    simp only [hy0, Planet.nonDimState, Vehicle.entryState, Planet.computeR, V, Vehicle.mk',
      div_mul_cancel₀ _ this]
    norm_num
  have hsol : V.solveTrajectory2 constIntegrator y0 1 1 (0 * π / 180.0)
      = TrajArrays.ofSamples [(0, y0), (1 / P.tau, y0)] := by
    have : ⌈((1:ℝ) + 1) / P.tau / (1 / P.tau)⌉₊ = 2 := by
      have : ((1:ℝ) + 1) / P.tau / (1 / P.tau) = ((2:ℕ):ℝ) := by
        field_simp; norm_num
      rw [this, Nat.ceil_natCast]
    simp only [Vehicle.solveTrajectory2, constIntegrator, Vehicle.tGrid, arange0, hV, this]
    simp [List.range_succ]
  obtain ⟨out, ho⟩ := postProcess_returns "MARS" V hP .legacy (0 * π / 180.0) 5 (Or.inl rfl) (0, y0)
    [(1 / P.tau, y0)] (by rw [hV]; simp only [e, hT]; norm_num) (by rw [hV]; simp only [e, hS]; norm_num)
    (by intro q hq
        simp only [List.mem_singleton] at hq
        subst hq
        rw [hV]; simp only [e, hT]; norm_num)
  have ho2 : V.propogateEntry2 .legacy constIntegrator 1 1 0 = .ok out := by
    unfold Vehicle.propogateEntry2
    simp only [hV]
    rw [← hy0, hsol]
    exact ho
  refine ⟨V, constIntegrator, out, hP, constIntegrator_ok.1, ho2, ?_⟩
  obtain ⟨idx, flag, qc, qr, heat, hc, hq, hq2, hh, rfl⟩ := postProcess_inv ho
  have hidx : idx = 2 := by
    have hne : (P.dimensionalizeArr (TrajArrays.ofSamples [(0, y0), (1 / P.tau, y0)])).r ≠ [] := by
      simp [Planet.dimensionalizeArr, TrajArrays.ofSamples]
    obtain ⟨i', f', h1, h2, h3, h4, h5, h6, h7⟩ := C22_classification "MARS" P hP _ hne
    rw [hV] at hc
    rw [h1] at hc
    simp only [Except.ok.injEq, Prod.mk.injEq] at hc
    obtain ⟨rfl, rfl⟩ := hc
    simp only [Planet.dimensionalizeArr, TrajArrays.ofSamples, List.map_cons, List.map_nil, List.mem_cons,
      List.not_mem_nil, or_false, or_self, exists_eq_left, e, hT, hS, forall_eq] at h4 h6 h7
    rcases h3 with rfl | rfl | rfl
    · norm_num at h4
    · simpa using (h7 rfl).1
    · norm_num at h6
  subst hidx
  obtain ⟨_, rfl, _⟩ := cumTrapz_ok hh
  have z1 : qc = [0, 0] := by
    rw [Vehicle.qStagConvective, hV, hid] at hq
    simp [qConvFn, Planet.dimensionalizeArr, TrajArrays.ofSamples, Planet.rhoVec, V, Vehicle.mk'] at hq
    rw [← hq]
    simp [Real.zero_rpow (show (0.5:ℝ) ≠ 0 by norm_num)]
  have z2 : qr = [0, 0] := by
    rw [Vehicle.qStagRadiative, hV, hid] at hq2
    simp [qRadFn, Planet.dimensionalizeArr, TrajArrays.ofSamples] at hq2
    rw [← hq2]
  subst z1 z2
  simp [Planet.dimensionalizeArr, TrajArrays.ofSamples, trapzFrom]

end AMAT.Props
