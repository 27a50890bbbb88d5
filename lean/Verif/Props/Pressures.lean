import Verif.Props.TrajectoryProps
import Verif.Model.Corridor

/-
C81: the pressure histories of a trajectory and their relation to the drag load.
-/

noncomputable section

namespace AMAT.Spec

/-- The pressure and drag entries belonging to a trajectory point. -/
def PressuresAt (V : Vehicle) (r v q p a : ℝ) : Prop :=
  q * 101325 = 1 / 2 * V.atm.densityInt (r - V.planet.RP) * v ^ 2 ∧
  p * 101325 = V.atm.pressureInt (r - V.planet.RP) + 1 / 2 * V.atm.densityInt (r - V.planet.RP) * v ^ 2 ∧
  (V.userDefinedCDMach = false → V.CD * V.beta * V.A = V.mass → 0 < V.mass → 0 < V.beta →
    0 ≤ V.atm.densityInt (r - V.planet.RP) → V.planet.EARTHG ≠ 0 →
    a * (V.beta * V.planet.EARTHG) = q * 101325)

end AMAT.Spec

namespace AMAT.Props

open Real

theorem postProcess_pressures {V : Vehicle} {mode : ScipyMode} {bar : TrajArrays} {delta hi : ℝ} {out : PropOut}
    (h : V.postProcess mode bar delta hi = .ok out) (i : ℕ) (r v : ℝ) (hr : out.c.r[i]? = some r)
    (hv : out.c.v[i]? = some v) : ∃ q p a, out.dynPresAtm[i]? = some q ∧ out.stagPresAtm[i]? = some p ∧
      out.accDragG[i]? = some a ∧ Spec.PressuresAt V r v q p a := by
  obtain ⟨idx, flag, qc, qr, heat, -, -, -, -, rfl⟩ := postProcess_inv h
  simp only [TrajArrays.truncate] at hr hv
  have l1 : (1.01325e5:ℝ) = 101325 := by norm_num
  refine ⟨V.dynPres r v / 1.01325E5, V.stagPres r v / 1.01325E5, V.accDrag delta r v, ?_, ?_, ?_, ?_, ?_, ?_⟩
  · simp [List.getElem?_zipWith, hr, hv]
  · simp [List.getElem?_zipWith, hr, hv]
  · simp [List.getElem?_zipWith, hr, hv]
  · rw [l1, div_mul_cancel₀ _ (by norm_num)]
    unfold Vehicle.dynPres Planet.rhoVec
    norm_num
  · rw [l1, div_mul_cancel₀ _ (by norm_num)]
    unfold Vehicle.stagPres Vehicle.dynPres Planet.rhoVec Planet.pressureVec
    norm_num
  · intro hu hCD hm hb hρ hE
    rw [l1, div_mul_cancel₀ _ (by norm_num)]
    have e : V.accDrag delta r v = 1 / 2 * V.atm.densityInt (r - V.planet.RP) * v ^ 2 / V.beta / V.planet.EARTHG := by
      unfold Vehicle.accDrag
      have : V.a_svec r v ^ 2 + 0.0 * V.a_nvec r v delta ^ 2 + 0.0 * V.a_wvec r v delta * 2.0 =
          (1 / 2 * V.atm.densityInt (r - V.planet.RP) * v ^ 2 / V.beta) ^ 2 := by
        unfold Vehicle.a_svec Vehicle.Dvec Planet.rhoVec
        rw [hu, ← hCD]
        have hb' := hb.ne'
        have hCA : V.CD * V.beta * V.A ≠ 0 := by rw [hCD]; exact hm.ne'
        have hC : V.CD ≠ 0 := by rintro h; rw [h] at hCA; simp at hCA
        have hA : V.A ≠ 0 := by rintro h; rw [h] at hCA; simp at hCA
        norm_num
        field_simp
      rw [this, sqrt_sq (by positivity)]
    rw [e]
    unfold Vehicle.dynPres Planet.rhoVec
    field_simp
    norm_num
    ring

/-- **C81.** In every trajectory stored by `propogateEntry` and `propogateEntry2`, point by point: the dynamic pressure (in
atmospheres) is `½ρv²`, the stagnation pressure exceeds it by the ambient pressure, and for a vehicle with a constant drag
coefficient the drag load in Earth g is the dynamic pressure divided by the ballistic coefficient and by g. -/
theorem C81_pressure_histories (V : Vehicle) (mode : ScipyMode) (I : Integrator) (tSec dt deltaDeg : ℝ) (out : PropOut)
    (h : V.propogateEntry mode I tSec dt deltaDeg = .ok out ∨ V.propogateEntry2 mode I tSec dt deltaDeg = .ok out)
    (i : ℕ) (r v : ℝ) (hr : out.c.r[i]? = some r) (hv : out.c.v[i]? = some v) :
    ∃ q p a, out.dynPresAtm[i]? = some q ∧ out.stagPresAtm[i]? = some p ∧ out.accDragG[i]? = some a ∧
      Spec.PressuresAt V r v q p a := by
  rcases h with h | h
  · exact postProcess_pressures h i r v hr hv
  · exact postProcess_pressures h i r v hr hv

/-- Case for `C81_pressure_histories`: the first point of a flight at Venus. -/
example : ∃ (P : Planet) (out : PropOut) (q p a : ℝ), Planet.init "VENUS" = .ok P ∧
    (demoEntry P 150 11).propogateEntry2 .strict constIntegrator 1200 0.1 60 = .ok out ∧
    out.dynPresAtm[0]? = some q ∧ Spec.PressuresAt (demoEntry P 150 11) (P.RP + 150 * 1000) (11 * 1000) q p a := by
  obtain ⟨P, hP⟩ := (C01_planet_names "VENUS").1.mpr (by simp [Spec.bodies])
  have hT : P.hTrap = 10000 := by simp [Planet.init] at hP; subst hP; rfl
  have hS : P.hSkip = 180000 := by simp [Planet.init] at hP; subst hP; rfl
  obtain ⟨out, -, ho, hr, hv, -⟩ := demo_flight hP (h := 150) (v := 11) .strict 60 (by rw [hT]; norm_num)
    (by rw [hS]; norm_num)
  obtain ⟨q, p, a, h1, h2, h3, h4⟩ := C81_pressure_histories _ _ _ _ _ _ out (Or.inr ho) 0 _ _ hr hv
  exact ⟨P, out, q, p, a, hP, ho, h1, h4⟩

/-- **C81.** The ballistic coefficient of the constructor and the drag coefficient it computes satisfy the condition of the
drag law; so do those after a change of the ballistic coefficient (drag modulation). -/
theorem C81_constant_drag (mass beta LD A alpha RN : ℝ) (P : Planet) (atm : Atmosphere) (ud : Bool) (f : ℝ → ℝ)
    (st : InitState) (hb : 0 < beta) (hA : 0 < A) (x : ℝ) (hx : 0 < x) :
    (Vehicle.mk' mass beta LD A alpha RN P atm ud f st).CD * (Vehicle.mk' mass beta LD A alpha RN P atm ud f st).beta *
      (Vehicle.mk' mass beta LD A alpha RN P atm ud f st).A = mass ∧
    ((Vehicle.mk' mass beta LD A alpha RN P atm ud f st).setBeta x).CD * x * A = mass := by
  constructor
  · simp only [Vehicle.mk']
    field_simp
  · simp only [Vehicle.mk', Vehicle.setBeta]
    field_simp

/-- Case for `C81_constant_drag`. -/
example (P : Planet) : ((demoEntry P 150 11).setBeta 25).CD * 25 * 1 = 500 :=
  (C81_constant_drag 500 100 0.2 1 0 1 P _ false _ _ (by norm_num) (by norm_num) 25 (by norm_num)).2

/-- **C81.** With non-negative density and pressure, `0 ≤` dynamic `≤` stagnation pressure. -/
theorem C81_pressures_ordered (V : Vehicle) (r v q p a : ℝ) (h : Spec.PressuresAt V r v q p a)
    (hρ : 0 ≤ V.atm.densityInt (r - V.planet.RP)) (hp : 0 ≤ V.atm.pressureInt (r - V.planet.RP)) : 0 ≤ q ∧ q ≤ p := by
  obtain ⟨h1, h2, -⟩ := h
  have : 0 ≤ 1 / 2 * V.atm.densityInt (r - V.planet.RP) * v ^ 2 := by positivity
  constructor <;> linarith

/-- Case for `C81_pressures_ordered`: the point of the example above. -/
example : ∃ (P : Planet) (q p a : ℝ), Planet.init "VENUS" = .ok P ∧
    Spec.PressuresAt (demoEntry P 150 11) (P.RP + 150 * 1000) (11 * 1000) q p a ∧ 0 ≤ q ∧ q ≤ p := by
  obtain ⟨P, hP⟩ := (C01_planet_names "VENUS").1.mpr (by simp [Spec.bodies])
  have hT : P.hTrap = 10000 := by simp [Planet.init] at hP; subst hP; rfl
  have hS : P.hSkip = 180000 := by simp [Planet.init] at hP; subst hP; rfl
  obtain ⟨out, ho, -, hr, hv, -⟩ := demo_flight hP (h := 150) (v := 11) .strict 60 (by rw [hT]; norm_num)
    (by rw [hS]; norm_num)
  obtain ⟨q, p, a, h1, h2, h3, h4⟩ := C81_pressure_histories _ _ _ _ _ _ out (Or.inl ho) 0 _ _ hr hv
  exact ⟨P, q, p, a, hP, h4, C81_pressures_ordered _ _ _ _ _ _ h4 zero_le_one zero_le_one⟩

/-- Example: a stored Mars trajectory, at whose first point (100 km, 4 km/s, density 1e-6) all conditions of the drag law
hold. -/
theorem C81_example : ∃ (V : Vehicle) (I : Integrator) (out : PropOut), Planet.init "MARS" = .ok V.planet ∧
    SolveIvpLike I ∧ V.propogateEntry .strict I 1200 0.1 0 = .ok out ∧
    out.c.r[0]? = some (V.planet.RP + 100 * 1000) ∧ out.c.v[0]? = some (4 * 1000) ∧
    V.userDefinedCDMach = false ∧ V.CD * V.beta * V.A = V.mass ∧ 0 < V.mass ∧ 0 < V.beta ∧ V.planet.EARTHG ≠ 0 ∧
    ∃ q a, out.dynPresAtm[0]? = some q ∧ out.accDragG[0]? = some a ∧ q * 101325 = 8 ∧ a * (100 * V.planet.EARTHG) = 8 := by
  obtain ⟨P, hP⟩ := (C01_planet_names "MARS").1.mpr (by simp [Spec.bodies])
  have hT : P.hTrap = 10000 := by simp [Planet.init] at hP; subst hP; norm_num [Planet.withScales]
  have hS : P.hSkip = 120000 := by simp [Planet.init] at hP; subst hP; norm_num [Planet.withScales]
  obtain ⟨-, hRP, -, -, -, -, -, -, -, -, -, -, -, hEG⟩ := C01_planet_consistent "MARS" P hP
  let V : Vehicle := Vehicle.mk' 500 100 0.2 1 0 1 P ⟨fun _ => 1 / 1000000, fun _ => 1, fun _ => 1, fun _ => 1⟩ false
    (fun _ => 1) ⟨100, 0, 0, 4, 0, -90, 0, 0⟩
  obtain ⟨S, h1, h2⟩ := samples_const "MARS" V hP 1200 0.1 0 (by norm_num) (by norm_num)
  have e : (P.nonDimState (Vehicle.entryState P V.init)).r * P.RP - P.RP = 100000 := by
    simp only [Planet.nonDimState, Vehicle.entryState, Planet.computeR, V, Vehicle.mk']
    field_simp
    norm_num
  obtain ⟨out, ho⟩ := C24_returns "MARS" V hP .strict constIntegrator 1200 0.1 0 _ S h1
    (by show P.hTrap < (P.nonDimState (Vehicle.entryState P V.init)).r * P.RP - P.RP
        rw [e, hT]; norm_num)
    (by show (P.nonDimState (Vehicle.entryState P V.init)).r * P.RP - P.RP < P.hSkip
        rw [e, hS]; norm_num)
    (by intro q hq
        rw [h2 q hq]
        show (P.nonDimState (Vehicle.entryState P V.init)).r * P.RP - P.RP ≠ P.hTrap
        rw [e, hT]; norm_num)
  obtain ⟨-, f1, -, -, f2, -⟩ := aligned_first_point "MARS" V hP constIntegrator constIntegrator_ok.2 1200 0.1 0 out
    (C24_arrays_aligned V .strict constIntegrator 1200 0.1 0 out ho)
  rw [List.head?_eq_getElem?] at f1 f2
  have hCD : V.CD * V.beta * V.A = V.mass := by simp [V, Vehicle.mk']
  have hE : V.planet.EARTHG ≠ 0 := by rw [show V.planet = P from rfl, hEG]; norm_num
  obtain ⟨q, p, a, g1, -, g3, k1, -, k3⟩ := C81_pressure_histories V .strict constIntegrator 1200 0.1 0 out (Or.inl ho) 0 _ _
    f1 f2
  have hq : q * 101325 = 8 := by
    rw [k1]
    simp only [V, Vehicle.mk']
    norm_num
  refine ⟨V, constIntegrator, out, hP, constIntegrator_ok.2, ho, f1, f2, rfl, hCD, by norm_num [V, Vehicle.mk'],
    by norm_num [V, Vehicle.mk'], hE, q, a, g1, g3, hq, ?_⟩
  have := k3 rfl hCD (by norm_num [V, Vehicle.mk']) (by norm_num [V, Vehicle.mk'])
    (by simp only [V, Vehicle.mk']; norm_num) hE
  rw [hq] at this
  exact this

end AMAT.Props
