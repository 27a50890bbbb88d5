import Verif.Model.Attributes
import Verif.Props.ScaleHeight
import Verif.Props.TrajectoryProps

/-
C59: analysis methods that fail on a missing attribute.
-/

noncomputable section

namespace AMAT.Props

theorem no_CPCV {a : Attrs} (h : Vehicle.Reachable a) : a "CPCV" = none := by
  induction h with
  | new => rfl
  | assign a name x h _ ih =>
    have : "CPCV" ≠ name := by
      rintro rfl
      exact absurd h (by decide)
    simp only [if_neg this]
    exact ih

/-- C59 (finding): computing the stagnation temperature raises for every vehicle, whatever methods were called before, and
for every trajectory: if the arrays fit together, it is an `AttributeError`. -/
theorem C59_stagnation_temperature_raises (V : Vehicle) (a : Attrs) (ha : Vehicle.Reachable a) (rc vc : List ℝ) :
    (∃ e, V.computeStagTemp a rc vc = .error e) ∧
    (rc.length = vc.length → V.computeStagTemp a rc vc = .error .attributeError) := by
  unfold Vehicle.computeStagTemp shapesFit
  rw [no_CPCV ha]
  constructor
  · by_cases h : rc.length = vc.length ∨ vc.length = 1
    · rw [if_pos h]; exact ⟨_, rfl⟩
    · rw [if_neg h]; exact ⟨_, rfl⟩
  · intro h
    rw [if_pos (Or.inl h)]
    rfl

/-- A vehicle after `setInitialState` (which assigns `h0_km`, among others). -/
example : Vehicle.Reachable (fun n => if n = "h0_km" then some 120 else none) :=
  .assign _ "h0_km" (some 120) (by decide) .new

/-- C59, what the method computes once the missing attribute has been assigned from outside: the total temperature of the
flow.  Wherever the tabulated sound speed is that of an ideal gas with the ratio of specific heats `g` and gas constant `R`,
the energy `g R / (g - 1) T + v² / 2` of the oncoming gas equals `g R / (g - 1)` times the result. -/
theorem C59_stagnation_energy_partial (V : Vehicle) (a : Attrs) (g R : ℝ) (ha : a "CPCV" = some g) (hg : 1 < g) (hR : 0 < R)
    (rc vc : List ℝ) (hl : rc.length = vc.length) (hs : ∀ r ∈ rc, 0 < V.planet.sonicVec V.atm r ∧
      V.planet.sonicVec V.atm r ^ 2 = g * R * V.planet.temperatureVec V.atm r) :
    ∃ T : List ℝ, V.computeStagTemp a rc vc = .ok T ∧ T.length = rc.length ∧
      ∀ (k : ℕ) (r v t : ℝ), rc[k]? = some r → vc[k]? = some v → T[k]? = some t →
        g * R / (g - 1) * V.planet.temperatureVec V.atm r + v ^ 2 / 2 = g * R / (g - 1) * t := by
  refine ⟨List.zipWith (fun r m => V.planet.temperatureVec V.atm r * (1 + 0.5 * (g - 1) * m ^ 2)) rc
    (List.zipWith (fun r v => v / V.planet.sonicVec V.atm r) rc vc), ?_, ?_, ?_⟩
  · unfold Vehicle.computeStagTemp shapesFit
    rw [if_pos (Or.inl hl), ha]
    rfl
  · simp [hl]
  · intro k r v t hr hv ht
    rw [List.getElem?_zipWith, List.getElem?_zipWith, hr, hv] at ht
    obtain rfl := Option.some.inj ht
    obtain ⟨h0, h1⟩ := hs r (List.mem_of_getElem? hr)
    have hT : 0 < V.planet.temperatureVec V.atm r := by
      by_contra hn
      have : 0 < V.planet.sonicVec V.atm r ^ 2 := by positivity
      have : g * R * V.planet.temperatureVec V.atm r ≤ 0 := mul_nonpos_of_nonneg_of_nonpos (by positivity) (not_lt.mp hn)
      linarith
    rw [div_pow, h1, show (0.5 : ℝ) = 1 / 2 by norm_num]
    have : g - 1 ≠ 0 := by linarith
    field_simp

/-- Case: Mars, ratio of specific heats 1.4, gas constant 200 J/(kg K), 140 K everywhere; at 1400 m/s the total
temperature is 1540 K. -/
example : ∃ (V : Vehicle) (a : Attrs), a "CPCV" = some 1.4 ∧ (∀ r, 0 < V.planet.sonicVec V.atm r ∧
    V.planet.sonicVec V.atm r ^ 2 = 1.4 * 200 * V.planet.temperatureVec V.atm r) ∧
    V.computeStagTemp a [3450e3] [1400] = .ok [1540] := by
  obtain ⟨P, hP, -⟩ := demo_mars
  have h0 : ∀ r : ℝ, (0 : ℝ) < √(1.4 * 200 * 140) ∧ √(1.4 * 200 * 140 : ℝ) ^ 2 = 1.4 * 200 * 140 := fun _ =>
    ⟨by positivity, Real.sq_sqrt (by norm_num)⟩
  refine ⟨{ demoEntry P 100 6 with atm := ⟨fun _ => 1, fun _ => 1, fun _ => 140, fun _ => √(1.4 * 200 * 140)⟩ },
    fun n => if n = "CPCV" then some 1.4 else none, by simp, h0, ?_⟩
  unfold Vehicle.computeStagTemp shapesFit
  simp only [List.length_cons, List.length_nil, if_true, true_or]
  change Except.ok [140 * (1 + 0.5 * (1.4 - 1) * (1400 / √(1.4 * 200 * 140)) ^ 2)] = _
  rw [div_pow, (h0 0).2]
  norm_num

/-- C59 (finding): with NumPy 1.24 or later a vehicle with a user-defined drag curve cannot be flown: every evaluation of
its drag, and every propagation from every state with every integrator, raises `AttributeError`. -/
theorem C59_drag_curve_raises (V : Vehicle) (hV : V.userDefinedCDMach = true) :
    (∀ r v, V.machScalarPy .since124 r v = .error .attributeError) ∧
    (∀ r theta phi v, V.DPy .since124 r theta phi v = .error .attributeError) ∧
    (∀ (y : FState) (t delta : ℝ), V.EOMPy .since124 y t delta = .error .attributeError) ∧
    ∀ (mode : ScipyMode) (I : Integrator) (tSec dt deltaDeg : ℝ),
      V.propogateEntryPy .since124 mode I tSec dt deltaDeg = .error .attributeError := by
  refine ⟨fun _ _ => rfl, fun r theta phi v => ?_, fun y t delta => ?_, fun mode I tSec dt deltaDeg => ?_⟩
  · unfold Vehicle.DPy Vehicle.CD1Py; rw [if_pos hV]; rfl
  · unfold Vehicle.EOMPy Vehicle.DbarPy Vehicle.CD1Py; rw [if_pos hV]; rfl
  · unfold Vehicle.propogateEntryPy Vehicle.EOMPy Vehicle.DbarPy Vehicle.CD1Py; rw [if_pos hV]; rfl

/-- C59, the part that holds: with a constant drag coefficient, or with an older NumPy, no attribute is missing in flight:
drag, equations of motion and propagation are those of the record model. -/
theorem C59_flight_partial (np : NumpyMode) (V : Vehicle) (h : V.userDefinedCDMach = false ∨ np = .before124) :
    (∀ r theta phi v, V.DPy np r theta phi v = .ok (V.D r theta phi v)) ∧
    (∀ r theta phi v, V.DbarPy np r theta phi v = .ok (V.Dbar r theta phi v)) ∧
    (∀ (y : FState) (t delta : ℝ), V.EOMPy np y t delta = .ok (V.EOM y t delta)) ∧
    ∀ (mode : ScipyMode) (I : Integrator) (tSec dt deltaDeg : ℝ),
      V.propogateEntryPy np mode I tSec dt deltaDeg = V.propogateEntry mode I tSec dt deltaDeg := by
  have hc : ∀ r v, V.CD1Py np r v = .ok (V.CD1 r v) := by
    intro r v
    unfold Vehicle.CD1Py Vehicle.CD1
    rcases h with h | rfl
    · rw [h]; rfl
    · cases V.userDefinedCDMach <;> rfl
  have hD : ∀ r theta phi v, V.DbarPy np r theta phi v = .ok (V.Dbar r theta phi v) := by
    intro r theta phi v
    unfold Vehicle.DbarPy
    rw [hc]
    rfl
  have hE : ∀ (y : FState) (t delta : ℝ), V.EOMPy np y t delta = .ok (V.EOM y t delta) := by
    intro y t delta
    unfold Vehicle.EOMPy
    rw [hD]
    rfl
  refine ⟨fun r theta phi v => ?_, hD, hE, fun mode I tSec dt deltaDeg => ?_⟩
  · unfold Vehicle.DPy; rw [hc]; rfl
  · unfold Vehicle.propogateEntryPy; rw [hE]; rfl

/-- C59 (finding): the scale height raises at and above the atmospheric interface of every body. -/
theorem C59_scale_height_raises (name : String) (P : Planet) (hP : Planet.init name = .ok P) (atm : Atmosphere)
    (mode : ScipyMode) (d : ℝ → ℝ) (h : ℝ) :
    0 ≤ h → (P.scaleHeight atm mode h d = .error .valueError ↔ P.hSkip ≤ h) := by
  intro h0
  constructor
  · intro he
    by_contra hlt
    push Not at hlt
    obtain ⟨n, hn, hS⟩ := hSkip_whole name P hP
    have hk : ⌊h / 1000⌋₊ < n := by
      rw [Nat.floor_lt (by positivity), div_lt_iff₀ (by norm_num)]
      linarith
    rw [scaleHeight_eq P atm mode d n hS h hk] at he
    cases he
  · exact C80_raises_above name P hP atm mode d h

/-- Cases for `C59_drag_curve_raises`, `C59_flight_partial` and `C59_scale_height_raises`: a vehicle at Mars with a drag
curve, the same vehicle without, and the altitudes 100 km and 120 km. -/
example : ∃ V : Vehicle, Planet.init "MARS" = .ok V.planet ∧ V.userDefinedCDMach = true ∧
    V.propogateEntryPy .since124 .strict constIntegrator 1200 0.1 0 = .error .attributeError ∧
    (∃ out, { V with userDefinedCDMach := false }.propogateEntryPy .since124 .strict constIntegrator 1200 0.1 0 = .ok out) ∧
    V.planet.scaleHeight V.atm .strict 120e3 V.atm.densityInt = .error .valueError ∧
    V.planet.scaleHeight V.atm .strict 100e3 V.atm.densityInt ≠ .error .valueError := by
  obtain ⟨P, hP, -, -, hS, hT, -⟩ := demo_mars
  obtain ⟨out, ho, -⟩ := demo_flight hP (h := 100) (v := 6) .strict 0 (by rw [hT]; norm_num) (by rw [hS]; norm_num)
  refine ⟨{ demoEntry P 100 6 with userDefinedCDMach := true }, hP, rfl,
    (C59_drag_curve_raises _ rfl).2.2.2 _ _ _ _ _, ⟨out, ?_⟩, ?_, ?_⟩
  · rw [(C59_flight_partial .since124 _ (Or.inl rfl)).2.2.2]
    exact ho
  · exact (C59_scale_height_raises "MARS" P hP _ _ _ _ (by norm_num)).mpr (by rw [hS])
  · intro h
    have := (C59_scale_height_raises "MARS" P hP _ _ _ _ (by norm_num)).mp h
    rw [hS] at this
    norm_num at this

end AMAT.Props
