import Verif.Model.EntryPlots
import Verif.Props.Pressures

/-
Property C132: the plots of an entry show the simulated flight.
-/

noncomputable section

namespace AMAT.Props

open Real

/-- Specification: a point lies inside the axes of a plot. -/
def Spec.Shown (xlim ylim p : ℝ × ℝ) : Prop := xlim.1 ≤ p.1 ∧ p.1 ≤ xlim.2 ∧ ylim.1 ≤ p.2 ∧ p.2 ≤ ylim.2

theorem plotXY_ok {α : Type} {x : List ℝ} {y : List α} (h : x.length = y.length) : plotXY x y = .ok (x.zip y) := by
  unfold plotXY; rw [if_pos h]

theorem zip_point {α : Type} {x : List ℝ} {y : List α} {i : ℕ} {a : ℝ} {b : α} (h1 : x[i]? = some a) (h2 : y[i]? = some b) :
    (x.zip y)[i]? = some (a, b) := by
  rw [List.getElem?_zip_eq_some]; exact ⟨h1, h2⟩

/-- The stored arrays in plot units, one entry per sample. -/
theorem postProcess_plot_arrays {V : Vehicle} {mode : ScipyMode} {S : List (ℝ × FState)} {delta hi : ℝ} {out : PropOut}
    (h : V.postProcess mode (TrajArrays.ofSamples S) delta hi = .ok out) :
    out.plotc.t = out.c.t.map (· / 60.0) ∧ out.plotc.r = out.c.r.map (fun r => (r - V.planet.RP) * 1E-3) ∧
    out.plotc.v = out.c.v.map (· * 1E-3) ∧ out.c.r.length = out.c.t.length ∧ out.c.v.length = out.c.t.length ∧
    out.accNetG.length = out.c.t.length ∧ out.qStagTotal.length = out.c.t.length ∧
    out.dynPresAtm.length = out.c.t.length := by
  obtain ⟨a1, a2, _, _, _, _, _, _, _, _, a3, a4⟩ := postProcess_aligned h
  obtain ⟨idx, flag, qc, qr, heat, hc, hq, hq2, hh, rfl⟩ := postProcess_inv h
  simp only [List.mem_cons, List.not_mem_nil, or_false, forall_eq_or_imp, forall_eq] at a3
  have lt : ((V.planet.dimensionalizeArr (TrajArrays.ofSamples S)).truncate idx).t.length = idx := by
    simpa [TrajArrays.truncate, Planet.dimensionalizeArr, TrajArrays.ofSamples] using a2
  refine ⟨?_, ?_, ?_, ?_, ?_, ?_, ?_, ?_⟩
  · simp [TrajArrays.truncate, Planet.toPlotUnits, List.map_take]
  · simp [TrajArrays.truncate, Planet.toPlotUnits, List.map_take]
  · simp [TrajArrays.truncate, Planet.toPlotUnits, List.map_take]
  · simp [TrajArrays.truncate, Planet.dimensionalizeArr, TrajArrays.ofSamples]
  · simp [TrajArrays.truncate, Planet.dimensionalizeArr, TrajArrays.ofSamples]
  · rw [lt]; exact a4
  · rw [lt]; tauto
  · rw [lt]; tauto

/-- C132: after every propagation (both methods, every vehicle, planet, integrator, time and bank angle) the four panels
of `makeBasicEntryPlots` can be drawn; they have one point per point of the trajectory, and show at its time in minutes
its altitude in km, its speed in km/s, its g-load and its heat rate. -/
theorem C132_entry_plots (V : Vehicle) (mode : ScipyMode) (I : Integrator) (tSec dt deltaDeg : ℝ) (out : PropOut)
    (h : V.propogateEntry mode I tSec dt deltaDeg = .ok out ∨ V.propogateEntry2 mode I tSec dt deltaDeg = .ok out) :
    ∃ P, makeBasicEntryPlots out = .ok P ∧ P.altitude.length = out.c.t.length ∧ P.velocity.length = out.c.t.length ∧
      P.deceleration.length = out.c.t.length ∧ P.heatRate.length = out.c.t.length ∧
      ∀ (i : ℕ) (t r v : ℝ), out.c.t[i]? = some t → out.c.r[i]? = some r → out.c.v[i]? = some v →
        P.altitude[i]? = some (t / 60, (r - V.planet.RP) / 1000) ∧ P.velocity[i]? = some (t / 60, v / 1000) ∧
        (∃ a, out.accNetG[i]? = some a ∧ P.deceleration[i]? = some (t / 60, a)) ∧
        ∃ q, out.qStagTotal[i]? = some q ∧ P.heatRate[i]? = some (t / 60, q) := by
  obtain ⟨hi, S, h⟩ : ∃ hi S, V.postProcess mode (TrajArrays.ofSamples S) (deltaDeg * π / 180.0) hi = .ok out := by
    rcases h with h | h
    · exact ⟨_, _, h⟩
    · exact ⟨_, _, h⟩
  obtain ⟨b1, b2, b3, b4, b5, b6, b7, b8⟩ := postProcess_plot_arrays h
  have e1 : (60.0 : ℝ) = 60 := by norm_num
  have e2 : (1E-3 : ℝ) = 1 / 1000 := by norm_num
  have lt : out.plotc.t.length = out.c.t.length := by rw [b1, List.length_map]
  have lr : out.plotc.r.length = out.c.t.length := by rw [b2, List.length_map, b4]
  have lv : out.plotc.v.length = out.c.t.length := by rw [b3, List.length_map, b5]
  refine ⟨⟨out.plotc.t.zip out.plotc.r, out.plotc.t.zip out.plotc.v, out.plotc.t.zip out.accNetG,
    out.plotc.t.zip out.qStagTotal⟩, ?_, ?_⟩
  · unfold makeBasicEntryPlots
    rw [plotXY_ok (by rw [lt, lr]), plotXY_ok (by rw [lt, lv]), plotXY_ok (by rw [lt, b6]), plotXY_ok (by rw [lt, b7])]
    rfl
  · refine ⟨by simp [lt, lr], by simp [lt, lv], by simp [lt, b6], by simp [lt, b7], ?_⟩
    intro i t r v ht hr hv
    have hi : i < out.c.t.length := by
      rw [List.getElem?_eq_some_iff] at ht; exact ht.1
    have pt : out.plotc.t[i]? = some (t / 60) := by rw [b1, List.getElem?_map, ht, e1]; rfl
    refine ⟨zip_point pt ?_, zip_point pt ?_, ?_, ?_⟩
    · rw [b2, List.getElem?_map, hr, e2, Option.map_some, mul_one_div]
    · rw [b3, List.getElem?_map, hv, e2, Option.map_some, mul_one_div]
    · have ha : out.accNetG[i]? = some (out.accNetG[i]'(by rw [b6]; exact hi)) := List.getElem?_eq_getElem _
      exact ⟨_, ha, zip_point pt ha⟩
    · have hq : out.qStagTotal[i]? = some (out.qStagTotal[i]'(by rw [b7]; exact hi)) := List.getElem?_eq_getElem _
      exact ⟨_, hq, zip_point pt hq⟩

/-- C132, `createQPlot`: it is drawn whenever the propagation succeeds; its curve has one point per point of the
trajectory: altitude in metres and `½ρv²` in pascals.  A point is inside the axes only if its altitude is between 100 and
700 km and its dynamic pressure at most 12500 Pa (with non-negative density: exactly then), so the claim that the plot
shows the flight is false for all flights that leave this window. -/
theorem C132_q_plot_partial (V : Vehicle) (mode : ScipyMode) (I : Integrator) (tSec dt deltaDeg : ℝ) (out : PropOut)
    (h : V.propogateEntry mode I tSec dt deltaDeg = .ok out) :
    ∃ L, V.createQPlot mode I tSec dt deltaDeg = .ok L ∧ L.points.length = out.c.t.length ∧
      ∀ (i : ℕ) (r v : ℝ), out.c.r[i]? = some r → out.c.v[i]? = some v →
        ∃ p, L.points[i]? = some p ∧ p.1 = r - V.planet.RP ∧
          p.2 = 1 / 2 * V.atm.densityInt (r - V.planet.RP) * v ^ 2 ∧
          (0 ≤ V.atm.densityInt (r - V.planet.RP) → (Spec.Shown L.xlim L.ylim p ↔
            100000 ≤ r - V.planet.RP ∧ r - V.planet.RP ≤ 700000 ∧
              1 / 2 * V.atm.densityInt (r - V.planet.RP) * v ^ 2 ≤ 12500)) := by
  have hh := h
  have h2 : V.postProcess mode (TrajArrays.ofSamples (I (fun t y => V.EOM y t (deltaDeg * π / 180.0))
    (V.planet.nonDimState (Vehicle.entryState V.planet V.init)) (Vehicle.tGrid V.planet tSec dt)))
    (deltaDeg * π / 180.0) 0 = .ok out := h
  obtain ⟨b1, b2, b3, b4, b5, b6, b7, b8⟩ := postProcess_plot_arrays h2
  have e1 : (1E3 : ℝ) = 1000 := by norm_num
  have e2 : (1E-3 : ℝ) = 1 / 1000 := by norm_num
  have e3 : (1.01325E5 : ℝ) = 101325 := by norm_num
  refine ⟨⟨(out.plotc.r.map (· * 1E3)).zip (out.dynPresAtm.map (· * 1.01325E5)), (100.0E3, 700.0E3), (0.0, 12500.0)⟩,
    ?_, ?_⟩
  · unfold Vehicle.createQPlot
    rw [h]
    simp only [bind, Except.bind]
    rw [plotXY_ok (by rw [List.length_map, List.length_map, b2, List.length_map, b4, b8])]
    rfl
  · refine ⟨by simp [b2, b4, b8], ?_⟩
    intro i r v hr hv
    obtain ⟨q, p, a, hq, -, -, hp, -⟩ := C81_pressure_histories V mode I tSec dt deltaDeg out (Or.inl hh) i r v hr hv
    refine ⟨(r - V.planet.RP, 1 / 2 * V.atm.densityInt (r - V.planet.RP) * v ^ 2), zip_point ?_ ?_, rfl, rfl, ?_⟩
    · rw [b2, List.getElem?_map, List.getElem?_map, hr, e1, e2]
      simp only [Option.map_some, Option.some.injEq]
      ring
    · rw [List.getElem?_map, hq, e3, ← hp]; rfl
    · intro hρ
      have f1 : (100.0E3 : ℝ) = 100000 := by norm_num
      have f2 : (700.0E3 : ℝ) = 700000 := by norm_num
      have f3 : (12500.0 : ℝ) = 12500 := by norm_num
      have f4 : (0.0 : ℝ) = 0 := by norm_num
      unfold Spec.Shown
      simp only [f1, f2, f3, f4]
      have : 0 ≤ 1 / 2 * V.atm.densityInt (r - V.planet.RP) * v ^ 2 := by positivity
      tauto

/-- C132 (finding): a flight at Venus at 90 km of which the plot of dynamic pressure shows nothing. -/
theorem C132_q_plot_empty : ∃ (V : Vehicle) (L : LimitedPlot), Planet.init "VENUS" = .ok V.planet ∧
    V.createQPlot .strict constIntegrator 1200 0.1 60 = .ok L ∧ L.points ≠ [] ∧
    ∀ p ∈ L.points, ¬ Spec.Shown L.xlim L.ylim p := by
  obtain ⟨P, hP⟩ := (C01_planet_names "VENUS").1.mpr (by simp [Spec.bodies])
  have hT : P.hTrap = 10000 := by simp [Planet.init] at hP; subst hP; rfl
  have hS : P.hSkip = 180000 := by simp [Planet.init] at hP; subst hP; rfl
  obtain ⟨out, ho, -, hr, hv, hr', hv'⟩ := demo_flight hP (h := 90) (v := 11) .strict 60 (by rw [hT]; norm_num)
    (by rw [hS]; norm_num)
  obtain ⟨L, h1, h2, h3⟩ := C132_q_plot_partial _ _ _ _ _ _ out ho
  have h4 : (demoEntry P 90 11).postProcess .strict (TrajArrays.ofSamples (constIntegrator
    (fun t y => (demoEntry P 90 11).EOM y t (60 * π / 180.0))
    (P.nonDimState (Vehicle.entryState P (demoEntry P 90 11).init)) (Vehicle.tGrid P 1200 0.1)))
    (60 * π / 180.0) 0 = .ok out := ho
  obtain ⟨-, -, -, b4, b5, -⟩ := postProcess_plot_arrays h4
  refine ⟨demoEntry P 90 11, L, hP, h1, ?_, ?_⟩
  · obtain ⟨p, hp, -⟩ := h3 0 _ _ hr hv
    intro hh; rw [hh] at hp; simp at hp
  · intro p hp
    obtain ⟨i, hi, rfl⟩ := List.getElem_of_mem hp
    rw [h2] at hi
    have r0 := List.getElem?_eq_getElem (l := out.c.r) (i := i) (by omega)
    have v0 := List.getElem?_eq_getElem (l := out.c.v) (i := i) (by omega)
    obtain ⟨p, q1, q2, q3, -⟩ := h3 i _ _ r0 v0
    rw [List.getElem?_eq_getElem (by rw [h2]; exact hi), Option.some.injEq] at q1
    rw [hr' _ (List.getElem_mem _)] at q2 q3
    rw [q1]
    have hx : L.xlim.1 = 100000 := by
      unfold Vehicle.createQPlot at h1
      rw [ho] at h1
      simp only [bind, Except.bind] at h1
      split at h1
      · cases h1
      · simp only [pure, Except.pure, Except.ok.injEq] at h1
        rw [← h1]; norm_num
    rintro ⟨s1, -⟩
    rw [hx, q2] at s1
    have : (demoEntry P 90 11).planet.RP = P.RP := rfl
    rw [this] at s1
    linarith

/-- Case for `C132_entry_plots` and `C132_q_plot_partial`: a flight at Venus at 150 km and 11 km/s, inside the window. -/
example : ∃ (P : Planet) (out : PropOut) (B : EntryPlots) (L : LimitedPlot) (p : ℝ × ℝ), Planet.init "VENUS" = .ok P ∧
    (demoEntry P 150 11).propogateEntry .strict constIntegrator 1200 0.1 60 = .ok out ∧
    makeBasicEntryPlots out = .ok B ∧ B.altitude.length = out.c.t.length ∧
    (demoEntry P 150 11).createQPlot .strict constIntegrator 1200 0.1 60 = .ok L ∧ L.points[0]? = some p ∧
    p.1 = 150000 := by
  obtain ⟨P, hP⟩ := (C01_planet_names "VENUS").1.mpr (by simp [Spec.bodies])
  have hT : P.hTrap = 10000 := by simp [Planet.init] at hP; subst hP; rfl
  have hS : P.hSkip = 180000 := by simp [Planet.init] at hP; subst hP; rfl
  obtain ⟨out, ho, -, hr, hv, -⟩ := demo_flight hP (h := 150) (v := 11) .strict 60 (by rw [hT]; norm_num)
    (by rw [hS]; norm_num)
  obtain ⟨B, c1, c2, -⟩ := C132_entry_plots _ _ _ _ _ _ out (Or.inl ho)
  obtain ⟨L, h1, h2, h3⟩ := C132_q_plot_partial _ _ _ _ _ _ out ho
  obtain ⟨p, hp, hp1, -⟩ := h3 0 _ _ hr hv
  refine ⟨P, out, B, L, p, hP, ho, c1, c2, h1, hp, ?_⟩
  rw [hp1]
  show P.RP + 150 * 1000 - P.RP = 150000
  ring

end AMAT.Props
