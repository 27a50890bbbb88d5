import Verif.Props.TrajectoryProps

/-
Property C24, completed: exactly when a propagation returns.
-/

noncomputable section

open Real

namespace AMAT.Spec

/-- An altitude history, given by its first altitude `a` and all altitudes `l`, of which nothing is left when it is cut
at its event: it starts above the skip altitude and is taken for a skip; or it starts below the trap altitude and is not
taken for a skip; or its lowest point is exactly the trap altitude and its highest point exactly the skip altitude. -/
def NothingLeft (hTrap hSkip a : ℝ) (l : List ℝ) : Prop :=
  (hSkip < a ∧ ∀ h ∈ l, 0 ≤ h) ∨
  (a < hTrap ∧ ((∃ h ∈ l, h < 0) ∨ ∀ h ∈ l, h ≤ hSkip)) ∨
  ((hTrap ∈ l ∧ ∀ h ∈ l, hTrap ≤ h) ∧ hSkip ∈ l ∧ ∀ h ∈ l, h ≤ hSkip)

end AMAT.Spec

namespace AMAT.Props

open AMAT AMAT.Spec

/-- The retained part is empty exactly for the histories of `Spec.NothingLeft`. -/
theorem classify_zero_iff (name : String) (P : Planet) (hP : Planet.init name = .ok P) (a : ℝ) (r : List ℝ) (idx : ℕ)
    (flag : ℤ) (hc : P.classifyTrajectory (a :: r) = .ok (idx, flag)) :
    idx = 0 ↔ NothingLeft P.hTrap P.hSkip (P.computeH a) ((a :: r).map P.computeH) := by
  obtain ⟨_, _, _, _, _, hTr, hTS, _⟩ := C01_planet_consistent name P hP
  have hne : (a :: r).map P.computeH ≠ [] := by simp
  obtain ⟨M, hM, hMm, hMub⟩ := pyMax_spec hne
  obtain ⟨m, hm, hmm, hmlb⟩ := pyMin_spec hne
  have h0 : P.computeH a ∈ (a :: r).map P.computeH := by simp
  have hhead : ∀ (p : ℝ → Prop) [DecidablePred p], p (P.computeH a) →
      argmaxBool (((a :: r).map P.computeH).map fun x => decide (p x)) = 0 := by
    intro p _ hp
    obtain ⟨s1, -⟩ := argmaxBool_spec ((a :: r).map P.computeH) p
    by_contra hn
    obtain ⟨n, hn'⟩ : ∃ n, argmaxBool (((a :: r).map P.computeH).map fun x => decide (p x)) = n + 1 :=
      ⟨_, (Nat.succ_pred_eq_of_ne_zero hn).symm⟩
    rw [hn'] at s1
    exact s1 (P.computeH a) (by simp) hp
  have hhead' : ∀ (p : ℝ → Prop) [DecidablePred p], (∃ x ∈ (a :: r).map P.computeH, p x) →
      argmaxBool (((a :: r).map P.computeH).map fun x => decide (p x)) = 0 → p (P.computeH a) := by
    intro p _ hex h
    obtain ⟨-, s2, -⟩ := argmaxBool_spec ((a :: r).map P.computeH) p
    obtain ⟨h1, h2⟩ := s2 hex
    simp only [h] at h2
    simpa using h2
  rw [classify_eq P hM hm] at hc
  split_ifs at hc with c1 c2 c3
  · simp only [Except.ok.injEq, Prod.mk.injEq] at hc
    rw [← hc.1]
    constructor
    · intro h
      exact .inl ⟨hhead' (fun x => x > P.hSkip) ⟨M, hMm, c1.2⟩ h, fun x hx => c1.1.le.trans (hmlb x hx)⟩
    · rintro (⟨h, -⟩ | ⟨h1, h2⟩ | ⟨-, -, h4⟩)
      · exact hhead (fun x => x > P.hSkip) h
      · rcases h2 with ⟨x, hx, hx2⟩ | h2
        · exact absurd (hmlb x hx) (by have := c1.1; linarith)
        · exact absurd (h2 M hMm) (by have := c1.2; linarith)
      · exact absurd (h4 M hMm) (by have := c1.2; linarith)
  · simp only [Except.ok.injEq, Prod.mk.injEq] at hc
    rw [← hc.1]
    constructor
    · intro h; simp at h
    · rintro (⟨h, -⟩ | ⟨h1, -⟩ | ⟨-, h3, -⟩)
      · exact absurd (hMub _ h0) (by have := c2.2; linarith)
      · exact absurd (hmlb _ h0) (by have := c2.1; linarith)
      · exact absurd (hMub _ h3) (by have := c2.2; linarith)
  · simp only [Except.ok.injEq, Prod.mk.injEq] at hc
    rw [← hc.1]
    have hns : (∃ x ∈ (a :: r).map P.computeH, x < 0) ∨ ∀ x ∈ (a :: r).map P.computeH, x ≤ P.hSkip := by
      by_cases hneg : m < 0
      · exact .inl ⟨m, hmm, hneg⟩
      · refine .inr fun x hx => (hMub x hx).trans ?_
        by_contra hcon
        exact c1 ⟨not_lt.mp hneg, not_le.mp hcon⟩
    constructor
    · intro h
      by_cases hex : ∃ x ∈ (a :: r).map P.computeH, x < P.hTrap
      · exact .inr (.inl ⟨hhead' (fun x => x < P.hTrap) hex h, hns⟩)
      · push Not at hex
        have em : m = P.hTrap := le_antisymm c3 (hex m hmm)
        have hle : ∀ x ∈ (a :: r).map P.computeH, x ≤ P.hSkip := by
          rcases hns with ⟨x, hx, hx2⟩ | h2
          · exact absurd (hex x hx) (by linarith)
          · exact h2
        have eM : M = P.hSkip := by
          refine le_antisymm (hle M hMm) ?_
          by_contra hcon
          exact c2 ⟨em.ge, not_le.mp hcon⟩
        exact .inr (.inr ⟨⟨em ▸ hmm, hex⟩, eM ▸ hMm, hle⟩)
    · rintro (⟨h, h2⟩ | ⟨h1, -⟩ | ⟨⟨-, h2⟩, -⟩)
      · rcases hns with ⟨x, hx, hx2⟩ | h3
        · exact absurd (h2 x hx) (by linarith)
        · exact absurd (h3 _ h0) (by linarith)
      · exact hhead (fun x => x < P.hTrap) h1
      · refine (argmaxBool_spec ((a :: r).map P.computeH) (fun x => x < P.hTrap)).2.2.1 ?_
        rintro ⟨x, hx, hx2⟩
        exact absurd (h2 x hx) (by linarith)
  · simp only [Except.ok.injEq, Prod.mk.injEq] at hc
    rw [← hc.1]
    have c3' : P.hTrap < m := not_le.mp c3
    constructor
    · intro h; simp at h
    · rintro (⟨h, -⟩ | ⟨h1, -⟩ | ⟨⟨h3, -⟩, -⟩)
      · exact absurd ⟨(by linarith : m ≥ 0), lt_of_lt_of_le h (hMub _ h0)⟩ c1
      · exact absurd (hmlb _ h0) (by linarith)
      · exact absurd (hmlb _ h3) (by linarith)

/-- C24, complete: for a supported body, whatever the vehicle, integrator and samples, `propogateEntry` returns unless
nothing is left of the history when it is cut at its event, and then raises `ValueError`. -/
theorem C24_returns_iff (name : String) (V : Vehicle) (hP : Planet.init name = .ok V.planet)
    (mode : ScipyMode) (I : Integrator) (tSec dt deltaDeg : ℝ) (p : ℝ × FState) (S : List (ℝ × FState))
    (hS : samples V I tSec dt deltaDeg = p :: S) :
    ((∃ out, V.propogateEntry mode I tSec dt deltaDeg = .ok out) ↔
      ¬ NothingLeft V.planet.hTrap V.planet.hSkip (p.2.r * V.planet.RP - V.planet.RP)
        ((p :: S).map fun q => q.2.r * V.planet.RP - V.planet.RP)) ∧
    (NothingLeft V.planet.hTrap V.planet.hSkip (p.2.r * V.planet.RP - V.planet.RP)
        ((p :: S).map fun q => q.2.r * V.planet.RP - V.planet.RP) →
      V.propogateEntry mode I tSec dt deltaDeg = .error .valueError) := by
  set si := V.planet.dimensionalizeArr (TrajArrays.ofSamples (p :: S)) with hsi
  have hr : si.r = (p :: S).map (fun q => q.2.r * V.planet.RP) := by
    simp [hsi, Planet.dimensionalizeArr, TrajArrays.ofSamples, Function.comp_def]
  have hrne : si.r ≠ [] := by rw [hr]; simp
  obtain ⟨idx, flag, hc, hle, -⟩ := C22_classification name V.planet hP si.r hrne
  have hz : idx = 0 ↔ NothingLeft V.planet.hTrap V.planet.hSkip (p.2.r * V.planet.RP - V.planet.RP)
        ((p :: S).map fun q => q.2.r * V.planet.RP - V.planet.RP) := by
    have hc' := hc
    rw [hr, List.map_cons] at hc'
    rw [classify_zero_iff name V.planet hP _ _ idx flag hc', ← List.map_cons (f := fun q : ℝ × FState => q.2.r * V.planet.RP),
      List.map_map]
    rfl
  have hsol : Vehicle.solveTrajectory V I (V.planet.nonDimState (Vehicle.entryState V.planet V.init)) tSec dt
      (deltaDeg * π / 180.0) = TrajArrays.ofSamples (p :: S) := by
    rw [← hS]; rfl
  have hID : (∃ f, qConvFn V.planet.ID = some f) ∧ ∃ f, qRadFn V.planet.ID = some f := by
    have e := (C01_planet_consistent name V.planet hP).1
    have hs := (C01_planet_names name).1.mp ⟨_, hP⟩
    rw [e]
    simp only [Spec.bodies, List.mem_cons, List.not_mem_nil, or_false] at hs
    rcases hs with rfl | rfl | rfl | rfl | rfl | rfl | rfl | rfl <;> simp [qConvFn, qRadFn]
  obtain ⟨⟨fc, hfc⟩, ⟨fr, hfr⟩⟩ := hID
  have herr : idx = 0 → V.propogateEntry mode I tSec dt deltaDeg = .error .valueError := by
    rintro rfl
    simp [Vehicle.propogateEntry, hsol, Vehicle.postProcess, ← hsi, hc, bind, Except.bind,
      Vehicle.qStagConvective, Vehicle.qStagRadiative, hfc, hfr, needNumber, TrajArrays.truncate, cumTrapz]
  have hok : idx ≠ 0 → ∃ out, V.propogateEntry mode I tSec dt deltaDeg = .ok out := by
    intro h0
    simp only [Vehicle.propogateEntry, hsol]
    simp only [Vehicle.postProcess, ← hsi, hc, bind, Except.bind, pure, Except.pure,
      Vehicle.qStagConvective, Vehicle.qStagRadiative, hfc, hfr, Option.map_some, needNumber, TrajArrays.truncate]
    have hne : List.zip (si.t.take idx) (List.zipWith (· + ·)
        (List.zipWith (fun r v => fc V.RN (V.planet.rhoVec V.atm r) v) (si.r.take idx) (si.v.take idx))
        (List.zipWith (fun r v => fr V.RN (V.planet.rhoVec V.atm r) v) (si.r.take idx) (si.v.take idx))) ≠ [] := by
      obtain ⟨n, rfl⟩ : ∃ n, idx = n + 1 := ⟨idx - 1, by omega⟩
      simp [hsi, Planet.dimensionalizeArr, TrajArrays.ofSamples]
    cases hz : List.zip (si.t.take idx) (List.zipWith (· + ·)
        (List.zipWith (fun r v => fc V.RN (V.planet.rhoVec V.atm r) v) (si.r.take idx) (si.v.take idx))
        (List.zipWith (fun r v => fr V.RN (V.planet.rhoVec V.atm r) v) (si.r.take idx) (si.v.take idx))) with
    | nil => exact absurd hz hne
    | cons a l =>
      have hn : ¬ (mode = .strict ∧ (0 : ℝ) ≠ 0) := by simp
      simp only [cumTrapz, if_neg hn]
      exact ⟨_, rfl⟩
  refine ⟨?_, fun h => herr (hz.mpr h)⟩
  rw [← hz]
  constructor
  · rintro ⟨out, ho⟩ h
    rw [herr h] at ho
    cases ho
  · exact hok

/-- C24: in particular every flight that starts between trap and skip altitude (ends included) is returned, unless its
lowest point is exactly the trap altitude and its highest point exactly the skip altitude. -/
theorem C24_returns_inside (name : String) (V : Vehicle) (hP : Planet.init name = .ok V.planet)
    (mode : ScipyMode) (I : Integrator) (tSec dt deltaDeg : ℝ) (p : ℝ × FState) (S : List (ℝ × FState))
    (hS : samples V I tSec dt deltaDeg = p :: S)
    (h0 : V.planet.hTrap ≤ p.2.r * V.planet.RP - V.planet.RP)
    (h1 : p.2.r * V.planet.RP - V.planet.RP ≤ V.planet.hSkip)
    (hedge : ¬ ((∃ q ∈ p :: S, q.2.r * V.planet.RP - V.planet.RP = V.planet.hTrap) ∧
      ∃ q ∈ p :: S, q.2.r * V.planet.RP - V.planet.RP = V.planet.hSkip)) :
    ∃ out, V.propogateEntry mode I tSec dt deltaDeg = .ok out := by
  rw [(C24_returns_iff name V hP mode I tSec dt deltaDeg p S hS).1]
  rintro (⟨h, -⟩ | ⟨h, -⟩ | ⟨⟨h2, -⟩, h3, -⟩)
  · linarith
  · linarith
  · exact hedge ⟨List.mem_map.mp h2, List.mem_map.mp h3⟩

/-- Case for `C24_returns_iff` and `C24_returns_inside`: at Mars, an entry exactly at the skip altitude returns, and an
entry one kilometre below the trap altitude raises `ValueError`. -/
example : ∃ P, Planet.init "MARS" = .ok P ∧
    (∃ out, (demoEntry P (P.hSkip / 1000) 6).propogateEntry .strict constIntegrator 1200 0.1 0 = .ok out) ∧
    (demoEntry P (P.hTrap / 1000 - 1) 6).propogateEntry .strict constIntegrator 1200 0.1 0 = .error .valueError := by
  obtain ⟨P, hP⟩ := (C01_planet_names "MARS").1.mpr (by simp [Spec.bodies])
  obtain ⟨_, hR, _, _, _, hT, hTS, _⟩ := C01_planet_consistent "MARS" P hP
  have hall : ∀ h v, ∃ S, samples (demoEntry P h v) constIntegrator 1200 0.1 0
      = (0, P.nonDimState (Vehicle.entryState P (demoEntry P h v).init)) :: S ∧
      ∀ q ∈ (0, P.nonDimState (Vehicle.entryState P (demoEntry P h v).init)) :: S,
        q.2.r * P.RP - P.RP = h * 1000 := by
    intro h v
    obtain ⟨S, e1, e2⟩ := samples_const "MARS" (demoEntry P h v) hP 1200 0.1 0 (by norm_num) (by norm_num)
    refine ⟨S, e1, ?_⟩
    intro q hq
    rcases List.mem_cons.mp hq with rfl | hq
    · exact demoEntry_altitude P hR.ne' h v
    · rw [e2 q hq]; exact demoEntry_altitude P hR.ne' h v
  refine ⟨P, hP, ?_, ?_⟩
  · obtain ⟨S, e1, e2⟩ := hall (P.hSkip / 1000) 6
    have e3 := e2 _ List.mem_cons_self
    refine C24_returns_inside "MARS" (demoEntry P (P.hSkip / 1000) 6) hP .strict constIntegrator 1200 0.1 0 _ S e1 ?_ ?_ ?_
    · rw [show (demoEntry P (P.hSkip / 1000) 6).planet = P from rfl, e3]; linarith
    · rw [show (demoEntry P (P.hSkip / 1000) 6).planet = P from rfl, e3]; linarith
    · rintro ⟨⟨q, hq, hq2⟩, -⟩
      rw [show (demoEntry P (P.hSkip / 1000) 6).planet = P from rfl, e2 q hq] at hq2
      linarith
  · obtain ⟨S, e1, e2⟩ := hall (P.hTrap / 1000 - 1) 6
    have e3 := e2 _ List.mem_cons_self
    refine (C24_returns_iff "MARS" (demoEntry P (P.hTrap / 1000 - 1) 6) hP .strict constIntegrator 1200 0.1 0 _ S e1).2 ?_
    rw [show (demoEntry P (P.hTrap / 1000 - 1) 6).planet = P from rfl, e3]
    refine .inr (.inl ⟨by linarith, .inr ?_⟩)
    intro h hh
    obtain ⟨q, hq, rfl⟩ := List.mem_map.mp hh
    rw [e2 q hq]
    linarith

end AMAT.Props
