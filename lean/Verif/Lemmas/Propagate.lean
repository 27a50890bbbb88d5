import Verif.Model.Trajectory
import Verif.Lemmas.Lists

/-! Inversion lemmas for the propagation pipeline. -/

noncomputable section

open Classical

namespace AMAT

theorem trapzFrom_length (acc : ℝ) (l : List (ℝ × ℝ)) : (trapzFrom acc l).length = l.length - 1 := by
  induction l generalizing acc with
  | nil => rfl
  | cons p l ih =>
      cases l with
      | nil => rfl
      | cons q l => simp [trapzFrom, ih]

theorem cumTrapz_ok {mode : ScipyMode} {l : List (ℝ × ℝ)} {init : ℝ} {out : List ℝ}
    (h : cumTrapz mode l init = .ok out) : l ≠ [] ∧ out = init :: trapzFrom 0 l ∧ (mode = .strict → init = 0) := by
  cases l with
  | nil => simp [cumTrapz] at h
  | cons p l =>
      simp only [cumTrapz] at h
      split_ifs at h with hc
      · have h' : init :: trapzFrom 0 (p :: l) = out := by simpa using h
        refine ⟨by simp, h'.symm, ?_⟩
        intro hm
        by_contra h0
        exact hc ⟨hm, h0⟩

/-- What a successful post-processing returns (inversion of the monadic definition). -/
theorem postProcess_inv {V : Vehicle} {mode : ScipyMode} {bar : TrajArrays} {delta hi : ℝ} {out : PropOut}
    (h : V.postProcess mode bar delta hi = .ok out) :
    ∃ idx flag qc qr heat,
      V.planet.classifyTrajectory (V.planet.dimensionalizeArr bar).r = .ok (idx, flag) ∧
      V.qStagConvective ((V.planet.dimensionalizeArr bar).r.take idx)
        ((V.planet.dimensionalizeArr bar).v.take idx) = some qc ∧
      V.qStagRadiative ((V.planet.dimensionalizeArr bar).r.take idx)
        ((V.planet.dimensionalizeArr bar).v.take idx) = some qr ∧
      cumTrapz mode (List.zip ((V.planet.dimensionalizeArr bar).t.take idx) (List.zipWith (· + ·) qc qr)) hi
        = .ok heat ∧
      out = { index := idx, exitflag := flag, c := (V.planet.dimensionalizeArr bar).truncate idx,
              plotc := (V.planet.toPlotUnits (V.planet.dimensionalizeArr bar)).truncate idx,
              accNetG := List.zipWith (V.accNet delta) ((V.planet.dimensionalizeArr bar).r.take idx)
                ((V.planet.dimensionalizeArr bar).v.take idx),
              accDragG := List.zipWith (V.accDrag delta) ((V.planet.dimensionalizeArr bar).r.take idx)
                ((V.planet.dimensionalizeArr bar).v.take idx),
              dynPresAtm := (List.zipWith V.dynPres ((V.planet.dimensionalizeArr bar).r.take idx)
                ((V.planet.dimensionalizeArr bar).v.take idx)).map (· / 1.01325E5),
              stagPresAtm := (List.zipWith V.stagPres ((V.planet.dimensionalizeArr bar).r.take idx)
                ((V.planet.dimensionalizeArr bar).v.take idx)).map (· / 1.01325E5),
              qStagCon := qc, qStagRad := qr, qStagTotal := List.zipWith (· + ·) qc qr, heatload := heat } := by
  unfold Vehicle.postProcess at h
  simp only [bind, Except.bind, pure, Except.pure, TrajArrays.truncate] at h
  cases hc : V.planet.classifyTrajectory (V.planet.dimensionalizeArr bar).r with
  | error e => rw [hc] at h; simp at h
  | ok p =>
      obtain ⟨idx, flag⟩ := p
      rw [hc] at h
      simp only at h
      cases hq : V.qStagConvective ((V.planet.dimensionalizeArr bar).r.take idx)
        ((V.planet.dimensionalizeArr bar).v.take idx) with
      | none => rw [hq] at h; simp [needNumber] at h
      | some qc =>
          rw [hq] at h
          cases hq2 : V.qStagRadiative ((V.planet.dimensionalizeArr bar).r.take idx)
            ((V.planet.dimensionalizeArr bar).v.take idx) with
          | none => rw [hq2] at h; simp [needNumber] at h
          | some qr =>
              rw [hq2] at h
              simp only [needNumber] at h
              cases hh : cumTrapz mode (List.zip ((V.planet.dimensionalizeArr bar).t.take idx)
                (List.zipWith (· + ·) qc qr)) hi with
              | error e => rw [hh] at h; simp at h
              | ok heat =>
                  rw [hh] at h
                  refine ⟨idx, flag, qc, qr, heat, rfl, hq, hq2, hh, ?_⟩
                  simp only [Except.ok.injEq] at h
                  exact h.symm

/-- Unfolding of the classification for a non-empty history. -/
theorem classify_eq (P : Planet) {r : List ℝ} {m M : ℝ} (hM : pyMax (r.map P.computeH) = .ok M)
    (hm : pyMin (r.map P.computeH) = .ok m) :
    P.classifyTrajectory r =
      if m ≥ 0 ∧ M > P.hSkip then
        .ok (argmaxBool ((r.map P.computeH).map fun x => decide (x > P.hSkip)), 1)
      else if m ≥ P.hTrap ∧ M < P.hSkip then .ok ((r.map P.computeH).length, 0)
      else if m ≤ P.hTrap then
        .ok (argmaxBool ((r.map P.computeH).map fun x => decide (x < P.hTrap)), -1)
      else .ok ((r.map P.computeH).length, 0) := by
  unfold Planet.classifyTrajectory
  simp only [hM, hm, bind, Except.bind, pure, Except.pure]

theorem classify_nonempty {P : Planet} {r : List ℝ} {x : ℕ × ℤ} (h : P.classifyTrajectory r = .ok x) :
    r ≠ [] := by
  rintro rfl
  simp [Planet.classifyTrajectory, pyMax, bind, Except.bind] at h

theorem classify_index_le {P : Planet} {r : List ℝ} {idx : ℕ} {flag : ℤ}
    (h : P.classifyTrajectory r = .ok (idx, flag)) : idx ≤ r.length := by
  have hne : r.map P.computeH ≠ [] := by simpa using classify_nonempty h
  obtain ⟨M, hM, _⟩ := pyMax_spec hne
  obtain ⟨m, hm, _⟩ := pyMin_spec hne
  rw [classify_eq P hM hm] at h
  have a1 := (argmaxBool_spec (r.map P.computeH) (fun x => x > P.hSkip)).2.2.2
  have a2 := (argmaxBool_spec (r.map P.computeH) (fun x => x < P.hTrap)).2.2.2
  rw [List.length_map] at a1 a2
  split_ifs at h <;>
    · simp only [Except.ok.injEq, Prod.mk.injEq] at h
      obtain ⟨rfl, _⟩ := h
      first | exact a1 | exact a2 | simp

theorem qStagConvective_length {V : Vehicle} {r v q : List ℝ} (h : V.qStagConvective r v = some q) :
    q.length = min r.length v.length := by
  unfold Vehicle.qStagConvective at h
  obtain ⟨f, _, rfl⟩ := Option.map_eq_some_iff.mp h
  simp

theorem qStagRadiative_length {V : Vehicle} {r v q : List ℝ} (h : V.qStagRadiative r v = some q) :
    q.length = min r.length v.length := by
  unfold Vehicle.qStagRadiative at h
  obtain ⟨f, _, rfl⟩ := Option.map_eq_some_iff.mp h
  simp

end AMAT
