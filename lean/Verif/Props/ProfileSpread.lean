import Verif.Props.PlanetProps

/-
Property C139: sampled density profiles of a Monte Carlo file at every altitude, between the tabulated heights as well.
-/

noncomputable section

namespace AMAT

/-- The table lookup is linear in the tabulated values. -/
theorem interpSeg_lin {α : Type} (x : α → ℝ) (g g1 g2 : α → ℝ) (a b : ℝ) (hg : ∀ r, g r = a * g1 r + b * g2 r) (h : ℝ) :
    ∀ l : List α, interpSeg (l.map (fun r => (x r, g r))) h =
      a * interpSeg (l.map (fun r => (x r, g1 r))) h + b * interpSeg (l.map (fun r => (x r, g2 r))) h
  | [] => by simp [interpSeg]
  | [p] => by simp [interpSeg, hg]
  | p :: q :: rest => by
    have ih := interpSeg_lin x g g1 g2 a b hg h (q :: rest)
    simp only [List.map_cons, interpSeg, List.map_eq_nil_iff] at ih ⊢
    split
    · rw [hg, hg]; ring
    · exact ih

theorem sortedNodes_map {α : Type} (x g : α → ℝ) (l : List α) :
    sortedNodes (l.map (fun r => (x r, g r))) = (l.mergeSort (fun a b => decide (x a ≤ x b))).map (fun r => (x r, g r)) := by
  unfold sortedNodes
  rw [List.map_mergeSort]
  intro a _ b _
  rfl

theorem interpSorted_lin {α : Type} (x : α → ℝ) (g g1 g2 : α → ℝ) (a b : ℝ) (hg : ∀ r, g r = a * g1 r + b * g2 r) (h : ℝ)
    (l : List α) : interpSorted (l.map (fun r => (x r, g r))) 0 0 h =
      a * interpSorted (l.map (fun r => (x r, g1 r))) 0 0 h + b * interpSorted (l.map (fun r => (x r, g2 r))) 0 0 h := by
  have hs := interpSeg_lin x g g1 g2 a b hg h l
  unfold interpSorted
  simp only [List.head?_map, List.getLast?_map]
  cases l.head? with
  | none => simp
  | some p =>
    cases l.getLast? with
    | none => simp
    | some q =>
      simp only [Option.map_some]
      split
      · ring
      · split
        · ring
        · exact hs

theorem interp1d_lin {α : Type} (x : α → ℝ) (g g1 g2 : α → ℝ) (a b : ℝ) (hg : ∀ r, g r = a * g1 r + b * g2 r) (l : List α)
    (f f1 f2 : ℝ → ℝ) (hf : interp1d (l.map (fun r => (x r, g r))) 0 0 = .ok f)
    (hf1 : interp1d (l.map (fun r => (x r, g1 r))) 0 0 = .ok f1) (hf2 : interp1d (l.map (fun r => (x r, g2 r))) 0 0 = .ok f2)
    (h : ℝ) : f h = a * f1 h + b * f2 h := by
  obtain ⟨-, rfl⟩ := (interp1d_ok_iff _ _ _ _).mp hf
  obtain ⟨-, rfl⟩ := (interp1d_ok_iff _ _ _ _).mp hf1
  obtain ⟨-, rfl⟩ := (interp1d_ok_iff _ _ _ _).mp hf2
  rw [sortedNodes_map, sortedNodes_map, sortedNodes_map]
  exact interpSorted_lin x g g1 g2 a b hg h _

namespace Props

/-- C139, mixing: at every altitude the profile for a deviation `s` is the mixture of the mean and the high (`s ≥ 0`) or low
(`s ≤ 0`) profile with weights `1 - |s|` and `|s|`. -/
theorem C139_mixture (rows : List DensRow) (NPOS i : ℕ) (f mean high low : ℝ → ℝ) (s : ℝ)
    (hf : loadAtmosphereModel5 rows s NPOS i = .ok f) (h0 : loadAtmosphereModel5 rows 0 NPOS i = .ok mean)
    (h1 : loadAtmosphereModel5 rows 1 NPOS i = .ok high) (h2 : loadAtmosphereModel5 rows (-1) NPOS i = .ok low) (h : ℝ) :
    (0 ≤ s → f h = (1 - s) * mean h + s * high h) ∧ (s ≤ 0 → f h = (1 + s) * mean h + (-s) * low h) := by
  constructor
  · intro hs
    exact interp1d_lin DensRow.height _ _ _ _ _ (fun row => (C08_sigma_scaling row).2.2.2.1 s hs) _ _ _ _ hf h0 h1 h
  · intro hs
    exact interp1d_lin DensRow.height _ _ _ _ _ (fun row => (C08_sigma_scaling row).2.2.2.2.1 s hs) _ _ _ _ hf h0 h2 h

/-- C139, perturbation: `loadAtmosphereModel6` returns a profile exactly when `loadAtmosphereModel5` does, and at every altitude the
two differ by the tabulated perturbation, which does not depend on the deviation. -/
theorem C139_perturbation (rows : List DensRow) (NPOS i : ℕ) :
    (∀ s, (∃ f, loadAtmosphereModel5 rows s NPOS i = .ok f) ↔ ∃ m, loadAtmosphereModel6 rows s NPOS i = .ok m) ∧
    ∀ p, interp1d ((profileSlice rows NPOS i).map (fun row => (row.height, row.pert))) 0 0 = .ok p →
      ∀ s f m, loadAtmosphereModel5 rows s NPOS i = .ok f → loadAtmosphereModel6 rows s NPOS i = .ok m → ∀ h, f h = m h + p h := by
  constructor
  · intro s
    unfold loadAtmosphereModel5 loadAtmosphereModel6
    rw [C05_table_accepted, C05_table_accepted, List.length_map, List.length_map]
  · intro p hp s f m hf hm h
    have := interp1d_lin DensRow.height _ _ _ 1 1 (fun row : DensRow => by
      show mcDensity5 row s = 1 * mcDensity6 row s + 1 * row.pert
      unfold mcDensity5 mcDensity6; ring) _ _ _ _ hf hm hp h
    rw [this]; ring

/-- C139, spread: with `low ≤ mean ≤ high` in every row, a larger deviation never gives a thinner atmosphere, at any altitude, and
the profile of `loadAtmosphereModel6` stays between the low and the high profile for deviations between -1 and 1. -/
theorem C139_spread (rows : List DensRow) (NPOS i : ℕ) (hd : (profileSlice rows NPOS i).Pairwise (fun p q => p.height ≠ q.height))
    (hb : ∀ row ∈ profileSlice rows NPOS i, row.low ≤ row.avg ∧ row.avg ≤ row.high) :
    (∀ s t f g, s ≤ t → loadAtmosphereModel5 rows s NPOS i = .ok f → loadAtmosphereModel5 rows t NPOS i = .ok g → ∀ h, f h ≤ g h) ∧
    ∀ s m lo hi, -1 ≤ s → s ≤ 1 → loadAtmosphereModel6 rows s NPOS i = .ok m →
      interp1d ((profileSlice rows NPOS i).map (fun row => (row.height, row.low))) 0 0 = .ok lo →
      interp1d ((profileSlice rows NPOS i).map (fun row => (row.height, row.high))) 0 0 = .ok hi →
      ∀ h, lo h ≤ m h ∧ m h ≤ hi h := by
  have key : ∀ (g1 g2 : DensRow → ℝ) (f g : ℝ → ℝ), (∀ row ∈ profileSlice rows NPOS i, g1 row ≤ g2 row) →
      interp1d ((profileSlice rows NPOS i).map (fun row => (row.height, g1 row))) 0 0 = .ok f →
      interp1d ((profileSlice rows NPOS i).map (fun row => (row.height, g2 row))) 0 0 = .ok g → ∀ h, f h ≤ g h := by
    intro g1 g2 f g hle hf hg h
    obtain ⟨d, hdif⟩ := (C05_table_accepted ((profileSlice rows NPOS i).map (fun row => (row.height, g2 row - g1 row))) 0 0).mpr (by
      rw [List.length_map]
      have := (C05_table_accepted _ 0 0).mp ⟨f, hf⟩
      rwa [List.length_map] at this)
    have hl := interp1d_lin DensRow.height _ _ _ 1 1 (fun row : DensRow => by
      show g2 row = 1 * g1 row + 1 * (g2 row - g1 row)
      ring) _ _ _ _ hg hf hdif h
    have hnn : 0 ≤ d h := by
      by_cases c1 : ∃ p ∈ (profileSlice rows NPOS i).map (fun row => (row.height, g2 row - g1 row)), p.1 ≤ h
      · by_cases c2 : ∃ p ∈ (profileSlice rows NPOS i).map (fun row => (row.height, g2 row - g1 row)), h ≤ p.1
        · obtain ⟨M, -, hM⟩ := list_exists_max Prod.snd ((profileSlice rows NPOS i).map (fun row => (row.height, g2 row - g1 row)))
            (by obtain ⟨p, hp, -⟩ := c1; exact List.ne_nil_of_mem hp)
          refine (C05_table_bounds _ 0 0 d hdif (by rw [List.pairwise_map]; exact hd) 0 M.2 ?_ h c1 c2).1
          intro p hp
          refine ⟨?_, hM p hp⟩
          obtain ⟨row, hr, rfl⟩ := List.mem_map.mp hp
          exact sub_nonneg.mpr (hle row hr)
        · push Not at c2
          rw [(C05_table_outside _ 0 0 d hdif h).2 c2]
      · push Not at c1
        rw [(C05_table_outside _ 0 0 d hdif h).1 c1]
    linarith
  constructor
  · intro s t f g hst hf hg
    exact key _ _ f g (fun row hr => (C08_sigma_scaling row).2.2.2.2.2.2 (hb row hr).1 (hb row hr).2 hst) hf hg
  · intro s m lo hi h1 h2 hm hlo hhi h
    constructor
    · refine key _ _ lo m (fun row hr => ?_) hlo hm h
      have := (C08_sigma_scaling { row with pert := 0 }).2.2.2.2.2.2 (hb row hr).1 (hb row hr).2 h1
      rw [(C08_sigma_scaling { row with pert := 0 }).2.2.1, ← C08_model6_is_model5_without_perturbation, add_zero] at this
      exact this
    · refine key _ _ m hi (fun row hr => ?_) hm hhi h
      have := (C08_sigma_scaling { row with pert := 0 }).2.2.2.2.2.2 (hb row hr).1 (hb row hr).2 h2
      rw [(C08_sigma_scaling { row with pert := 0 }).2.1, ← C08_model6_is_model5_without_perturbation, add_zero] at this
      exact this

/-- Case for `C139_mixture`, `C139_perturbation` and `C139_spread`: two profiles of two rows each; halfway between the rows of the
second one, the density for `sigma = 0.5`. -/
example : ∃ (rows : List DensRow) (f m : ℝ → ℝ), loadAtmosphereModel5 rows 0.5 2 2 = .ok f ∧
    loadAtmosphereModel6 rows 0.5 2 2 = .ok m ∧
    (profileSlice rows 2 2).Pairwise (fun p q => p.height ≠ q.height) ∧
    (∀ row ∈ profileSlice rows 2 2, row.low ≤ row.avg ∧ row.avg ≤ row.high) ∧ m 500 = 2 ∧ f 500 = 2.25 := by
  set rows : List DensRow := [⟨0, 1, 2, 3, 0⟩, ⟨1000, 1, 1, 1, 0⟩, ⟨0, 1, 2, 4, 0.5⟩, ⟨1000, 0.5, 0.5, 1.5, 0⟩] with hrows
  have hsl : profileSlice rows 2 2 = [⟨0, 1, 2, 4, 0.5⟩, ⟨1000, 0.5, 0.5, 1.5, 0⟩] := by simp [profileSlice, hrows]
  obtain ⟨f, hf⟩ := (C05_table_accepted ((profileSlice rows 2 2).map (fun row => (row.height, mcDensity5 row 0.5))) 0 0).mpr
    (by rw [hsl]; simp)
  obtain ⟨m, hm⟩ := ((C139_perturbation rows 2 2).1 0.5).mp ⟨f, hf⟩
  have hd : (profileSlice rows 2 2).Pairwise (fun p q => p.height ≠ q.height) := by rw [hsl]; simp
  obtain ⟨p, hp⟩ := (C05_table_accepted ((profileSlice rows 2 2).map (fun row => (row.height, row.pert))) 0 0).mpr
    (by rw [hsl]; simp)
  have e1 := C05_table_linear_between_neighbours _ 0 0 m hm (by rw [List.pairwise_map]; exact hd)
    (0, mcDensity6 ⟨0, 1, 2, 4, 0.5⟩ 0.5) (1000, mcDensity6 ⟨1000, 0.5, 0.5, 1.5, 0⟩ 0.5) (by rw [hsl]; simp) (by rw [hsl]; simp)
    (by norm_num) (by rw [hsl]; simp) (1 / 2) (by norm_num)
  have e2 := C05_table_linear_between_neighbours _ 0 0 p hp (by rw [List.pairwise_map]; exact hd)
    (0, 0.5) (1000, 0) (by rw [hsl]; simp) (by rw [hsl]; simp)
    (by norm_num) (by rw [hsl]; simp) (1 / 2) (by norm_num)
  have em : m 500 = 2 := by
    norm_num [mcDensity6, pSigmaFunc, nSigmaFunc] at e1
    rw [e1]
  have ep : p 500 = 0.25 := by
    norm_num at e2
    rw [e2]; norm_num
  refine ⟨rows, f, m, hf, hm, hd, ?_, em, ?_⟩
  · rw [hsl]; norm_num
  · rw [(C139_perturbation rows 2 2).2 p hp 0.5 f m hf hm 500, em, ep]; norm_num

end Props

end AMAT
