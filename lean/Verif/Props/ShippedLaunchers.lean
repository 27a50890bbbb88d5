import Verif.Model.LauncherData
import Verif.Props.InterplanetaryProps

/-
Property C83: the launch vehicles shipped with the source.
-/

noncomputable section

namespace AMAT.Props

open AMAT

/-- The rows of a shipped file as `np.loadtxt` returns them (launcher.py:36). -/
def curveRows (c : List (ℤ × ℤ)) : List (ℝ × ℝ) :=
  c.map (fun p => ((p.1 : ℝ) / 10 ^ 22, (p.2 : ℝ) / 10 ^ 22))

/-- `C3` strictly increases, mass never increases and stays positive along the rows. -/
def descendingCurve : List (ℤ × ℤ) → Bool
  | [] => true
  | [p] => decide (0 < p.2)
  | p :: q :: rest => decide (p.1 < q.1) && decide (q.2 ≤ p.2) && descendingCurve (q :: rest)

theorem curves_descending : Data.launcherCurves.all
    (fun c => descendingCurve c.2 && decide (2 ≤ c.2.length)) = true := by
  decide +kernel

theorem descendingCurve_spec {p : ℤ × ℤ} {c : List (ℤ × ℤ)} (h : descendingCurve (p :: c) = true) :
    (0 < p.2 ∧ ∀ q ∈ c, 0 < q.2 ∧ p.1 < q.1 ∧ q.2 ≤ p.2) ∧
      (p :: c).Pairwise (fun a b => a.1 < b.1 ∧ b.2 ≤ a.2) := by
  induction c generalizing p with
  | nil => simp [descendingCurve] at h; simp [h]
  | cons q rest ih =>
    simp only [descendingCurve, Bool.and_eq_true, decide_eq_true_eq] at h
    obtain ⟨⟨h1, h2⟩, h3⟩ := h
    obtain ⟨⟨h4, h5⟩, h6⟩ := ih h3
    have hall : ∀ r ∈ q :: rest, 0 < r.2 ∧ p.1 < r.1 ∧ r.2 ≤ p.2 := by
      intro r hr
      rcases List.mem_cons.mp hr with rfl | hr
      · exact ⟨h4, h1, h2⟩
      · obtain ⟨a, b, c⟩ := h5 r hr
        exact ⟨a, h1.trans b, c.trans h2⟩
    refine ⟨⟨h4.trans_le h2, hall⟩, ?_⟩
    rw [List.pairwise_cons]
    exact ⟨fun r hr => ⟨(hall r hr).2.1, (hall r hr).2.2⟩, h6⟩

/-- What is used of a shipped curve. -/
theorem shipped_curve {name : String} {c : List (ℤ × ℤ)} (h : (name, c) ∈ Data.launcherCurves) :
    2 ≤ (curveRows c).length ∧ (curveRows c).Pairwise (fun p q => p.1 ≠ q.1) ∧
    (∀ p ∈ curveRows c, ∀ q ∈ curveRows c, p.1 ≤ q.1 → q.2 ≤ p.2) ∧
    (∀ p ∈ curveRows c, 0 < p.2) := by
  have h1 := List.all_eq_true.mp curves_descending _ h
  simp only [Bool.and_eq_true, decide_eq_true_eq] at h1
  obtain ⟨hd, hl⟩ := h1
  obtain ⟨p, t, rfl⟩ : ∃ p t, c = p :: t := by
    match c, hl with
    | p :: t, _ => exact ⟨p, t, rfl⟩
  obtain ⟨⟨hp, ht⟩, hpw⟩ := descendingCurve_spec hd
  have h10 : (0:ℝ) < 10 ^ 22 := by positivity
  have hpw' : (curveRows (p :: t)).Pairwise (fun a b => a.1 < b.1 ∧ b.2 ≤ a.2) := by
    unfold curveRows
    rw [List.pairwise_map]
    refine hpw.imp ?_
    intro a b hab
    exact ⟨by have : (a.1 : ℝ) < b.1 := by exact_mod_cast hab.1
              exact div_lt_div_of_pos_right this h10,
           by have : (b.2 : ℝ) ≤ a.2 := by exact_mod_cast hab.2
              exact div_le_div_of_nonneg_right this h10.le⟩
  refine ⟨by simpa [curveRows] using hl, hpw'.imp (fun h => h.1.ne), ?_, ?_⟩
  · intro a ha b hb hab
    by_contra hc
    push Not at hc
    have : a = b ∨ (a.1 < b.1 ∧ b.2 ≤ a.2) ∨ (b.1 < a.1 ∧ a.2 ≤ b.2) := by
      have key : ∀ (l : List (ℝ × ℝ)), l.Pairwise (fun a b => a.1 < b.1 ∧ b.2 ≤ a.2) → a ∈ l → b ∈ l →
          a = b ∨ (a.1 < b.1 ∧ b.2 ≤ a.2) ∨ (b.1 < a.1 ∧ a.2 ≤ b.2) := by
        intro l hl ha hb
        induction l with
        | nil => simp at ha
        | cons x l ih =>
          rw [List.pairwise_cons] at hl
          rcases List.mem_cons.mp ha with rfl | ha' <;> rcases List.mem_cons.mp hb with rfl | hb'
          · exact Or.inl rfl
          · exact Or.inr (Or.inl (hl.1 _ hb'))
          · exact Or.inr (Or.inr (hl.1 _ ha'))
          · exact ih hl.2 ha' hb'
      exact key _ hpw' ha hb
    rcases this with rfl | h | h
    · exact lt_irrefl _ hc
    · linarith [h.2]
    · linarith [h.1]
  · intro a ha
    obtain ⟨q, hq, rfl⟩ := List.mem_map.mp ha
    have : 0 < q.2 := by
      rcases List.mem_cons.mp hq with rfl | hq
      · exact hp
      · exact (ht q hq).1
    have h3 : (0:ℝ) < q.2 := by exact_mod_cast this
    exact div_pos h3 h10

/-- C83, the part that holds: for every shipped launch vehicle, within its published range of `C3`
the launch mass is positive, never above the largest published mass, and never increases when more
launch energy is asked for. -/
theorem C83_within_range_partial (name : String) (c : List (ℤ × ℤ))
    (h : (name, c) ∈ Data.launcherCurves) (C D : ℝ) (hCD : C ≤ D)
    (h1 : ∃ p ∈ curveRows c, p.1 ≤ C) (h2 : ∃ p ∈ curveRows c, D ≤ p.1) :
    ∃ mC mD, launchMass (curveRows c) C = .ok mC ∧ launchMass (curveRows c) D = .ok mD ∧
      0 < mD ∧ mD ≤ mC ∧ ∃ p ∈ curveRows c, mC ≤ p.2 := by
  obtain ⟨hl, hd, hdec, hpos⟩ := shipped_curve h
  obtain ⟨-, hb, ha⟩ := C06_launch_mass_inside (curveRows c) hl hd
  obtain ⟨mC, mD, hC, hD, hle⟩ := ha hdec C D hCD h1 h2
  have h1' : ∃ p ∈ curveRows c, p.1 ≤ D := by
    obtain ⟨p, hp, hpC⟩ := h1; exact ⟨p, hp, hpC.trans hCD⟩
  have h2' : ∃ p ∈ curveRows c, C ≤ p.1 := by
    obtain ⟨p, hp, hpD⟩ := h2; exact ⟨p, hp, hCD.trans hpD⟩
  obtain ⟨m, hm, ⟨p, hp, hpm⟩, -⟩ := hb D h1' h2
  obtain ⟨m', hm', -, q, hq, hqm⟩ := hb C h1 h2'
  rw [hD] at hm; cases hm
  rw [hC] at hm'; cases hm'
  exact ⟨mC, mD, hC, hD, (hpos p hp).trans_le hpm, hle, q, hq, hqm⟩

/-- C83: the claim that less launch energy never costs launch mass is false for *every* shipped launch
vehicle: below the first published `C3` the mass is zero, at the first published `C3` it is not. -/
theorem C83_below_range (name : String) (c : List (ℤ × ℤ)) (h : (name, c) ∈ Data.launcherCurves) :
    ∃ p ∈ curveRows c, 0 < p.2 ∧ launchMass (curveRows c) p.1 = .ok p.2 ∧
      ∀ C, C < p.1 → launchMass (curveRows c) C = .ok 0 := by
  obtain ⟨hl, hd, -, hpos⟩ := shipped_curve h
  have hne : curveRows c ≠ [] := by intro h0; rw [h0] at hl; simp at hl
  obtain ⟨p, hp, hmin⟩ := list_exists_min (fun p : ℝ × ℝ => p.1) (curveRows c) hne
  refine ⟨p, hp, hpos p hp, (C06_launch_mass_inside (curveRows c) hl hd).1 p hp, ?_⟩
  intro C hC
  exact C06_launch_mass_zero_outside (curveRows c) hl C (Or.inl fun q hq => hC.trans_le (hmin q hq))

/-- The largest case: the shipped curve of SLS Block 1 starts at `C3 = 29` with 14 867.756 kg; for
`C3 = 20` the reported launch mass is zero.  Case for `C83_below_range`. -/
theorem C83_sls_example : launchMass (curveRows Data.slsBlock1) 29 = .ok 14867.756 ∧
    launchMass (curveRows Data.slsBlock1) 20 = .ok 0 := by
  have hm : ("sls-block-1.csv", Data.slsBlock1) ∈ Data.launcherCurves := by
    simp [Data.launcherCurves]
  obtain ⟨hl, hd, -, -⟩ := shipped_curve hm
  have h29 : (29, 14867.756) ∈ curveRows Data.slsBlock1 := by
    refine List.mem_map.mpr ⟨(290000000000000000000000, 148677560000000000000000000), ?_, ?_⟩
    · simp [Data.slsBlock1]
    · norm_num
  refine ⟨(C06_launch_mass_inside _ hl hd).1 _ h29, ?_⟩
  refine C06_launch_mass_zero_outside _ hl 20 (Or.inl ?_)
  have hall : ∀ q ∈ Data.slsBlock1, (290000000000000000000000:ℤ) ≤ q.1 := by decide +kernel
  intro p hp
  obtain ⟨q, hq, rfl⟩ := List.mem_map.mp hp
  have : ((290000000000000000000000:ℤ):ℝ) ≤ q.1 := by exact_mod_cast hall q hq
  rw [lt_div_iff₀ (by positivity)]
  push_cast at this
  norm_num at this ⊢
  linarith

/-- Case for `C83_within_range_partial`: SLS Block 1 between its first published `C3` and 30. -/
example : ∃ mC mD, launchMass (curveRows Data.slsBlock1) 29 = .ok mC ∧ launchMass (curveRows Data.slsBlock1) 30 = .ok mD ∧
    0 < mD ∧ mD ≤ mC := by
  have hm : ("sls-block-1.csv", Data.slsBlock1) ∈ Data.launcherCurves := by
    simp [Data.launcherCurves]
  have h29 : (29, 14867.756) ∈ curveRows Data.slsBlock1 := by
    refine List.mem_map.mpr ⟨(290000000000000000000000, 148677560000000000000000000), ?_, ?_⟩
    · simp [Data.slsBlock1]
    · norm_num
  have h30 : ∃ q ∈ Data.slsBlock1, (300000000000000000000000:ℤ) ≤ q.1 := by decide +kernel
  obtain ⟨q, hq, h⟩ := h30
  obtain ⟨mC, mD, h1, h2, h3, h4, -⟩ := C83_within_range_partial "sls-block-1.csv" _ hm 29 30 (by norm_num)
    ⟨_, h29, le_rfl⟩ ⟨_, List.mem_map.mpr ⟨q, hq, rfl⟩, by
      have : ((300000000000000000000000:ℤ):ℝ) ≤ q.1 := by exact_mod_cast h
      rw [le_div_iff₀ (by positivity)]
      refine le_trans ?_ this
      norm_num⟩
  exact ⟨mC, mD, h1, h2, h3, h4⟩

end AMAT.Props
