import Verif.Model.Interplanetary
import Verif.Props.Tables
import Mathlib.Tactic.Linarith

/-
Property C82 (what the launch-mass plots show).
-/

noncomputable section

open Classical

namespace AMAT.Spec

/-- A point of a figure that lies inside the drawn part of the vertical axis. -/
def Shows (F : Figure) (p : ℝ × ℝ) : Prop :=
  p ∈ F.points ∧ ∀ lim, F.ylim = some lim → lim.1 ≤ p.2 ∧ p.2 ≤ lim.2

/-- At least two opportunities differ in launch mass. -/
def Differ (masses : List ℝ) : Prop := ∃ a ∈ masses, ∃ b ∈ masses, a ≠ b

end AMAT.Spec

namespace AMAT.Props

open AMAT

/-- The second smallest distinct value: exactly one value of the list lies below it. -/
theorem secondDistinct_ok {l : List ℝ} {s : ℝ} (h : secondDistinct l = .ok s) :
    s ∈ l ∧ ∃ a ∈ l, a < s ∧ ∀ b ∈ l, b = a ∨ s ≤ b := by
  have hs := (l.toFinset.sortedLT_sort)
  have hm : ∀ x, x ∈ l.toFinset.sort (· ≤ ·) ↔ x ∈ l := by intro x; simp
  unfold secondDistinct at h
  generalize l.toFinset.sort (· ≤ ·) = L at *
  match L, h with
  | [], h => simp at h
  | [_], h => simp at h
  | a :: x :: t, h =>
    simp only [List.getElem?_cons_succ, List.getElem?_cons_zero, Except.ok.injEq] at h
    subst h
    have hp := hs.pairwise
    simp only [List.pairwise_cons, List.mem_cons, forall_eq_or_imp] at hp
    refine ⟨(hm _).mp (by simp), a, (hm _).mp (by simp), hp.1.1, ?_⟩
    intro b hb
    rcases List.mem_cons.mp ((hm b).mpr hb) with h1 | h1
    · exact Or.inl h1
    · rcases List.mem_cons.mp h1 with h2 | h2
      · exact Or.inr h2.ge
      · exact Or.inr (hp.2.1 b h2).le

theorem secondDistinct_cases (l : List ℝ) :
    (Spec.Differ l ∧ ∃ s, secondDistinct l = .ok s) ∨
      (¬ Spec.Differ l ∧ secondDistinct l = .error .indexError) := by
  have hs := (l.toFinset.sortedLT_sort)
  have hm : ∀ x, x ∈ l.toFinset.sort (· ≤ ·) ↔ x ∈ l := by intro x; simp
  unfold secondDistinct
  generalize l.toFinset.sort (· ≤ ·) = L at *
  match L with
  | [] =>
    refine Or.inr ⟨?_, rfl⟩
    rintro ⟨a, ha, -⟩
    exact absurd ((hm a).mpr ha) (by simp)
  | [x] =>
    refine Or.inr ⟨?_, rfl⟩
    rintro ⟨a, ha, b, hb, hab⟩
    have h1 := (hm a).mpr ha
    have h2 := (hm b).mpr hb
    simp only [List.mem_singleton] at h1 h2
    exact hab (h1.trans h2.symm)
  | a :: x :: t =>
    refine Or.inl ⟨⟨a, (hm a).mp (by simp), x, (hm x).mp (by simp), ?_⟩, x, rfl⟩
    have hp := hs.pairwise
    simp only [List.pairwise_cons, List.mem_cons, forall_eq_or_imp] at hp
    exact hp.1.1.ne

theorem pyMax_ok {l : List ℝ} (h : l ≠ []) :
    ∃ M, pyMax l = .ok M ∧ M ∈ l ∧ ∀ x ∈ l, x ≤ M := by
  have key : ∀ (t : List ℝ) (x : ℝ), (t.foldl max x ∈ x :: t) ∧ ∀ y ∈ x :: t, y ≤ t.foldl max x := by
    intro t
    induction t with
    | nil => intro x; simp
    | cons z t ih =>
      intro x
      have := ih (max x z)
      simp only [List.foldl_cons, List.mem_cons, forall_eq_or_imp] at this ⊢
      refine ⟨?_, ?_, ?_, this.2.2⟩
      · rcases this.1 with h | h
        · rcases max_choice x z with h' | h'
          · exact Or.inl (h.trans h')
          · exact Or.inr (Or.inl (h.trans h'))
        · exact Or.inr (Or.inr h)
      · exact le_trans (le_max_left _ _) this.2.1
      · exact le_trans (le_max_right _ _) this.2.1
  match l, h with
  | x :: t, _ => exact ⟨_, rfl, key t x⟩

theorem massAxis_cases (l : List ℝ) :
    (Spec.Differ l ∧ ∃ s M, secondDistinct l = .ok s ∧ M ∈ l ∧ (∀ x ∈ l, x ≤ M) ∧
        massAxis l = .ok (max 0 s - 100, M + 100) ∧ massColours l = .ok (max 0 s, M)) ∨
      (¬ Spec.Differ l ∧ massAxis l = .error .indexError ∧ massColours l = .error .indexError) := by
  rcases secondDistinct_cases l with ⟨hd, s, hs⟩ | ⟨hd, hs⟩
  · have hne : l ≠ [] := by rintro rfl; obtain ⟨a, ha, -⟩ := hd; simp at ha
    obtain ⟨M, hM, hMm, hMx⟩ := pyMax_ok hne
    refine Or.inl ⟨hd, s, M, hs, hMm, hMx, ?_, ?_⟩
    · simp [massAxis, hs, hM, bind, Except.bind, pure, Except.pure]
    · simp [massColours, hs, hM, bind, Except.bind, pure, Except.pure]
  · refine Or.inr ⟨hd, ?_, ?_⟩
    · simp [massAxis, hs, bind, Except.bind]
    · simp [massColours, hs, bind, Except.bind]

/-- C82: a launch-mass plot is drawn exactly when two opportunities differ in launch mass; otherwise
(one opportunity only, or a vehicle that can fly none of them) all four plots end in an
`IndexError`. -/
theorem C82_drawn_iff (rows : List (ℝ × ℝ)) (os : List Opportunity) (masses : List ℝ)
    (hm : computeLaunchCapability rows (os.map (·.C3)) = .ok masses) :
    (Spec.Differ masses → (∃ F, plotMassDate rows os = .ok F) ∧ (∃ F, plotMassTOF rows os = .ok F) ∧
      (∃ F, plotMassTOFColour rows os = .ok F) ∧ (∃ F, plotVinfColour rows os = .ok F)) ∧
    (¬ Spec.Differ masses → plotMassDate rows os = .error .indexError ∧
      plotMassTOF rows os = .error .indexError ∧
      plotMassTOFColour rows os = .error .indexError ∧
      plotVinfColour rows os = .error .indexError) := by
  rcases massAxis_cases masses with ⟨hd, s, M, -, hM, -, h1, h2⟩ | ⟨hd, h1, h2⟩
  · refine ⟨fun _ => ?_, fun h => absurd hd h⟩
    have hne : os ≠ [] := by
      rintro rfl
      simp only [computeLaunchCapability, bind, Except.bind, List.map_nil] at hm
      cases hL : launcherInit rows with
      | error e => simp [hL] at hm
      | ok f => simp [hL] at hm; subst hm; simp at hM
    obtain ⟨o, t, rfl⟩ : ∃ o t, os = o :: t := by
      match os, hne with
      | o :: t, _ => exact ⟨o, t, rfl⟩
    refine ⟨?_, ?_, ?_, ?_⟩
    · exact ⟨_, by simp only [plotMassDate, hm, h1, bind, Except.bind, pure, Except.pure]; rfl⟩
    · exact ⟨_, by simp only [plotMassTOF, hm, h1, bind, Except.bind, pure, Except.pure]; rfl⟩
    · exact ⟨_, by
        simp only [plotMassTOFColour, hm, h1, bind, Except.bind, pure, Except.pure]
        simp only [pyMin, pyMax, List.map_cons]; rfl⟩
    · exact ⟨_, by simp only [plotVinfColour, hm, h2, bind, Except.bind, pure, Except.pure]; rfl⟩
  · refine ⟨fun h => absurd h hd, fun _ => ?_⟩
    simp [plotMassDate, plotMassTOF, plotMassTOFColour, plotVinfColour, hm, h1, h2, bind, Except.bind]

/-- The figures that have launch mass on the vertical axis, with the abscissa of each. -/
def massPlots : List ((List (ℝ × ℝ) → List Opportunity → Py Figure) × (Opportunity → ℝ)) :=
  [(plotMassDate, (·.lcdate)), (plotMassTOF, (·.TOF)), (plotMassTOFColour, (·.TOF))]

theorem massPlot_ok {f : List (ℝ × ℝ) → List Opportunity → Py Figure} {x : Opportunity → ℝ}
    (hf : (f, x) ∈ massPlots) {rows : List (ℝ × ℝ)} {os : List Opportunity} {F : Figure}
    (h : f rows os = .ok F) :
    ∃ masses lim, computeLaunchCapability rows (os.map (·.C3)) = .ok masses ∧
      massAxis masses = .ok lim ∧ F.points = (os.map x).zip masses ∧ F.ylim = some lim := by
  simp only [massPlots, List.mem_cons, Prod.mk.injEq, List.not_mem_nil, or_false] at hf
  rcases hf with ⟨rfl, rfl⟩ | ⟨rfl, rfl⟩ | ⟨rfl, rfl⟩
  · simp only [plotMassDate, bind, Except.bind, pure, Except.pure] at h
    cases hm : computeLaunchCapability rows (os.map (·.C3)) with
    | error e => simp [hm] at h
    | ok masses =>
      cases hl : massAxis masses with
      | error e => simp [hm, hl] at h
      | ok lim => simp [hm, hl] at h; subst h; exact ⟨masses, lim, rfl, hl, rfl, rfl⟩
  · simp only [plotMassTOF, bind, Except.bind, pure, Except.pure] at h
    cases hm : computeLaunchCapability rows (os.map (·.C3)) with
    | error e => simp [hm] at h
    | ok masses =>
      cases hl : massAxis masses with
      | error e => simp [hm, hl] at h
      | ok lim => simp [hm, hl] at h; subst h; exact ⟨masses, lim, rfl, hl, rfl, rfl⟩
  · simp only [plotMassTOFColour, bind, Except.bind, pure, Except.pure] at h
    cases hm : computeLaunchCapability rows (os.map (·.C3)) with
    | error e => simp [hm] at h
    | ok masses =>
      cases hl : massAxis masses with
      | error e => simp [hm, hl] at h
      | ok lim =>
        cases h1 : pyMin (os.map (·.Avinf)) with
        | error e => simp [hm, hl, h1] at h
        | ok lo =>
          cases h2 : pyMax (os.map (·.Avinf)) with
          | error e => simp [hm, hl, h1, h2] at h
          | ok hi => simp [hm, hl, h1, h2] at h; subst h; exact ⟨masses, lim, rfl, hl, rfl, rfl⟩

theorem capability_get {rows : List (ℝ × ℝ)} {c3s masses : List ℝ}
    (h : computeLaunchCapability rows c3s = .ok masses) :
    masses.length = c3s.length ∧ ∀ (i : ℕ) (hi : i < c3s.length) (hj : i < masses.length),
      launchMass rows c3s[i] = .ok masses[i] := by
  simp only [computeLaunchCapability, bind, Except.bind] at h
  cases hL : launcherInit rows with
  | error e => simp [hL] at h
  | ok f =>
    simp only [hL, Except.ok.injEq] at h
    subst h
    refine ⟨by simp, ?_⟩
    intro i hi hj
    simp [launchMass, hL, bind, Except.bind]

/-- C82: exactly which opportunities are visible in the plots with launch mass on the vertical axis,
when no launch mass is negative: those for which some opportunity with a *different* mass is no more
than 100 kg heavier. -/
theorem C82_visible_iff (f : List (ℝ × ℝ) → List Opportunity → Py Figure) (x : Opportunity → ℝ)
    (hf : (f, x) ∈ massPlots) (rows : List (ℝ × ℝ)) (os : List Opportunity) (F : Figure)
    (h : f rows os = .ok F) (m : Opportunity → ℝ)
    (hm : ∀ o ∈ os, launchMass rows o.C3 = .ok (m o)) (hpos : ∀ o ∈ os, 0 ≤ m o)
    (o : Opportunity) (ho : o ∈ os) :
    Spec.Shows F (x o, m o) ↔ ∃ o' ∈ os, m o' ≠ m o ∧ m o' ≤ m o + 100 := by
  obtain ⟨masses, lim, hc, hl, hp, hy⟩ := massPlot_ok hf h
  obtain ⟨hlen, hget⟩ := capability_get hc
  have hmm : masses = os.map m := by
    apply List.ext_getElem
    · simpa using hlen
    · intro i h1 h2
      have h3 : i < os.length := by simpa using h2
      have h4 := hget i (by simpa using h3) h1
      rw [List.getElem_map, hm _ (List.getElem_mem h3)] at h4
      rw [List.getElem_map]
      exact (Except.ok.inj h4).symm
  subst hmm
  have hpt : (x o, m o) ∈ F.points := by
    rw [hp]
    have : (os.map x).zip (os.map m) = os.map (fun o => (x o, m o)) := by
      rw [List.zip_map']
    rw [this]
    exact List.mem_map.mpr ⟨o, ho, rfl⟩
  rcases massAxis_cases (os.map m) with ⟨hd, s, M, hs, hM, hMx, h1, -⟩ | ⟨hd, h1, -⟩
  swap
  · rw [h1] at hl; cases hl
  rw [h1] at hl
  cases hl
  obtain ⟨hsm, a, ham, has, hab⟩ := secondDistinct_ok hs
  obtain ⟨os', hos', hse⟩ := List.mem_map.mp hsm
  obtain ⟨oa, hoa, hae⟩ := List.mem_map.mp ham
  have h0s : max 0 s = s := max_eq_right (by rw [← hse]; exact hpos _ hos')
  have hup : m o ≤ M := hMx _ (List.mem_map.mpr ⟨o, ho, rfl⟩)
  constructor
  · rintro ⟨-, hlim⟩
    have := (hlim _ hy).1
    rw [h0s] at this
    simp only at this
    by_cases hoo : m o = a
    · exact ⟨os', hos', by rw [hse, hoo]; exact has.ne', by rw [hse]; linarith⟩
    · refine ⟨oa, hoa, by rw [hae]; exact fun h => hoo h.symm, ?_⟩
      rw [hae]
      have := (hab (m o) (List.mem_map.mpr ⟨o, ho, rfl⟩)).resolve_left hoo
      linarith
  · rintro ⟨o', ho', hne, hle⟩
    refine ⟨hpt, ?_⟩
    intro lim hlim
    rw [hy] at hlim
    cases hlim
    rw [h0s]
    refine ⟨?_, by simp only; linarith⟩
    simp only
    have h1 := hab (m o) (List.mem_map.mpr ⟨o, ho, rfl⟩)
    have h2 := hab (m o') (List.mem_map.mpr ⟨o', ho', rfl⟩)
    rcases h1 with h1 | h1
    · rcases h2 with h2 | h2
      · exact absurd (h2.trans h1.symm) hne
      · linarith
    · linarith

/-- C82, the part that holds: when at least one listed opportunity is beyond the vehicle (launch mass
zero, as returned outside the published range), every opportunity with positive launch mass is visible. -/
theorem C82_feasible_visible_partial (f : List (ℝ × ℝ) → List Opportunity → Py Figure)
    (x : Opportunity → ℝ) (hf : (f, x) ∈ massPlots) (rows : List (ℝ × ℝ)) (os : List Opportunity)
    (F : Figure) (h : f rows os = .ok F) (m : Opportunity → ℝ)
    (hm : ∀ o ∈ os, launchMass rows o.C3 = .ok (m o)) (hpos : ∀ o ∈ os, 0 ≤ m o)
    (hzero : ∃ o ∈ os, m o = 0) (o : Opportunity) (ho : o ∈ os) (hmo : 0 < m o) :
    Spec.Shows F (x o, m o) := by
  obtain ⟨z, hz, hz0⟩ := hzero
  exact (C82_visible_iff f x hf rows os F h m hm hpos o ho).mpr
    ⟨z, hz, by rw [hz0]; exact hmo.ne, by rw [hz0]; linarith⟩

theorem demo_mass : launchMass demoTable 0 = .ok 8000 ∧ launchMass demoTable 10 = .ok 5000 ∧
    launchMass demoTable 40 = .ok 1000 ∧ launchMass demoTable 50 = .ok 0 := by
  have hl : 2 ≤ demoTable.length := by simp [demoTable]
  have hd : demoTable.Pairwise (fun p q => p.1 ≠ q.1) := by simp [demoTable]
  have h := (C06_launch_mass_inside demoTable hl hd).1
  refine ⟨h (0, 8000) (by simp [demoTable]), h (10, 5000) (by simp [demoTable]),
    h (40, 1000) (by simp [demoTable]), ?_⟩
  refine C06_launch_mass_zero_outside demoTable hl 50 (Or.inr ?_)
  intro p hp
  simp only [demoTable, List.mem_cons, List.not_mem_nil, or_false] at hp
  rcases hp with rfl | rfl | rfl <;> norm_num

/-- Three opportunities: C3 of 0, 10 and 40 km²/s². -/
def demoOpportunities : List Opportunity :=
  [⟨2030, 0, 5, 8⟩, ⟨2031, 10, 6, 9⟩, ⟨2032, 40, 4, 12⟩]

theorem demo_capability :
    computeLaunchCapability demoTable (demoOpportunities.map (·.C3)) = .ok [8000, 5000, 1000] := by
  obtain ⟨h0, h1, h2, -⟩ := demo_mass
  simp only [launchMass, computeLaunchCapability, bind, Except.bind] at h0 h1 h2 ⊢
  cases hL : launcherInit demoTable with
  | error e => simp [hL] at h0
  | ok f =>
    simp only [hL, Except.ok.injEq] at h0 h1 h2
    simp [demoOpportunities, h0, h1, h2]

/-- C82: the claim that every opportunity the vehicle can fly is visible is false.  A vehicle able to
fly all three opportunities (8000, 5000 and 1000 kg) gets a plot without the third one.  Case for `C82_drawn_iff` and
`C82_visible_iff`. -/
theorem C82_opportunity_hidden : ∃ F, plotMassDate demoTable demoOpportunities = .ok F ∧
    (2032, 1000) ∈ F.points ∧ ¬ Spec.Shows F (2032, 1000) ∧ Spec.Shows F (2031, 5000) ∧
    Spec.Shows F (2030, 8000) := by
  have hd : Spec.Differ [8000, 5000, 1000] := ⟨8000, by simp, 5000, by simp, by norm_num⟩
  obtain ⟨⟨F, hF⟩, -⟩ := (C82_drawn_iff demoTable demoOpportunities _ demo_capability).1 hd
  have hmem : ((plotMassDate, (·.lcdate)) : (List (ℝ × ℝ) → List Opportunity → Py Figure) × _) ∈
      massPlots := by simp [massPlots]
  obtain ⟨d0, d1, d2, -⟩ := demo_mass
  let m : Opportunity → ℝ := fun o => if o.C3 = 0 then 8000 else if o.C3 = 10 then 5000 else 1000
  have hm : ∀ o ∈ demoOpportunities, launchMass demoTable o.C3 = .ok (m o) := by
    intro o ho
    simp only [demoOpportunities, List.mem_cons, List.not_mem_nil, or_false] at ho
    rcases ho with rfl | rfl | rfl
    · simpa [m] using d0
    · simpa [m] using d1
    · simp only [m]; norm_num; exact d2
  have hpos : ∀ o ∈ demoOpportunities, 0 ≤ m o := by
    intro o _; simp only [m]; split_ifs <;> norm_num
  have key := C82_visible_iff plotMassDate _ hmem demoTable demoOpportunities F hF m hm hpos
  have k0 := key ⟨2030, 0, 5, 8⟩ (by simp [demoOpportunities])
  have k1 := key ⟨2031, 10, 6, 9⟩ (by simp [demoOpportunities])
  have k2 := key ⟨2032, 40, 4, 12⟩ (by simp [demoOpportunities])
  have e0 : m ⟨2030, 0, 5, 8⟩ = 8000 := by simp [m]
  have e1 : m ⟨2031, 10, 6, 9⟩ = 5000 := by simp [m]
  have e2 : m ⟨2032, 40, 4, 12⟩ = 1000 := by simp only [m]; norm_num
  rw [e0] at k0; rw [e1] at k1; rw [e2] at k2
  refine ⟨F, hF, ?_, ?_, ?_, ?_⟩
  · obtain ⟨masses, lim, hc, -, hp, -⟩ := massPlot_ok hmem hF
    rw [demo_capability] at hc
    cases hc
    rw [hp]
    simp [demoOpportunities]
  · rw [k2]
    rintro ⟨o', ho', h1, h2⟩
    simp only [demoOpportunities, List.mem_cons, List.not_mem_nil, or_false] at ho'
    rcases ho' with rfl | rfl | rfl
    · rw [e0] at h2; norm_num at h2
    · rw [e1] at h2; norm_num at h2
    · exact h1 e2
  · rw [k1]
    exact ⟨⟨2032, 40, 4, 12⟩, by simp [demoOpportunities], by rw [e2]; norm_num, by rw [e2]; norm_num⟩
  · rw [k0]
    exact ⟨⟨2032, 40, 4, 12⟩, by simp [demoOpportunities], by rw [e2]; norm_num, by rw [e2]; norm_num⟩

/-- The hypotheses of `C82_feasible_visible_partial` hold when an opportunity beyond the published
range is added. -/
example : ∃ F, plotMassTOF demoTable [⟨2030, 0, 5, 8⟩, ⟨2032, 40, 4, 12⟩, ⟨2033, 50, 4, 12⟩] = .ok F ∧
    Spec.Shows F (4, 1000) := by
  obtain ⟨d0, -, d2, d3⟩ := demo_mass
  let os : List Opportunity := [⟨2030, 0, 5, 8⟩, ⟨2032, 40, 4, 12⟩, ⟨2033, 50, 4, 12⟩]
  have hc : computeLaunchCapability demoTable (os.map (·.C3)) = .ok [8000, 1000, 0] := by
    simp only [launchMass, computeLaunchCapability, bind, Except.bind] at d0 d2 d3 ⊢
    cases hL : launcherInit demoTable with
    | error e => simp [hL] at d0
    | ok f =>
      simp only [hL, Except.ok.injEq] at d0 d2 d3
      simp [os, d0, d2, d3]
  have hd : Spec.Differ [8000, 1000, 0] := ⟨8000, by simp, 0, by simp, by norm_num⟩
  obtain ⟨-, ⟨F, hF⟩, -⟩ := (C82_drawn_iff demoTable os _ hc).1 hd
  let m : Opportunity → ℝ := fun o => if o.C3 = 0 then 8000 else if o.C3 = 40 then 1000 else 0
  have hm : ∀ o ∈ os, launchMass demoTable o.C3 = .ok (m o) := by
    intro o ho
    simp only [os, List.mem_cons, List.not_mem_nil, or_false] at ho
    rcases ho with rfl | rfl | rfl
    · simpa [m] using d0
    · simpa [m] using d2
    · simp only [m]; norm_num; exact d3
  have := C82_feasible_visible_partial plotMassTOF (·.TOF) (by simp [massPlots]) demoTable os F hF m hm
    (by intro o _; simp only [m]; split_ifs <;> norm_num)
    ⟨⟨2033, 50, 4, 12⟩, by simp [os], by simp only [m]; norm_num⟩ ⟨2032, 40, 4, 12⟩ (by simp [os])
    (by simp only [m]; norm_num)
  have e : m ⟨2032, 40, 4, 12⟩ = 1000 := by simp only [m]; norm_num
  rw [e] at this
  exact ⟨F, hF, this⟩

/-- C82: with a single opportunity, or when the vehicle can fly none of the listed ones, the plots
raise. -/
theorem C82_nothing_to_compare :
    plotMassDate demoTable [⟨2030, 0, 5, 8⟩] = .error .indexError ∧
    plotMassDate demoTable [⟨2030, 50, 5, 8⟩, ⟨2031, 50, 6, 9⟩] = .error .indexError := by
  obtain ⟨d0, -, -, d3⟩ := demo_mass
  simp only [launchMass, bind, Except.bind] at d0 d3
  cases hL : launcherInit demoTable with
  | error e => simp [hL] at d0
  | ok f =>
    simp only [hL, Except.ok.injEq] at d0 d3
    constructor
    · refine ((C82_drawn_iff demoTable _ [8000] ?_).2 ?_).1
      · simp [computeLaunchCapability, hL, d0, bind, Except.bind]
      · rintro ⟨a, ha, b, hb, hab⟩; simp at ha hb; exact hab (ha.trans hb.symm)
    · refine ((C82_drawn_iff demoTable _ [0, 0] ?_).2 ?_).1
      · simp [computeLaunchCapability, hL, d3, bind, Except.bind]
      · rintro ⟨a, ha, b, hb, hab⟩; simp at ha hb; exact hab (ha.trans hb.symm)

end AMAT.Props
