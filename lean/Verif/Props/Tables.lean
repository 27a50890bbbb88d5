import Mathlib.Tactic.NormNum
import Verif.Lemmas.Interp
import Verif.Model.Launcher

/-
Properties C05 (table interpolation) and C06 (launch mass).
-/

noncomputable section

open Classical

namespace AMAT.Props

open AMAT

/-- A concrete table used to show that hypotheses are satisfiable: rows deliberately unsorted. -/
def demoTable : List (ℝ × ℝ) := [(10, 5000), (0, 8000), (40, 1000)]

/-- C05: the table is accepted exactly when it has at least two rows. -/
theorem C05_table_accepted (nodes : List (ℝ × ℝ)) (lo hi : ℝ) :
    (∃ f, interp1d nodes lo hi = .ok f) ↔ 2 ≤ nodes.length := by
  constructor
  · rintro ⟨f, hf⟩; exact ((interp1d_ok_iff _ _ _ _).mp hf).1
  · intro h; exact ⟨_, (interp1d_ok_iff _ _ _ _).mpr ⟨h, rfl⟩⟩

/-- C05: outside the range of the table the fill values are returned. -/
theorem C05_table_outside (nodes : List (ℝ × ℝ)) (lo hi : ℝ) (f : ℝ → ℝ)
    (hf : interp1d nodes lo hi = .ok f) (x : ℝ) :
    ((∀ p ∈ nodes, x < p.1) → f x = lo) ∧ ((∀ p ∈ nodes, p.1 < x) → f x = hi) := by
  obtain ⟨hlen, rfl⟩ := (interp1d_ok_iff _ _ _ _).mp hf
  obtain ⟨a, b, ha, hb⟩ := sortedNodes_ends hlen
  have hal := head_least (sortedNodes_le nodes) ha
  have hbl := last_greatest (sortedNodes_le nodes) hb
  constructor
  · intro h
    simp [interpSorted, ha, hb, h a (sortedNodes_mem.mp hal.1)]
  · intro h
    have h1 : ¬ x < a.1 := by linarith [h a (sortedNodes_mem.mp hal.1)]
    simp [interpSorted, ha, hb, h1, h b (sortedNodes_mem.mp hbl.1)]

/-- C05: between two neighbouring rows the lookup is the straight line joining them (whatever the
order of the rows in the file). Together with `C05_table_outside` this determines the lookup
completely. -/
theorem C05_table_linear_between_neighbours (nodes : List (ℝ × ℝ)) (lo hi : ℝ) (f : ℝ → ℝ)
    (hf : interp1d nodes lo hi = .ok f) (hd : nodes.Pairwise (fun p q => p.1 ≠ q.1))
    (a b : ℝ × ℝ) (ha : a ∈ nodes) (hb : b ∈ nodes) (hab : a.1 < b.1)
    (hbetw : ∀ c ∈ nodes, c.1 ≤ a.1 ∨ b.1 ≤ c.1) (t : ℝ) (ht : 0 ≤ t ∧ t ≤ 1) :
    f ((1 - t) * a.1 + t * b.1) = (1 - t) * a.2 + t * b.2 := by
  obtain ⟨hlen, rfl⟩ := (interp1d_ok_iff _ _ _ _).mp hf
  obtain ⟨e0, e1, he0, he1⟩ := sortedNodes_ends hlen
  have hal := head_least (sortedNodes_le nodes) he0
  have hbl := last_greatest (sortedNodes_le nodes) he1
  have hd' : 0 < b.1 - a.1 := by linarith
  have hx1 : a.1 ≤ (1 - t) * a.1 + t * b.1 := by nlinarith [mul_nonneg ht.1 hd'.le]
  have hx2 : (1 - t) * a.1 + t * b.1 ≤ b.1 := by
    nlinarith [mul_nonneg (sub_nonneg.mpr ht.2) hd'.le]
  rw [interpSorted_inside he0 he1 lo hi
    (le_trans (hal.2 a (sortedNodes_mem.mpr ha)) hx1)
    (le_trans hx2 (hbl.2 b (sortedNodes_mem.mpr hb)))]
  obtain ⟨pre, post, hl⟩ := adjacent_decomp (sortedNodes nodes) (sortedNodes_lt nodes hd)
    (sortedNodes_mem.mpr ha) (sortedNodes_mem.mpr hb) hab
    (fun c hc => hbetw c (sortedNodes_mem.mp hc))
  have hs := sortedNodes_lt nodes hd
  rw [hl] at hs ⊢
  rw [interpSeg_adjacent pre post a b _ hs ⟨hx1, hx2⟩]
  simp only [lineThrough]
  field_simp
  ring

/-- C05: the lookup reproduces every tabulated point. -/
theorem C05_table_nodes (nodes : List (ℝ × ℝ)) (lo hi : ℝ) (f : ℝ → ℝ)
    (hf : interp1d nodes lo hi = .ok f) (hd : nodes.Pairwise (fun p q => p.1 ≠ q.1))
    (p : ℝ × ℝ) (hp : p ∈ nodes) : f p.1 = p.2 := by
  obtain ⟨hlen, rfl⟩ := (interp1d_ok_iff _ _ _ _).mp hf
  obtain ⟨e0, e1, he0, he1⟩ := sortedNodes_ends hlen
  have hal := head_least (sortedNodes_le nodes) he0
  have hbl := last_greatest (sortedNodes_le nodes) he1
  have hs := sortedNodes_lt nodes hd
  have hpm := sortedNodes_mem.mpr hp
  have h1 := hal.2 p hpm
  have h2 := hbl.2 p hpm
  rw [interpSorted_inside he0 he1 lo hi h1 h2]
  obtain ⟨pre, a, b, post, hl, hax, hxb⟩ := exists_adjacent (sortedNodes nodes) hs
    (by rw [sortedNodes_length]; exact hlen) p.1 he0 he1 h1 h2
  rw [hl] at hs hpm ⊢
  rw [interpSeg_adjacent pre post a b _ hs ⟨hax, hxb⟩]
  -- `p` is one of the two neighbours
  have hs' := hs
  rw [List.pairwise_append] at hs
  obtain ⟨hpre, hmid, hcross⟩ := hs
  simp only [List.pairwise_cons] at hmid
  have hab : a.1 < b.1 := hmid.1 b (by simp)
  rcases List.mem_append.mp hpm with h | h
  · exact absurd (hcross p h a (by simp)) (by linarith)
  · rcases List.mem_cons.mp h with rfl | h
    · exact lineThrough_left _ _
    · rcases List.mem_cons.mp h with rfl | h
      · exact lineThrough_right hab.ne
      · exact absurd (hmid.2.1 p h) (by linarith)

/-- C05: inside the table range the lookup stays between any lower and upper bound of the
tabulated values. -/
theorem C05_table_bounds (nodes : List (ℝ × ℝ)) (lo hi : ℝ) (f : ℝ → ℝ)
    (hf : interp1d nodes lo hi = .ok f) (hd : nodes.Pairwise (fun p q => p.1 ≠ q.1))
    (m M : ℝ) (hm : ∀ p ∈ nodes, m ≤ p.2 ∧ p.2 ≤ M) (x : ℝ)
    (h1 : ∃ p ∈ nodes, p.1 ≤ x) (h2 : ∃ p ∈ nodes, x ≤ p.1) : m ≤ f x ∧ f x ≤ M := by
  obtain ⟨hlen, rfl⟩ := (interp1d_ok_iff _ _ _ _).mp hf
  obtain ⟨e0, e1, he0, he1⟩ := sortedNodes_ends hlen
  have hal := head_least (sortedNodes_le nodes) he0
  have hbl := last_greatest (sortedNodes_le nodes) he1
  obtain ⟨p1, hp1, hp1x⟩ := h1
  obtain ⟨p2, hp2, hp2x⟩ := h2
  have hx1 := le_trans (hal.2 p1 (sortedNodes_mem.mpr hp1)) hp1x
  have hx2 := le_trans hp2x (hbl.2 p2 (sortedNodes_mem.mpr hp2))
  have hs := sortedNodes_lt nodes hd
  rw [interpSorted_inside he0 he1 lo hi hx1 hx2]
  obtain ⟨pre, a, b, post, hl, hax, hxb⟩ := exists_adjacent (sortedNodes nodes) hs
    (by rw [sortedNodes_length]; exact hlen) x he0 he1 hx1 hx2
  have ha : a ∈ nodes := sortedNodes_mem.mp (by rw [hl]; simp)
  have hb : b ∈ nodes := sortedNodes_mem.mp (by rw [hl]; simp)
  rw [hl] at hs ⊢
  rw [interpSeg_adjacent pre post a b _ hs ⟨hax, hxb⟩]
  have hab : a.1 < b.1 := by
    rw [List.pairwise_append] at hs
    have := hs.2.1
    simp only [List.pairwise_cons] at this
    exact this.1 b (by simp)
  exact lineThrough_bounds hab ⟨hax, hxb⟩ (hm a ha) (hm b hb)

/-- C05: if the tabulated values are ordered against the abscissae the lookup is non-increasing
on the table range. -/
theorem C05_table_antitone (nodes : List (ℝ × ℝ)) (lo hi : ℝ) (f : ℝ → ℝ)
    (hf : interp1d nodes lo hi = .ok f) (hd : nodes.Pairwise (fun p q => p.1 ≠ q.1))
    (hdec : ∀ p ∈ nodes, ∀ q ∈ nodes, p.1 ≤ q.1 → q.2 ≤ p.2) (x y : ℝ) (hxy : x ≤ y)
    (h1 : ∃ p ∈ nodes, p.1 ≤ x) (h2 : ∃ p ∈ nodes, y ≤ p.1) : f y ≤ f x := by
  obtain ⟨hlen, rfl⟩ := (interp1d_ok_iff _ _ _ _).mp hf
  obtain ⟨e0, e1, he0, he1⟩ := sortedNodes_ends hlen
  have hal := head_least (sortedNodes_le nodes) he0
  have hbl := last_greatest (sortedNodes_le nodes) he1
  obtain ⟨p1, hp1, hp1x⟩ := h1
  obtain ⟨p2, hp2, hp2x⟩ := h2
  have hx1 := le_trans (hal.2 p1 (sortedNodes_mem.mpr hp1)) hp1x
  have hy2 := le_trans hp2x (hbl.2 p2 (sortedNodes_mem.mpr hp2))
  have hs := sortedNodes_lt nodes hd
  rw [interpSorted_inside he0 he1 lo hi hx1 (hxy.trans hy2),
      interpSorted_inside he0 he1 lo hi (hx1.trans hxy) hy2]
  refine interpSeg_antitone _ hs ?_ x y hxy ?_
  · have := (sortedNodes_le nodes)
    refine List.Pairwise.imp_of_mem ?_ this
    intro a b ha hb hab
    exact hdec a (sortedNodes_mem.mp ha) b (sortedNodes_mem.mp hb) hab
  · intro q hq; rw [he1] at hq; simp at hq; subst hq; exact hy2

/-- C05: if the tabulated values increase with the abscissae the lookup is non-decreasing on the
table range. -/
theorem C05_table_monotone (nodes : List (ℝ × ℝ)) (lo hi : ℝ) (f : ℝ → ℝ)
    (hf : interp1d nodes lo hi = .ok f) (hd : nodes.Pairwise (fun p q => p.1 ≠ q.1))
    (hinc : ∀ p ∈ nodes, ∀ q ∈ nodes, p.1 ≤ q.1 → p.2 ≤ q.2) (x y : ℝ) (hxy : x ≤ y)
    (h1 : ∃ p ∈ nodes, p.1 ≤ x) (h2 : ∃ p ∈ nodes, y ≤ p.1) : f x ≤ f y := by
  obtain ⟨hlen, rfl⟩ := (interp1d_ok_iff _ _ _ _).mp hf
  obtain ⟨e0, e1, he0, he1⟩ := sortedNodes_ends hlen
  have hal := head_least (sortedNodes_le nodes) he0
  have hbl := last_greatest (sortedNodes_le nodes) he1
  obtain ⟨p1, hp1, hp1x⟩ := h1
  obtain ⟨p2, hp2, hp2x⟩ := h2
  have hx1 := le_trans (hal.2 p1 (sortedNodes_mem.mpr hp1)) hp1x
  have hy2 := le_trans hp2x (hbl.2 p2 (sortedNodes_mem.mpr hp2))
  have hs := sortedNodes_lt nodes hd
  rw [interpSorted_inside he0 he1 lo hi hx1 (hxy.trans hy2),
      interpSorted_inside he0 he1 lo hi (hx1.trans hxy) hy2]
  refine interpSeg_monotone _ hs ?_ x y hxy ?_
  · have := (sortedNodes_le nodes)
    refine List.Pairwise.imp_of_mem ?_ this
    intro a b ha hb hab
    exact hinc a (sortedNodes_mem.mp ha) b (sortedNodes_mem.mp hb) hab
  · intro q hq; rw [he1] at hq; simp at hq; subst hq; exact hy2

/-- Case for `C05_table_outside`, `C05_table_linear_between_neighbours`, `C05_table_nodes`, `C05_table_bounds` and
`C05_table_antitone`: an unsorted three-row table. -/
example : (∃ f, interp1d demoTable 0 0 = .ok f) ∧ demoTable.Pairwise (fun p q => p.1 ≠ q.1) ∧
    (∀ p ∈ demoTable, ∀ q ∈ demoTable, p.1 ≤ q.1 → q.2 ≤ p.2) ∧
    (∃ p ∈ demoTable, p.1 ≤ (5:ℝ)) ∧ (∃ p ∈ demoTable, (5:ℝ) ≤ p.1) := by
  refine ⟨(C05_table_accepted _ _ _).mpr (by simp [demoTable]), ?_, ?_, ?_, ?_⟩
  · simp [demoTable]
  · simp [demoTable]; norm_num
  · exact ⟨(0, 8000), by simp [demoTable], by norm_num⟩
  · exact ⟨(10, 5000), by simp [demoTable], by norm_num⟩

/-! ### C06: launch mass -/

/-- C06: outside the published C3 range the launch mass is exactly zero. -/
theorem C06_launch_mass_zero_outside (rows : List (ℝ × ℝ)) (h : 2 ≤ rows.length) (C3 : ℝ)
    (hout : (∀ p ∈ rows, C3 < p.1) ∨ (∀ p ∈ rows, p.1 < C3)) : launchMass rows C3 = .ok 0 := by
  obtain ⟨f, hf⟩ := (C05_table_accepted rows 0 0).mpr h
  have := C05_table_outside rows 0 0 f hf C3
  have e : launchMass rows C3 = .ok (f C3) := by
    simp [launchMass, launcherInit, hf, bind, Except.bind]
  rw [e]
  rcases hout with h' | h'
  · rw [this.1 h']
  · rw [this.2 h']

/-- C06: published points are reproduced; inside the range the mass is between the smallest and the
largest published mass; for a table in which more C3 never allows more mass, the launch mass never
increases with C3. -/
theorem C06_launch_mass_inside (rows : List (ℝ × ℝ)) (h : 2 ≤ rows.length)
    (hd : rows.Pairwise (fun p q => p.1 ≠ q.1)) :
    (∀ p ∈ rows, launchMass rows p.1 = .ok p.2) ∧
    (∀ C3, (∃ p ∈ rows, p.1 ≤ C3) → (∃ p ∈ rows, C3 ≤ p.1) →
      ∃ mass, launchMass rows C3 = .ok mass ∧ (∃ p ∈ rows, p.2 ≤ mass) ∧ (∃ p ∈ rows, mass ≤ p.2)) ∧
    ((∀ p ∈ rows, ∀ q ∈ rows, p.1 ≤ q.1 → q.2 ≤ p.2) →
      ∀ c d, c ≤ d → (∃ p ∈ rows, p.1 ≤ c) → (∃ p ∈ rows, d ≤ p.1) →
        ∃ mc md, launchMass rows c = .ok mc ∧ launchMass rows d = .ok md ∧ md ≤ mc) := by
  obtain ⟨f, hf⟩ := (C05_table_accepted rows 0 0).mpr h
  have e : ∀ C3, launchMass rows C3 = .ok (f C3) := by
    intro C3; simp [launchMass, launcherInit, hf, bind, Except.bind]
  refine ⟨?_, ?_, ?_⟩
  · intro p hp; rw [e, C05_table_nodes rows 0 0 f hf hd p hp]
  · intro C3 h1 h2
    have hne : rows ≠ [] := by rintro rfl; simp at h
    obtain ⟨q, hq, hmin⟩ := list_exists_min (fun p : ℝ × ℝ => p.2) rows hne
    obtain ⟨Q, hQ, hmax⟩ := list_exists_max (fun p : ℝ × ℝ => p.2) rows hne
    have := C05_table_bounds rows 0 0 f hf hd q.2 Q.2 (fun p hp => ⟨hmin p hp, hmax p hp⟩) C3 h1 h2
    exact ⟨f C3, e C3, ⟨q, hq, this.1⟩, ⟨Q, hQ, this.2⟩⟩
  · intro hdec c d hcd h1 h2
    exact ⟨f c, f d, e c, e d, C05_table_antitone rows 0 0 f hf hd hdec c d hcd h1 h2⟩

/-- C06: a trajectory list is evaluated element by element. -/
theorem C06_launch_capability_elementwise (rows : List (ℝ × ℝ)) (h : 2 ≤ rows.length)
    (c3s : List ℝ) : ∃ masses, computeLaunchCapability rows c3s = .ok masses ∧
      masses.length = c3s.length ∧
      ∀ (i : ℕ) (hi : i < c3s.length), ∃ m, masses[i]? = some m ∧ launchMass rows c3s[i] = .ok m := by
  obtain ⟨f, hf⟩ := (C05_table_accepted rows 0 0).mpr h
  refine ⟨c3s.map f, ?_, by simp, ?_⟩
  · simp [computeLaunchCapability, launcherInit, hf, bind, Except.bind]
  · intro i hi
    refine ⟨f c3s[i], by simp [hi], ?_⟩
    simp [launchMass, launcherInit, hf, bind, Except.bind]

/-- Case for `C06_launch_mass_zero_outside` and `C06_launch_mass_inside`: the demo table; C3 = 50 is outside its range. -/
example : 2 ≤ demoTable.length ∧ demoTable.Pairwise (fun p q => p.1 ≠ q.1) ∧
    (∀ p ∈ demoTable, p.1 < (50:ℝ)) := by
  refine ⟨by simp [demoTable], by simp [demoTable], ?_⟩
  simp [demoTable]; norm_num

end AMAT.Props
