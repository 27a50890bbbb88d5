import Verif.Model.LauncherKinds
import Verif.Props.QuadAtmosphere
import Verif.Props.Tables

/-
Property C135: launch curves of all interpolation kinds.
-/

noncomputable section

open Classical

namespace AMAT.Spec

/-- Number of rows that a kind of interpolation needs. -/
def rowsNeeded : InterpKind → ℕ
  | .quadratic => 3
  | .cubic => 4
  | _ => 2

/-- The kinds that use the two neighbouring rows only. -/
def isLocal : InterpKind → Prop
  | .quadratic | .cubic => False
  | _ => True

end AMAT.Spec

namespace AMAT.Props

/-- The value between two rows is between their values, and equal to them at the rows. -/
theorem between_mem (k : InterpKind) (hk : k ≠ .quadratic ∧ k ≠ .cubic) {a u b v : ℝ} (hab : a < b) :
    k.between a u b v a = u ∧ k.between a u b v b = v ∧
    ∀ t, a ≤ t → t ≤ b → min u v ≤ k.between a u b v t ∧ k.between a u b v t ≤ max u v := by
  have hlin : ∀ t, a ≤ t → t ≤ b → min u v ≤ u + (v - u) / (b - a) * (t - a) ∧
      u + (v - u) / (b - a) * (t - a) ≤ max u v := by
    intro t h0 h1
    have hp : 0 < b - a := by linarith
    have h2 : 0 ≤ (t - a) / (b - a) := div_nonneg (by linarith) hp.le
    have h3 : (t - a) / (b - a) ≤ 1 := (div_le_one hp).mpr (by linarith)
    have e : u + (v - u) / (b - a) * (t - a) = (1 - (t - a) / (b - a)) * u + (t - a) / (b - a) * v := by
      field_simp; ring
    rw [e]
    have a1 := min_le_left u v; have a2 := min_le_right u v
    have b1 := le_max_left u v; have b2 := le_max_right u v
    constructor
    · nlinarith [mul_nonneg h2 (sub_nonneg.mpr a2), mul_nonneg (sub_nonneg.mpr h3) (sub_nonneg.mpr a1)]
    · nlinarith [mul_nonneg h2 (sub_nonneg.mpr b2), mul_nonneg (sub_nonneg.mpr h3) (sub_nonneg.mpr b1)]
  have hu : min u v ≤ u ∧ u ≤ max u v := ⟨min_le_left _ _, le_max_left _ _⟩
  have hv : min u v ≤ v ∧ v ≤ max u v := ⟨min_le_right _ _, le_max_right _ _⟩
  have hend : u + (v - u) / (b - a) * (b - a) = v := by
    rw [div_mul_cancel₀ _ (by linarith : b - a ≠ 0)]; ring
  cases k with
  | linear => exact ⟨by simp [InterpKind.between], hend, hlin⟩
  | slinear => exact ⟨by simp [InterpKind.between], hend, hlin⟩
  | quadratic => exact absurd rfl hk.1
  | cubic => exact absurd rfl hk.2
  | zero | previous =>
    refine ⟨if_pos hab, if_neg (lt_irrefl _), fun t _ _ => ?_⟩
    simp only [InterpKind.between]; split_ifs <;> assumption
  | next =>
    refine ⟨if_pos le_rfl, if_neg (not_le.mpr hab), fun t _ _ => ?_⟩
    simp only [InterpKind.between]; split_ifs <;> assumption
  | nearest =>
    refine ⟨if_pos (by linarith), if_neg (by linarith), fun t _ _ => ?_⟩
    simp only [InterpKind.between]; split_ifs <;> assumption
  | nearestUp =>
    refine ⟨if_pos (by linarith), if_neg (by linarith), fun t _ _ => ?_⟩
    simp only [InterpKind.between]; split_ifs <;> assumption

/-- A larger C3 between two rows never gives more mass when the second row has no more mass. -/
theorem between_anti (k : InterpKind) (hk : k ≠ .quadratic ∧ k ≠ .cubic) {a u b v : ℝ} (hab : a < b) (huv : v ≤ u) {s t : ℝ}
    (hst : s ≤ t) : k.between a u b v t ≤ k.between a u b v s := by
  have hlin : u + (v - u) / (b - a) * (t - a) ≤ u + (v - u) / (b - a) * (s - a) := by
    have : (v - u) / (b - a) ≤ 0 := div_nonpos_of_nonpos_of_nonneg (by linarith) (by linarith)
    nlinarith [mul_nonneg_of_nonpos_of_nonpos this (show s - t ≤ 0 by linarith)]
  cases k with
  | linear => exact hlin
  | slinear => exact hlin
  | quadratic => exact absurd rfl hk.1
  | cubic => exact absurd rfl hk.2
  | zero | previous | next | nearest | nearestUp =>
    simp only [InterpKind.between]
    split_ifs <;> linarith

/-- The two-row kinds joined to one function. -/
def joinedLocal (k : InterpKind) (n : ℕ) (x y : ℕ → ℝ) (fill t : ℝ) : ℝ :=
  if h : ∃ i < n, x i ≤ t ∧ t ≤ x (i + 1) then
    k.between (x (Nat.find h)) (y (Nat.find h)) (x (Nat.find h + 1)) (y (Nat.find h + 1)) t else fill

theorem local_exists (k : InterpKind) (hk : k ≠ .quadratic ∧ k ≠ .cubic) (rows : List (ℝ × ℝ)) (h : 2 ≤ rows.length)
    (hd : rows.Pairwise (fun p q => p.1 ≠ q.1)) (fill : ℝ) : ∃ f, IsLocalInterp k rows fill f := by
  have hs := sortedNodes_lt rows hd
  have hlen := sortedNodes_length rows
  set x := fun i => ((sortedNodes rows).getD i (0, 0)).1 with hxd
  set y := fun i => ((sortedNodes rows).getD i (0, 0)).2 with hyd
  set n := rows.length - 1 with hnd
  have hx : ∀ i < n, x i < x (i + 1) := fun i hi => sorted_getD_lt hs (by omega)
  refine ⟨joinedLocal k n x y fill, by omega, hx, ?_, ?_⟩
  · intro i hi t h0 h1
    change x i ≤ t at h0
    change t ≤ x (i + 1) at h1
    change joinedLocal k n x y fill t = k.between (x i) (y i) (x (i + 1)) (y (i + 1)) t
    have hex : ∃ i < n, x i ≤ t ∧ t ≤ x (i + 1) := ⟨i, hi, h0, h1⟩
    unfold joinedLocal
    rw [dif_pos hex]
    obtain ⟨hj, j0, j1⟩ := Nat.find_spec hex
    have hle : Nat.find hex ≤ i := Nat.find_min' hex ⟨hi, h0, h1⟩
    set j := Nat.find hex
    rcases Nat.eq_or_lt_of_le hle with h | h
    · rw [h]
    · have h2 : x (j + 1) ≤ x i := increasing_le hx h hi.le
      have ht : t = x i := le_antisymm (j1.trans h2) h0
      have hji : j + 1 = i := by
        by_contra hne
        have := increasing_lt hx (show j + 1 < i by omega) hi.le
        linarith
      rw [ht, (between_mem k hk (hx i hi)).1, ← hji, (between_mem k hk (hx j hj)).2.1]
  · intro t ht
    unfold joinedLocal
    rw [dif_neg]
    rintro ⟨i, hi, h0, h1⟩
    have a := increasing_le hx (Nat.zero_le i) (by omega)
    have b := increasing_le hx (show i + 1 ≤ n by omega) le_rfl
    change t < x 0 ∨ x n < t at ht
    rcases ht with h | h <;> linarith

/-- What holds of the two-row kinds. -/
theorem local_facts (k : InterpKind) (hk : k ≠ .quadratic ∧ k ≠ .cubic) (rows : List (ℝ × ℝ)) (fill : ℝ) (f : ℝ → ℝ)
    (hf : IsLocalInterp k rows fill f) :
    (∀ r ∈ rows, f r.1 = r.2) ∧
    (∀ t, (∀ r ∈ rows, t < r.1) ∨ (∀ r ∈ rows, r.1 < t) → f t = fill) ∧
    (∀ t, (∃ p ∈ rows, p.1 ≤ t) → (∃ p ∈ rows, t ≤ p.1) → (∃ p ∈ rows, p.2 ≤ f t) ∧ (∃ p ∈ rows, f t ≤ p.2)) ∧
    ((∀ p ∈ rows, ∀ q ∈ rows, p.1 ≤ q.1 → q.2 ≤ p.2) →
      ∀ s t, s ≤ t → (∃ p ∈ rows, p.1 ≤ s) → (∃ p ∈ rows, t ≤ p.1) → f t ≤ f s) := by
  have hlen := sortedNodes_length rows
  set x := fun i => ((sortedNodes rows).getD i (0, 0)).1 with hxd
  set y := fun i => ((sortedNodes rows).getD i (0, 0)).2 with hyd
  set n := rows.length - 1 with hnd
  have hn : 1 ≤ n := hf.1
  have hx : ∀ i < n, x i < x (i + 1) := hf.2.1
  have hpf : ∀ i < n, ∀ t, x i ≤ t → t ≤ x (i + 1) → f t = k.between (x i) (y i) (x (i + 1)) (y (i + 1)) t := hf.2.2.1
  have hof : ∀ t, t < x 0 ∨ x n < t → f t = fill := hf.2.2.2
  have hget : ∀ i ≤ n, (sortedNodes rows).getD i (0, 0) ∈ rows := by
    intro i hi
    rw [List.getD_eq_getElem _ _ (by omega)]
    exact sortedNodes_mem.mp (List.getElem_mem _)
  have hidx : ∀ r ∈ rows, ∃ i ≤ n, x i = r.1 ∧ y i = r.2 := by
    intro r hr
    obtain ⟨i, hi, hri⟩ := List.mem_iff_getElem.mp (sortedNodes_mem.mpr hr)
    have hg : (sortedNodes rows).getD i (0, 0) = r := by rw [List.getD_eq_getElem _ _ hi, hri]
    exact ⟨i, by omega, by rw [hxd]; simp only [hg], by rw [hyd]; simp only [hg]⟩
  have hrow : ∀ i ≤ n, f (x i) = y i := by
    intro i hi
    rcases Nat.lt_or_ge i n with h | h
    · rw [hpf i h _ le_rfl (hx i h).le, (between_mem k hk (hx i h)).1]
    · obtain ⟨j, rfl⟩ : ∃ j, i = j + 1 := ⟨i - 1, by omega⟩
      rw [hpf j (by omega) _ (hx j (by omega)).le le_rfl, (between_mem k hk (hx j (by omega))).2.1]
  have hcell : ∀ t, (∃ p ∈ rows, p.1 ≤ t) → (∃ p ∈ rows, t ≤ p.1) → ∃ i < n, x i ≤ t ∧ t ≤ x (i + 1) := by
    rintro t ⟨p, hp, h0⟩ ⟨q, hq, h1⟩
    obtain ⟨i, hi, e1, -⟩ := hidx p hp
    obtain ⟨j, hj, e2, -⟩ := hidx q hq
    exact exists_interval (x := x) hn ((increasing_le hx (Nat.zero_le i) hi).trans (e1 ▸ h0))
      ((e2 ▸ h1 : t ≤ x j).trans (increasing_le hx hj le_rfl))
  refine ⟨fun r hr => ?_, fun t ht => hof t ?_, fun t h0 h1 => ?_, fun hdec s t hst h0 h1 => ?_⟩
  · obtain ⟨i, hi, e1, e2⟩ := hidx r hr
    rw [← e1, ← e2, hrow i hi]
  · rcases ht with h | h
    · exact Or.inl (h _ (hget 0 (by omega)))
    · exact Or.inr (h _ (hget n le_rfl))
  · obtain ⟨i, hi, a, b⟩ := hcell t h0 h1
    have hm := (between_mem k hk (u := y i) (v := y (i + 1)) (hx i hi)).2.2 t a b
    rw [← hpf i hi t a b] at hm
    refine ⟨?_, ?_⟩
    · rcases min_choice (y i) (y (i + 1)) with e | e
      · exact ⟨_, hget i hi.le, by rw [e] at hm; exact hm.1⟩
      · exact ⟨_, hget (i + 1) hi, by rw [e] at hm; exact hm.1⟩
    · rcases max_choice (y i) (y (i + 1)) with e | e
      · exact ⟨_, hget i hi.le, by rw [e] at hm; exact hm.2⟩
      · exact ⟨_, hget (i + 1) hi, by rw [e] at hm; exact hm.2⟩
  · have hyd' : ∀ i < n, y (i + 1) ≤ y i := fun i hi => hdec _ (hget i hi.le) _ (hget (i + 1) hi) (hx i hi).le
    have hya : ∀ i j, i ≤ j → j ≤ n → y j ≤ y i := by
      intro i j hij
      induction j with
      | zero => intro _; rw [show i = 0 by omega]
      | succ m ih =>
        intro hm
        rcases Nat.lt_or_ge m i with h | h
        · rw [show i = m + 1 by omega]
        · exact (hyd' m hm).trans (ih h (by omega))
    obtain ⟨p, hp, p1⟩ := h0
    obtain ⟨q, hq, q1⟩ := h1
    obtain ⟨i, hi, a1, a2⟩ := hcell s ⟨p, hp, p1⟩ ⟨q, hq, hst.trans q1⟩
    obtain ⟨j, hj, b1, b2⟩ := hcell t ⟨p, hp, p1.trans hst⟩ ⟨q, hq, q1⟩
    have key : ∀ i j, i ≤ j → j < n → x i ≤ s → s ≤ x (i + 1) → x j ≤ t → t ≤ x (j + 1) → f t ≤ f s := by
      intro i j hij hj a1 a2 b1 b2
      rcases hij.lt_or_eq with h | rfl
      · have hm := (between_mem k hk (u := y i) (v := y (i + 1)) (hx i (by omega))).2.2 s a1 a2
        have hm' := (between_mem k hk (u := y j) (v := y (j + 1)) (hx j hj)).2.2 t b1 b2
        rw [← hpf i (by omega) s a1 a2, min_eq_right (hyd' i (by omega))] at hm
        rw [← hpf j hj t b1 b2, max_eq_left (hyd' j hj)] at hm'
        exact hm'.2.trans ((hya (i + 1) j h hj.le).trans hm.1)
      · rw [hpf i hj s a1 a2, hpf i hj t b1 b2]
        exact between_anti k hk (hx i hj) (hyd' i hj) hst
    rcases le_or_gt i j with h | h
    · exact key i j h hj a1 a2 b1 b2
    · -- then both are the same row
      have h1 : x (j + 1) ≤ x i := increasing_le hx h hi.le
      have : s = t := by linarith
      rw [this]

/-- The rows in order of their abscissae do not depend on the order in the file. -/
theorem sortedNodes_perm_eq {rows rows' : List (ℝ × ℝ)} (hd : rows.Pairwise (fun p q => p.1 ≠ q.1)) (hp : rows'.Perm rows) :
    sortedNodes rows' = sortedNodes rows := by
  have hd' : rows'.Pairwise (fun p q => p.1 ≠ q.1) := hp.pairwise_iff (fun h => Ne.symm h) |>.mpr hd
  refine List.Perm.eq_of_pairwise (le := fun a b => a.1 < b.1) ?_ (sortedNodes_lt rows' hd') (sortedNodes_lt rows hd)
    (((sortedNodes_perm rows').trans hp).trans (sortedNodes_perm rows).symm)
  intro a b _ _ h1 h2
  exact absurd h1 (not_lt.mpr h2.le)

theorem local_unique (k : InterpKind) (rows rows' : List (ℝ × ℝ)) (hd : rows.Pairwise (fun p q => p.1 ≠ q.1))
    (hp : rows'.Perm rows) (fill : ℝ) (f g : ℝ → ℝ) (hf : IsLocalInterp k rows fill f) (hg : IsLocalInterp k rows' fill g) :
    g = f := by
  have hm : rows'.mergeSort (fun a b => decide (a.1 ≤ b.1)) = rows.mergeSort (fun a b => decide (a.1 ≤ b.1)) :=
    sortedNodes_perm_eq hd hp
  unfold IsLocalInterp at hf hg
  rw [hm, hp.length_eq] at hg
  obtain ⟨h1, -, h2, h3⟩ := hf
  obtain ⟨-, -, g2, g3⟩ := hg
  set x := fun i => ((rows.mergeSort (fun a b => decide (a.1 ≤ b.1))).getD i (0, 0)).1 with hx
  funext t
  by_cases a : t < x 0
  · rw [h3 t (Or.inl a), g3 t (Or.inl a)]
  by_cases b : x (rows.length - 1) < t
  · rw [h3 t (Or.inr b), g3 t (Or.inr b)]
  obtain ⟨i, hi, c, d⟩ := exists_interval (x := x) (n := rows.length - 1) h1 (not_lt.mp a) (not_lt.mp b)
  rw [h2 i hi t c d, g2 i hi t c d]

/-- **C135**, the part that holds of every kind: with enough rows at distinct C3 there is a launch curve, it is determined by
the rows whatever their order, it is 0 outside the published range and reproduces the published points. -/
theorem C135_every_kind (k : InterpKind) (rows : List (ℝ × ℝ)) (hl : Spec.rowsNeeded k ≤ rows.length)
    (hd : rows.Pairwise (fun p q => p.1 ≠ q.1)) :
    ∃ f, (∀ rows', rows'.Perm rows → ∀ g, LaunchCurve k rows' g ↔ g = f) ∧ (∀ r ∈ rows, f r.1 = r.2) ∧
      ∀ C3, (∀ r ∈ rows, C3 < r.1) ∨ (∀ r ∈ rows, r.1 < C3) → f C3 = 0 := by
  -- existence for every order and agreement of any two give the equivalence
  have mk : ∀ Q : List (ℝ × ℝ) → (ℝ → ℝ) → Prop, (∀ rows', rows'.Perm rows → ∃ g, Q rows' g) →
      (∀ f, Q rows f → ∀ rows', rows'.Perm rows → ∀ g, Q rows' g → g = f) → ∀ f, Q rows f →
      ∀ rows', rows'.Perm rows → ∀ g, Q rows' g ↔ g = f := by
    intro Q hex hun f hf rows' hp g
    refine ⟨hun f hf rows' hp g, ?_⟩
    rintro rfl
    obtain ⟨g', hg'⟩ := hex rows' hp
    rwa [hun g hf rows' hp g' hg'] at hg'
  have hdp : ∀ rows' : List (ℝ × ℝ), rows'.Perm rows → rows'.Pairwise (fun p q => p.1 ≠ q.1) := fun rows' hp =>
    hp.pairwise_iff (fun h => Ne.symm h) |>.mpr hd
  have hloc : k ≠ .quadratic ∧ k ≠ .cubic → 2 ≤ rows.length →
      ∃ f, (∀ rows', rows'.Perm rows → ∀ g, IsLocalInterp k rows' 0 g ↔ g = f) ∧ (∀ r ∈ rows, f r.1 = r.2) ∧
        ∀ C3, (∀ r ∈ rows, C3 < r.1) ∨ (∀ r ∈ rows, r.1 < C3) → f C3 = 0 := by
    intro hk h2
    obtain ⟨f, hf⟩ := local_exists k hk rows h2 hd 0
    obtain ⟨h1, h3, -⟩ := local_facts k hk rows 0 f hf
    exact ⟨f, mk _ (fun rows' hp => local_exists k hk rows' (hp.length_eq ▸ h2) (hdp rows' hp) 0)
      (fun f hf rows' hp g hg => local_unique k rows rows' hd hp 0 f g hf hg) f hf, h1, h3⟩
  cases k with
  | linear =>
    obtain ⟨f, hf⟩ := (C05_table_accepted rows 0 0).mpr hl
    refine ⟨f, mk (fun rows g => launcherInit rows = .ok g)
      (fun rows' hp => (C05_table_accepted rows' 0 0).mpr (hp.length_eq ▸ hl)) (fun f hf rows' hp g hg => ?_) f hf,
      fun r hr => C05_table_nodes rows 0 0 f hf hd r hr, fun C3 h => ?_⟩
    · have e : launcherInit rows' = launcherInit rows := by
        have hm : rows'.mergeSort (fun a b => decide (a.1 ≤ b.1)) = rows.mergeSort (fun a b => decide (a.1 ≤ b.1)) :=
          sortedNodes_perm_eq hd hp
        unfold launcherInit interp1d
        rw [hm, hp.length_eq]
      rw [e, hf] at hg
      exact (Except.ok.inj hg).symm
    have := C05_table_outside rows 0 0 f hf C3
    rcases h with h | h
    · exact this.1 h
    · exact this.2 h
  | quadratic =>
    obtain ⟨⟨f, hf⟩, hu⟩ := C134_lookup_exists_unique rows hl hd 0
    obtain ⟨h1, h2, -⟩ := C134_reproduces_rows _ _ _ hf
    exact ⟨f, mk _ (fun rows' hp => (C134_lookup_exists_unique rows' (hp.length_eq ▸ hl) (hdp rows' hp) 0).1)
      (fun f hf rows' hp g hg => (hu rows' f g hp hf hg).symm) f hf, h1, h2⟩
  | cubic =>
    obtain ⟨⟨f, hf⟩, hu⟩ := C84_lookup_exists_unique rows hl hd 0
    obtain ⟨h1, h2, -⟩ := C84_reproduces_rows _ _ _ hf
    exact ⟨f, mk _ (fun rows' hp => (C84_lookup_exists_unique rows' (hp.length_eq ▸ hl) (hdp rows' hp) 0).1)
      (fun f hf rows' hp g hg => (hu rows' f g hp hf hg).symm) f hf, h1, h2⟩
  | slinear | zero | previous | next | nearest | nearestUp => exact hloc ⟨by simp, by simp⟩ hl

/-- **C135** (partial: not for `'quadratic'` and `'cubic'`, see `C135_negative_mass`).  Inside the published range the mass is
between the smallest and the largest published mass, and for a table in which more C3 never allows more mass the launch mass
never rises with C3. -/
theorem C135_bounds_partial (k : InterpKind) (hk : Spec.isLocal k) (rows : List (ℝ × ℝ)) (hl : 2 ≤ rows.length)
    (hd : rows.Pairwise (fun p q => p.1 ≠ q.1)) (f : ℝ → ℝ) (hf : LaunchCurve k rows f) :
    (∀ C3, (∃ p ∈ rows, p.1 ≤ C3) → (∃ p ∈ rows, C3 ≤ p.1) → (∃ p ∈ rows, p.2 ≤ f C3) ∧ (∃ p ∈ rows, f C3 ≤ p.2)) ∧
    ((∀ p ∈ rows, ∀ q ∈ rows, p.1 ≤ q.1 → q.2 ≤ p.2) →
      ∀ c d, c ≤ d → (∃ p ∈ rows, p.1 ≤ c) → (∃ p ∈ rows, d ≤ p.1) → f d ≤ f c) := by
  cases k with
  | linear =>
    have e : ∀ C3, launchMass rows C3 = .ok (f C3) := by
      intro C3
      have hf' : launcherInit rows = .ok f := hf
      simp [launchMass, hf', bind, Except.bind]
    obtain ⟨-, h2, h3⟩ := C06_launch_mass_inside rows hl hd
    refine ⟨fun C3 h0 h1 => ?_, fun hdec c d hcd h0 h1 => ?_⟩
    · obtain ⟨m, hm, a, b⟩ := h2 C3 h0 h1
      rw [e] at hm
      obtain rfl := Except.ok.inj hm
      exact ⟨a, b⟩
    · obtain ⟨m, m', hm, hm', h⟩ := h3 hdec c d hcd h0 h1
      rw [e] at hm hm'
      obtain rfl := Except.ok.inj hm
      obtain rfl := Except.ok.inj hm'
      exact h
  | quadratic => exact absurd hk (by simp [Spec.isLocal])
  | cubic => exact absurd hk (by simp [Spec.isLocal])
  | slinear | zero | previous | next | nearest | nearestUp => exact (local_facts _ ⟨by simp, by simp⟩ rows 0 f hf).2.2

/-- A launch vehicle with 5000, 100, 50 and 25 kg at C3 = 0, 10, 20 and 30. -/
def steepLauncher : List (ℝ × ℝ) := [(0, 5000), (10, 100), (20, 50), (30, 25)]

/-- **C135** (finding): with `kind='cubic'`, and with `kind='quadratic'` on the first three rows, a table of positive,
decreasing masses gives a negative launch mass inside the published range. -/
theorem C135_negative_mass :
    (∀ f, LaunchCurve .cubic steepLauncher f → f 15 < 0) ∧
    (∀ f, LaunchCurve .quadratic (steepLauncher.take 3) f → f 15 < 0) := by
  constructor
  · intro f hf
    have := C84_cubic_columns _ _ _ hf 5000 (-2680 / 3) (387 / 8) (-193 / 240) ?_
      (0, 5000) (by simp [steepLauncher]) (30, 25) (by simp [steepLauncher]) 15 (by norm_num) (by norm_num)
    · rw [this]; norm_num
    · intro r hr
      simp only [steepLauncher, List.mem_cons, List.not_mem_nil, or_false] at hr
      rcases hr with rfl | rfl | rfl | rfl <;> norm_num
  · intro f hf
    have := C134_parabola _ _ _ hf 5000 (-732.5) 24.25 ?_
      (0, 5000) (by simp [steepLauncher]) (20, 50) (by simp [steepLauncher]) 15 (by norm_num) (by norm_num)
    · rw [this]; norm_num
    · intro r hr
      simp only [steepLauncher, List.take, List.mem_cons, List.not_mem_nil, or_false] at hr
      rcases hr with rfl | rfl | rfl <;> norm_num

/-- Cases for `C135_every_kind`, `C135_bounds_partial` and `C135_negative_mass`: the vehicle above with every kind. -/
example (k : InterpKind) : ∃ f, LaunchCurve k steepLauncher f ∧ f 10 = 100 ∧ f 31 = 0 ∧ (k = .cubic → f 15 < 0) ∧
    (Spec.isLocal k → f 15 ≤ f 5 ∧ 25 ≤ f 15) := by
  have hd : steepLauncher.Pairwise (fun p q => p.1 ≠ q.1) := by norm_num [steepLauncher]
  obtain ⟨f, h1, h2, h3⟩ := C135_every_kind k steepLauncher (by cases k <;> simp [Spec.rowsNeeded, steepLauncher]) hd
  have hf := (h1 steepLauncher (List.Perm.refl _) f).mpr rfl
  refine ⟨f, hf, h2 (10, 100) (by simp [steepLauncher]), h3 31 (Or.inr ?_), ?_, fun hk => ?_⟩
  · intro r hr
    simp only [steepLauncher, List.mem_cons, List.not_mem_nil, or_false] at hr
    rcases hr with rfl | rfl | rfl | rfl <;> norm_num
  · rintro rfl; exact C135_negative_mass.1 f hf
  · obtain ⟨b1, b2⟩ := C135_bounds_partial k hk steepLauncher (by simp [steepLauncher]) hd f hf
    refine ⟨b2 ?_ 5 15 (by norm_num) ⟨(0, 5000), by simp [steepLauncher], by norm_num⟩
      ⟨(30, 25), by simp [steepLauncher], by norm_num⟩, ?_⟩
    · intro p hp q hq
      simp only [steepLauncher, List.mem_cons, List.not_mem_nil, or_false] at hp hq
      rcases hp with rfl | rfl | rfl | rfl <;> rcases hq with rfl | rfl | rfl | rfl <;> norm_num
    · obtain ⟨⟨p, hp, h⟩, -⟩ := b1 15 ⟨(0, 5000), by simp [steepLauncher], by norm_num⟩
        ⟨(30, 25), by simp [steepLauncher], by norm_num⟩
      refine le_trans ?_ h
      simp only [steepLauncher, List.mem_cons, List.not_mem_nil, or_false] at hp
      rcases hp with rfl | rfl | rfl | rfl <;> norm_num

end AMAT.Props
