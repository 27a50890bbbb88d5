import Verif.Model.MonteCarloRows
import Verif.Props.PlanetProps

/-
Property C96: the sampled densities of Monte Carlo files shipped with the source.  `C96_profile_nonneg_iff`
holds for every file; the other theorems are about two shipped files: atmdata/Venus/LAT80S.txt, all of its 200
profiles, and atmdata/Mars/LAT00N.txt, its 72nd profile.
-/

noncomputable section

open Classical

namespace AMAT.Props

open AMAT

/-- C96: the density of a sampled profile is non-negative at every altitude exactly when the sampled density of
every row of the profile is; in between only straight lines are drawn, and outside the profile the density
is zero. -/
theorem C96_profile_nonneg_iff (rows : List DensRow) (sigma : ℝ) (NPOS i : ℕ) (f : ℝ → ℝ)
    (hf : loadAtmosphereModel5 rows sigma NPOS i = .ok f)
    (hd : (profileSlice rows NPOS i).Pairwise (fun p q => p.height ≠ q.height)) :
    (∀ z, 0 ≤ f z) ↔ ∀ row ∈ profileSlice rows NPOS i, 0 ≤ mcDensity5 row sigma := by
  constructor
  · intro h row hrow
    rw [← C08_profile_lookup rows sigma NPOS i f hf hd row hrow]
    exact h _
  · intro h z
    set nodes := (profileSlice rows NPOS i).map (fun row => (row.height, mcDensity5 row sigma)) with hn
    have hd' : nodes.Pairwise (fun p q => p.1 ≠ q.1) := by rw [hn, List.pairwise_map]; exact hd
    by_cases h1 : ∃ p ∈ nodes, p.1 ≤ z
    · by_cases h2 : ∃ p ∈ nodes, z ≤ p.1
      · obtain ⟨M, hM⟩ := (nodes.finite_toSet.image Prod.snd).bddAbove
        refine (C05_table_bounds nodes 0 0 f hf hd' 0 M ?_ z h1 h2).1
        intro p hp
        refine ⟨?_, hM ⟨p, hp, rfl⟩⟩
        obtain ⟨row, hrow, rfl⟩ := List.mem_map.mp hp
        exact h row hrow
      · push Not at h2
        exact ((C05_table_outside nodes 0 0 f hf z).2 h2).ge
    · push Not at h1
      exact ((C05_table_outside nodes 0 0 f hf z).1 h1).ge

/-! ### Checking packed rows by integer arithmetic -/

/-- A packed density in units of `10⁻³⁰`. -/
def scaledDensity (d : ℕ) : ℕ := d / 100 * 10 ^ (30 - d % 100)

theorem scaledDensity_spec {d : ℕ} (h : d % 100 ≤ 30) : packedValue d = scaledDensity d / 10 ^ 30 := by
  unfold packedValue scaledDensity
  rw [Nat.cast_mul, Nat.cast_pow, div_eq_div_iff (by positivity) (by positivity), mul_assoc]
  congr 1
  push_cast
  rw [← pow_add]
  congr 1
  omega

/-- The checks of one row: the exponents are small, `low ≤ mean ≤ high`, and the total density is at least
`num / den` times the difference of mean and low density. -/
def rowCheck (num den n : ℕ) : Bool :=
  let c := packedColumns n
  decide (c.2.1 % 100 ≤ 30) && decide (c.2.2.1 % 100 ≤ 30) && decide (c.2.2.2.1 % 100 ≤ 30) &&
    decide (c.2.2.2.2 % 100 ≤ 30) &&
    decide (scaledDensity c.2.1 ≤ scaledDensity c.2.2.1) &&
    decide (scaledDensity c.2.2.1 ≤ scaledDensity c.2.2.2.1) &&
    decide (num * scaledDensity c.2.2.1 ≤ den * scaledDensity c.2.2.2.2 + num * scaledDensity c.2.1)

/-- The checks of one profile: the heights are `first`, `first + 1`, … -/
def profileCheck (num den first count : ℕ) (l : List ℕ) : Bool :=
  decide (l.map (fun n => (packedColumns n).1) = List.range' first count) && l.all (rowCheck num den)

theorem rowCheck_nonneg {num den n : ℕ} (hden : 0 < den) (h : rowCheck num den n = true) (sigma : ℝ)
    (hs : -((num : ℝ) / den) ≤ sigma) : 0 ≤ mcDensity5 (packedRow n) sigma := by
  simp only [rowCheck, Bool.and_eq_true, decide_eq_true_eq] at h
  obtain ⟨⟨⟨⟨⟨⟨h1, h2⟩, h3⟩, h4⟩, h5⟩, h6⟩, h7⟩ := h
  rw [mcDensity5_closed]
  simp only [packedRow, loadMC2, scaledDensity_spec h1, scaledDensity_spec h2, scaledDensity_spec h3,
    scaledDensity_spec h4]
  generalize scaledDensity (packedColumns n).2.1 = lo at *
  generalize scaledDensity (packedColumns n).2.2.1 = av at *
  generalize scaledDensity (packedColumns n).2.2.2.1 = hi at *
  generalize scaledDensity (packedColumns n).2.2.2.2 = tot at *
  have hden' : (0:ℝ) < den := by exact_mod_cast hden
  have h5' : (lo : ℝ) ≤ av := by exact_mod_cast h5
  have h6' : (av : ℝ) ≤ hi := by exact_mod_cast h6
  have h7' : (num : ℝ) * av ≤ den * tot + num * lo := by exact_mod_cast h7
  have key : 0 ≤ (tot : ℝ) + (av - lo) * min sigma 0 := by
    rcases le_total sigma 0 with hs0 | hs0
    · rw [min_eq_left hs0]
      have e1 : (av - lo : ℝ) * (-((num : ℝ) / den)) ≤ (av - lo) * sigma :=
        mul_le_mul_of_nonneg_left hs (by linarith)
      have e2 : (av - lo : ℝ) * ((num : ℝ) / den) ≤ tot := by
        rw [mul_div_assoc', div_le_iff₀ hden']
        linarith
      linarith
    · rw [min_eq_right hs0]; simp
  have e3 : 0 ≤ (hi - av : ℝ) * max sigma 0 := mul_nonneg (by linarith) (le_max_right _ _)
  have e4 : (av / 10 ^ 30 + (tot / 10 ^ 30 - av / 10 ^ 30) + (hi / 10 ^ 30 - av / 10 ^ 30) * max sigma 0
      + (av / 10 ^ 30 - lo / 10 ^ 30) * min sigma 0 : ℝ)
      = ((hi - av) * max sigma 0 + (tot + (av - lo) * min sigma 0)) / 10 ^ 30 := by ring
  rw [e4]
  positivity

theorem profileCheck_pairwise {num den first count : ℕ} {l : List ℕ}
    (h : profileCheck num den first count l = true) :
    (l.map packedRow).Pairwise (fun p q => p.height ≠ q.height) := by
  simp only [profileCheck, Bool.and_eq_true, decide_eq_true_eq] at h
  have hn : (l.map (fun n => (packedColumns n).1)).Pairwise (· ≠ ·) := by
    rw [h.1]; exact List.nodup_range' ..
  rw [List.pairwise_map] at hn ⊢
  refine hn.imp ?_
  intro a b hab hh
  apply hab
  simp only [packedRow, loadMC2, if_true] at hh
  have : ((packedColumns a).1 : ℝ) = (packedColumns b).1 := by
    have := mul_right_cancel₀ (by norm_num : (1e3 : ℝ) ≠ 0) hh
    linarith
  exact_mod_cast this

theorem profileCheck_nonneg {num den first count : ℕ} (hden : 0 < den) {l : List ℕ}
    (h : profileCheck num den first count l = true) (sigma : ℝ) (hs : -((num : ℝ) / den) ≤ sigma) :
    ∀ row ∈ l.map packedRow, 0 ≤ mcDensity5 row sigma := by
  simp only [profileCheck, Bool.and_eq_true, List.all_eq_true] at h
  intro row hrow
  obtain ⟨n, hn, rfl⟩ := List.mem_map.mp hrow
  exact rowCheck_nonneg hden (h.2 n hn) sigma hs

theorem profileCheck_length {num den first count : ℕ} {l : List ℕ}
    (h : profileCheck num den first count l = true) : l.length = count := by
  simp only [profileCheck, Bool.and_eq_true, decide_eq_true_eq] at h
  have := congrArg List.length h.1
  simpa using this

/-- Cutting the `i`-th profile out of a file of profiles of equal length. -/
theorem profileSlice_flatten {α : Type} (k : ℕ) :
    ∀ (L : List (List α)) (i : ℕ) (l : List α), (∀ x ∈ L, x.length = k) → L[i]? = some l →
      profileSlice L.flatten k (i + 1) = l := by
  intro L
  induction L with
  | nil => intro i l _ h; simp at h
  | cons x L ih =>
    intro i l hL h
    have hx : x.length = k := hL x (by simp)
    cases i with
    | zero =>
      simp only [List.getElem?_cons_zero, Option.some.injEq] at h
      subst h
      simp [profileSlice, ← hx]
    | succ i =>
      simp only [List.getElem?_cons_succ] at h
      have := ih i l (fun y hy => hL y (by simp [hy])) h
      rw [← this]
      simp only [profileSlice, List.flatten_cons, Nat.add_sub_cancel]
      rw [show (i + 1 + 1) * k = x.length + (i + 1) * k by rw [hx]; ring,
        show (i + 1) * k = x.length + i * k by rw [hx]; ring, List.take_length_add_append,
        List.drop_length_add_append]

/-! ### atmdata/Venus/LAT80S.txt -/

theorem venus_checked : Data.venusProfiles.all (profileCheck 5957 1346 100 151) = true := by decide +kernel

theorem venus_count : Data.venusProfiles.length = 200 := by decide +kernel

/-- The row of line 2870 of the file, at 150 km in the 19th profile. -/
theorem venus_worst : ∃ l, Data.venusProfiles[18]? = some l ∧ 250_895414_103013_118413_595714 ∈ l := by
  exact ⟨Data.venusProfile19, rfl, by decide +kernel⟩

theorem venus_row (sigma : ℝ) :
    mcDensity5 (packedRow 250_895414_103013_118413_595714) sigma < 0 ↔ sigma < -(5957 / 1346) := by
  have hc : packedColumns 250_895414_103013_118413_595714 = (250, 895414, 103013, 118413, 595714) := by
    decide +kernel
  rw [C64_negative_iff]
  all_goals simp only [packedRow, hc, loadMC2, packedValue]; norm_num

/-- C96 (partial): the 200 profiles of the shipped file atmdata/Venus/LAT80S.txt (151 heights each, as in the
examples) can all be loaded, and have a non-negative density at every altitude exactly for the sigma values from
-4.4257 (5957/1346) on; in particular for all draws within four standard deviations.  Missing: the other
Venus and Titan files have not been checked, and for Mars the property is false (`C96_mars_profile`). -/
theorem C96_venus_file_partial (sigma : ℝ) :
    (∀ i, 1 ≤ i → i ≤ 200 → ∃ f, loadAtmosphereModel5 (packedFile Data.venusProfiles) sigma 151 i = .ok f ∧
      ∀ z, 0 ≤ f z) ↔ -(5957 / 1346) ≤ sigma := by
  have hall := List.all_eq_true.mp venus_checked
  have hlen : ∀ x ∈ Data.venusProfiles.map (·.map packedRow), x.length = 151 := by
    intro x hx
    obtain ⟨l, hl, rfl⟩ := List.mem_map.mp hx
    simpa using profileCheck_length (hall l hl)
  have hslice : ∀ (j : ℕ) l, Data.venusProfiles[j]? = some l →
      profileSlice (packedFile Data.venusProfiles) 151 (j + 1) = l.map packedRow := by
    intro j l hl
    exact profileSlice_flatten 151 _ j _ hlen (by rw [List.getElem?_map, hl]; rfl)
  have hload : ∀ (j : ℕ) l, Data.venusProfiles[j]? = some l →
      ∃ f, loadAtmosphereModel5 (packedFile Data.venusProfiles) sigma 151 (j + 1) = .ok f ∧
        ((∀ z, 0 ≤ f z) ↔ ∀ row ∈ l.map packedRow, 0 ≤ mcDensity5 row sigma) := by
    intro j l hl
    have hmem := List.mem_of_getElem? hl
    obtain ⟨f, hf⟩ := (C05_table_accepted ((profileSlice (packedFile Data.venusProfiles) 151 (j + 1)).map
      (fun row => (row.height, mcDensity5 row sigma))) 0 0).mpr (by
        rw [hslice j l hl, List.length_map, List.length_map, profileCheck_length (hall l hmem)]; norm_num)
    refine ⟨f, hf, ?_⟩
    rw [C96_profile_nonneg_iff _ sigma 151 (j + 1) f hf (by
      rw [hslice j l hl]; exact profileCheck_pairwise (hall l hmem)), hslice j l hl]
  constructor
  · intro h
    obtain ⟨l, hl, hm⟩ := venus_worst
    obtain ⟨f, hf, hz⟩ := h 19 (by norm_num) (by norm_num)
    obtain ⟨f', hf', hz'⟩ := hload 18 l hl
    rw [hf, Except.ok.injEq] at hf'
    subst hf'
    have := hz'.mp hz _ (List.mem_map.mpr ⟨_, hm, rfl⟩)
    by_contra hs
    exact absurd this (not_le.mpr ((venus_row sigma).mpr (not_le.mp hs)))
  · intro hs i h1 h2
    obtain ⟨j, rfl⟩ : ∃ j, i = j + 1 := ⟨i - 1, by omega⟩
    have hj : j < Data.venusProfiles.length := by rw [venus_count]; omega
    obtain ⟨f, hf, hz⟩ := hload j _ (List.getElem?_eq_getElem hj)
    refine ⟨f, hf, hz.mpr ?_⟩
    exact profileCheck_nonneg (num := 5957) (den := 1346) (by norm_num) (hall _ (List.getElem_mem hj)) sigma
      (by exact_mod_cast hs)

/-- A draw four standard deviations low, and the profile of the middle of the file. -/
example : ∃ f, loadAtmosphereModel5 (packedFile Data.venusProfiles) (-4) 151 100 = .ok f ∧ ∀ z, 0 ≤ f z :=
  (C96_venus_file_partial (-4)).mpr (by norm_num) 100 (by norm_num) (by norm_num)

/-! ### atmdata/Mars/LAT00N.txt -/

theorem mars_checked : profileCheck 9437 29290 95 156 Data.marsProfile = true := by decide +kernel

/-- The row of line 11200 of the file, at 117 km. -/
theorem mars_low : 217_386312_535012_741012_535013 ∈ Data.marsProfile := by decide +kernel

theorem mars_low_columns : packedColumns 217_386312_535012_741012_535013 =
    (217, 386312, 535012, 741012, 535013) := by decide +kernel

/-- The row of line 11213 of the file, at 130 km. -/
theorem mars_worst : 230_650813_943713_136812_943714 ∈ Data.marsProfile := by decide +kernel

theorem mars_worst_columns : packedColumns 230_650813_943713_136812_943714 =
    (230, 650813, 943713, 136812, 943714) := by decide +kernel

/-- C96: of the shipped file atmdata/Mars/LAT00N.txt, used with 156 heights per profile, the 72nd profile has a
negative density at 117 km, inside the atmosphere the code assumes for Mars, for every sigma below -0.3598
(-535/1487); and it is non-negative at all altitudes only for the sigma values from -0.3222 (-9437/29290) on.  (About
36 of 100 draws of a standard normal variable lie below -0.3598; this number is not part of the theorem.) -/
theorem C96_mars_profile (rows : List DensRow) (sigma : ℝ)
    (hfile : profileSlice rows 156 72 = Data.marsProfile.map packedRow) :
    ∃ f, loadAtmosphereModel5 rows sigma 156 72 = .ok f ∧
      (f 117000 < 0 ↔ sigma < -(535 / 1487)) ∧ ((∀ z, 0 ≤ f z) ↔ -(9437 / 29290) ≤ sigma) ∧
      ∀ P, Planet.init "MARS" = .ok P → 117000 < P.hThres := by
  obtain ⟨f, hf⟩ := (C05_table_accepted ((profileSlice rows 156 72).map
    (fun row => (row.height, mcDensity5 row sigma))) 0 0).mpr (by
      rw [hfile, List.length_map, List.length_map, profileCheck_length mars_checked]; norm_num)
  have hd : (profileSlice rows 156 72).Pairwise (fun p q => p.height ≠ q.height) := by
    rw [hfile]; exact profileCheck_pairwise mars_checked
  have hneg : f 117000 < 0 ↔ sigma < -(535 / 1487) := by
    have hrow : packedRow 217_386312_535012_741012_535013 ∈ profileSlice rows 156 72 := by
      rw [hfile]; exact List.mem_map.mpr ⟨_, mars_low, rfl⟩
    have h := C08_profile_lookup rows sigma 156 72 f hf hd _ hrow
    have hh : (packedRow 217_386312_535012_741012_535013).height = 117000 := by
      simp only [packedRow, mars_low_columns, loadMC2]; norm_num
    rw [hh] at h
    rw [h, C64_negative_iff]
    all_goals simp only [packedRow, mars_low_columns, loadMC2, packedValue]; norm_num
  refine ⟨f, hf, hneg, ?_, ?_⟩
  · rw [C96_profile_nonneg_iff rows sigma 156 72 f hf hd, hfile]
    constructor
    · intro h
      by_contra hs
      refine absurd (h _ (List.mem_map.mpr ⟨_, mars_worst, rfl⟩)) (not_le.mpr ?_)
      rw [C64_negative_iff]
      · refine (not_le.mp hs).trans_eq ?_
        simp only [packedRow, mars_worst_columns, loadMC2, packedValue]; norm_num
      all_goals simp only [packedRow, mars_worst_columns, loadMC2, packedValue]; norm_num
    · intro hs
      exact profileCheck_nonneg (num := 9437) (den := 29290) (by norm_num) mars_checked sigma
        (by exact_mod_cast hs)
  · intro P hP
    simp [Planet.init] at hP
    subst hP
    norm_num [Planet.withScales]

/-- One standard deviation below the mean the density at 117 km is negative, in any file with this profile;
here the profile is preceded by 71 copies of itself. -/
example : ∃ f, loadAtmosphereModel5 (packedFile (List.replicate 72 Data.marsProfile)) (-1) 156 72 = .ok f ∧
    f 117000 < 0 := by
  have hs : profileSlice (packedFile (List.replicate 72 Data.marsProfile)) 156 72 =
      Data.marsProfile.map packedRow := by
    refine profileSlice_flatten 156 _ 71 _ ?_ (by simp)
    intro x hx
    simp only [List.map_replicate, List.mem_replicate] at hx
    rw [hx.2, List.length_map, profileCheck_length mars_checked]
  obtain ⟨f, hf, h, -⟩ := C96_mars_profile _ (-1) hs
  exact ⟨f, hf, h.mpr (by norm_num)⟩

end AMAT.Props
