import Verif.Model.LinkReport
import Verif.Props.TelecomProps

/-
C92: data are delivered inside the transmit windows.  C93: the printed link budget adds up.
-/

noncomputable section

namespace AMAT.Props

open AMAT

/-! ### C92 -/

/-- One interval of the data-volume history. -/
theorem dataVolume_step (R : ℝ) (ts : List ℝ) (vis tx : List Bool) (dv : List ℝ)
    (h : computeDataVolume R ts vis tx = .ok dv) (i : ℕ) (u u' : ℝ) (hu : dv[i]? = some u) (hu' : dv[i + 1]? = some u')
    (hne : u ≠ u') : (vis[i]? = some true ∧ tx[i]? = some true) ∨
      (vis[i + 1]? = some true ∧ tx[i + 1]? = some true) := by
  unfold computeDataVolume at h
  split_ifs at h with hl
  push Not at hl
  obtain ⟨hv, ht⟩ := hl
  set samples := ts.zip ((vis.zip tx).map (fun p => R * boolNum p.1 * boolNum p.2)) with hs
  have hlen : samples.length = ts.length := by simp [hs, hv, ht]
  have hdv : dv = 0 :: trapzFrom 0 samples := by
    cases hc : samples with
    | nil => rw [hc] at h; simp [cumTrapz] at h
    | cons a b => rw [hc] at h; simpa [cumTrapz, eq_comm] using h
  have hi1 : i + 1 < ts.length := by
    have := (List.getElem?_eq_some_iff.mp hu').1
    rw [hdv, List.length_cons, trapzFrom_length, hlen] at this
    omega
  have hi : i < ts.length := by omega
  by_contra hcon
  push Not at hcon
  obtain ⟨c1, c2⟩ := hcon
  have hz : ∀ (j : ℕ) (hj : j < ts.length), (vis[j]? = some true → tx[j]? ≠ some true) →
      samples[j]? = some (ts[j], 0) := by
    intro j hj hc
    have hvj : vis[j]? = some (vis[j]'(by omega)) := List.getElem?_eq_getElem _
    have htj : tx[j]? = some (tx[j]'(by omega)) := List.getElem?_eq_getElem _
    simp only [hs, List.getElem?_zip_eq_some, List.getElem?_map]
    refine ⟨List.getElem?_eq_getElem hj, ?_⟩
    simp only [List.zip, List.getElem?_zipWith, hvj, htj, Option.map_some, Option.some.injEq]
    rw [hvj, htj] at hc
    revert hc
    cases (vis[j]'(by omega)) <;> cases (tx[j]'(by omega)) <;> simp [boolNum]
  obtain ⟨w, hw, hw'⟩ := trapzFrom_getElem samples 0 i _ _ (hz i hi c1) (hz (i + 1) hi1 c2)
  rw [← hdv] at hw hw'
  rw [hu] at hw
  rw [hu'] at hw'
  obtain rfl := Option.some.inj hw
  have := Option.some.inj hw'
  apply hne
  rw [this]; simp

/-- C92: when the schedule is made for the duration and number of samples of the visibility object, data are delivered
between two samples only if at one of them the link is visible and the time lies inside a transmit window. -/
theorem C92_gated_partial (R T : ℝ) (n : ℕ) (ws : List (ℝ × ℝ)) (vis : List Bool) (dv : List ℝ)
    (h : computeDataVolume R (linspace0 T n) vis (scheduleInit T n ws).2 = .ok dv)
    (i : ℕ) (u u' : ℝ) (hu : dv[i]? = some u) (hu' : dv[i + 1]? = some u') (hne : u ≠ u') :
    ∃ (j : ℕ) (t : ℝ), (j = i ∨ j = i + 1) ∧ (linspace0 T n)[j]? = some t ∧ vis[j]? = some true ∧
      ∃ w ∈ ws, w.1 ≤ t ∧ t ≤ w.2 := by
  have key : ∀ j : ℕ, vis[j]? = some true → (scheduleInit T n ws).2[j]? = some true → ∃ t, (linspace0 T n)[j]? = some t ∧
      vis[j]? = some true ∧ ∃ w ∈ ws, w.1 ≤ t ∧ t ≤ w.2 := by
    intro j h1 h2
    have hj : j < n := by
      have := (List.getElem?_eq_some_iff.mp h2).1
      rwa [(C11_schedule T n ws).2.1] at this
    obtain ⟨t, b, e1, e2, -, e4⟩ := (C11_schedule T n ws).2.2 j hj
    rw [h2] at e2
    obtain rfl := Option.some.inj e2
    exact ⟨t, e1, h1, e4.mp rfl⟩
  rcases dataVolume_step R _ vis _ dv h i u u' hu hu' hne with ⟨h1, h2⟩ | ⟨h1, h2⟩
  · obtain ⟨t, e⟩ := key i h1 h2
    exact ⟨i, t, Or.inl rfl, e⟩
  · obtain ⟨t, e⟩ := key (i + 1) h1 h2
    exact ⟨i + 1, t, Or.inr rfl, e⟩

/-- C92: a schedule made for another duration `T'` but with the same number of samples is accepted, and its windows are
applied stretched by `T/T'`. -/
theorem C92_windows_stretched (R T T' : ℝ) (hT : 0 < T) (n : ℕ) (hn : n ≠ 0) (ws : List (ℝ × ℝ)) (vis : List Bool)
    (hv : vis.length = n) : ∃ dv, computeDataVolume R (linspace0 T n) vis (scheduleInit T' n ws).2 = .ok dv ∧
    ∀ (i : ℕ) (u u' : ℝ), dv[i]? = some u → dv[i + 1]? = some u' → u ≠ u' →
    ∃ (j : ℕ) (t : ℝ), (j = i ∨ j = i + 1) ∧ (linspace0 T n)[j]? = some t ∧ vis[j]? = some true ∧
      ∃ w ∈ ws, w.1 * T ≤ t * T' ∧ t * T' ≤ w.2 * T := by
  have hl := (C11_schedule T' n ws).2.1
  have hok : ∃ dv, computeDataVolume R (linspace0 T n) vis (scheduleInit T' n ws).2 = .ok dv := by
    unfold computeDataVolume
    rw [if_neg (by simp [hv, hl, linspace0_length])]
    cases hc : (linspace0 T n).zip ((vis.zip (scheduleInit T' n ws).2).map fun p => R * boolNum p.1 * boolNum p.2) with
    | nil =>
      have := congrArg List.length hc
      simp [hv, hl, linspace0_length] at this
      exact absurd this hn
    | cons a b => exact ⟨_, by simp [cumTrapz]; rfl⟩
  obtain ⟨dv, h⟩ := hok
  refine ⟨dv, h, ?_⟩
  intro i u u' hu hu' hne
  have key : ∀ j : ℕ, vis[j]? = some true → (scheduleInit T' n ws).2[j]? = some true → ∃ t, (linspace0 T n)[j]? = some t ∧
      vis[j]? = some true ∧ ∃ w ∈ ws, w.1 * T ≤ t * T' ∧ t * T' ≤ w.2 * T := by
    intro j h1 h2
    have hj : j < n := by
      have := (List.getElem?_eq_some_iff.mp h2).1
      rwa [hl] at this
    obtain ⟨t, b, e1, e2, e3, e4⟩ := (C11_schedule T' n ws).2.2 j hj
    rw [h2] at e2
    obtain rfl := Option.some.inj e2
    obtain ⟨w, hw, a1, a2⟩ := e4.mp rfl
    refine ⟨_, linspace0_getElem T n j hj, h1, w, hw, ?_⟩
    have : (j:ℝ) * (T / (n - 1)) * T' = t * T := by rw [e3]; ring
    rw [this]
    exact ⟨mul_le_mul_of_nonneg_right a1 hT.le, mul_le_mul_of_nonneg_right a2 hT.le⟩
  rcases dataVolume_step R _ vis _ dv h i u u' hu hu' hne with ⟨h1, h2⟩ | ⟨h1, h2⟩
  · obtain ⟨t, e⟩ := key i h1 h2
    exact ⟨i, t, Or.inl rfl, e⟩
  · obtain ⟨t, e⟩ := key (i + 1) h1 h2
    exact ⟨i + 1, t, Or.inr rfl, e⟩

/-- C92, negation: a schedule over 1000 s with the window from 500 s to 600 s, used with a visibility of 100 s and the same
eleven samples, is accepted; no sample of the visibility lies in the window and yet data are delivered. -/
theorem C92_gated_false : ∃ (dv : List ℝ),
    computeDataVolume 8 (linspace0 100 11) (List.replicate 11 true) (scheduleInit 1000 11 [(500, 600)]).2 = .ok dv ∧
    (∀ t ∈ linspace0 100 11, ∀ w ∈ ([(500, 600)] : List (ℝ × ℝ)), ¬ (w.1 ≤ t ∧ t ≤ w.2)) ∧ dv[10]? = some 160 := by
  have e : (scheduleInit 1000 11 [(500, 600)]).2 =
      [false, false, false, false, false, true, true, false, false, false, false] := by
    norm_num [scheduleInit, linspace0, windowLoop, List.range_succ]
  have e' : linspace0 100 11 = [0, 10, 20, 30, 40, 50, 60, 70, 80, 90, 100] := by
    norm_num [linspace0, List.range_succ]
  rw [e, e']
  refine ⟨_, by simp [computeDataVolume, cumTrapz, List.replicate]; rfl, ?_, ?_⟩
  · intro t ht w hw
    simp only [List.mem_singleton] at hw
    subst hw
    simp only [List.mem_cons, List.not_mem_nil, or_false] at ht
    rcases ht with h | h | h | h | h | h | h | h | h | h | h <;> rw [h] <;> norm_num
  · norm_num [trapzFrom, boolNum]

/-- Case for `C92_gated_partial` and `C92_windows_stretched`: the window from 40 s to 60 s in a visibility of 100 s. -/
example : ∃ (dv : List ℝ),
    computeDataVolume 8 (linspace0 100 11) (List.replicate 11 true) (scheduleInit 100 11 [(40, 60)]).2 = .ok dv ∧
    dv[3]? = some 0 ∧ dv[4]? = some 40 := by
  have e : (scheduleInit 100 11 [(40, 60)]).2 =
      [false, false, false, false, true, true, true, false, false, false, false] := by
    norm_num [scheduleInit, linspace0, windowLoop, List.range_succ]
  have e' : linspace0 100 11 = [0, 10, 20, 30, 40, 50, 60, 70, 80, 90, 100] := by
    norm_num [linspace0, List.range_succ]
  rw [e, e']
  refine ⟨_, by simp [computeDataVolume, cumTrapz, List.replicate]; rfl, ?_, ?_⟩
  · norm_num [trapzFrom, boolNum]
  · norm_num [trapzFrom, boolNum]

/-! ### C93 -/

theorem roundHalfEven_near (x : ℝ) : |(roundHalfEven x : ℝ) - x| ≤ 1 / 2 := by
  have h1 := Int.floor_le x
  have h2 := Int.lt_floor_add_one x
  unfold roundHalfEven
  rw [abs_le]
  split_ifs with a b c
  · constructor <;> linarith
  · push_cast; constructor <;> linarith
  · constructor <;> linarith
  · push_cast; constructor <;> linarith

theorem round2_near (x : ℝ) : |round2 x - x| ≤ 0.005 := by
  have h := roundHalfEven_near (x * 100)
  rw [abs_le] at h ⊢
  unfold round2
  constructor
  · rw [neg_le_sub_iff_le_add, div_add' _ _ _ (by norm_num), le_div_iff₀ (by norm_num)]
    norm_num; linarith [h.1]
  · rw [sub_le_iff_le_add, div_le_iff₀ (by norm_num)]
    norm_num; linarith [h.2]

/-- Arguments for which every decibel value is the logarithm of a positive number (outside of it NumPy yields `-inf` or NaN,
which the model does not follow). -/
structure PositiveLink (a : LinkArgs) : Prop where
  freq : 0 < a.freq
  Pt : 0 < a.Pt
  Ts : 0 < a.Ts
  range : 0 < a.rangeKm
  rate : 0 < a.rateKbps
  etaT : ∀ x, a.etaT = some x → 0 < x
  etaR : ∀ x, a.etaR = some x → 0 < x

/-- The sum of the printed lines with their printed signs. -/
def budgetTotal (lines : List BudgetLine) : ℝ := (lines.map fun l => (l.sign : ℝ) * l.value).sum

/-- The attributes printed satisfy the sum in the constructor. -/
theorem link_sum (a : LinkArgs) (l : Link) (h : Link.init a = .ok l) :
    l.EBN0 = computeDB a.Pt + l.GtDBi - a.LtDB - a.LscDB + l.GrDBi - computeDB a.Ts - l.LsDB - a.LaDB - a.LotherDB
      - a.LDSNDB - computeDB l.R - computeDB 1.38e-23 ∧ l.EBN0margin = l.EBN0 - a.EbN0req := by
  unfold Link.init at h
  simp only [bind, Except.bind, pure, Except.pure] at h
  by_cases hf : a.freq * 1e9 = 0
  · rw [if_pos hf] at h; cases h
  rw [if_neg hf] at h
  cases h1 : rxGain a (3e8 / (a.freq * 1e9)) with
  | error e => rw [h1] at h; cases h
  | ok gr =>
  rw [h1] at h
  simp only at h
  cases h2 : getAttr (txGain a (3e8 / (a.freq * 1e9))) with
  | error e => rw [h2] at h; cases h
  | ok gt =>
  rw [h2] at h
  simp only at h
  cases h3 : getAttr gr with
  | error e => rw [h3] at h; cases h
  | ok g =>
  rw [h3] at h
  simp only [Except.ok.injEq] at h
  subst h
  exact ⟨rfl, rfl⟩

/-- C93: the printed decibel lines add up to the printed available Eb/N0 plus the DSN system loss, which is not printed,
up to the rounding of ten numbers to two decimals; the printed margin is the printed available minus the required Eb/N0 up to
the rounding of two numbers. -/
theorem C93_report_sum (a : LinkArgs) (l : Link) (_hp : PositiveLink a) (h : Link.init a = .ok l) :
    |budgetTotal (budgetLines a l) - ((budgetResult a l).1 + a.LDSNDB)| ≤ 0.05 ∧
    |(budgetResult a l).2.2 - ((budgetResult a l).1 - (budgetResult a l).2.1)| ≤ 0.01 := by
  obtain ⟨e1, e2⟩ := link_sum a l h
  have r1 := abs_le.mp (round2_near (computeDB a.Pt))
  have r2 := abs_le.mp (round2_near a.LtDB)
  have r3 := abs_le.mp (round2_near a.LscDB)
  have r4 := abs_le.mp (round2_near l.GtDBi)
  have r5 := abs_le.mp (round2_near l.GrDBi)
  have r6 := abs_le.mp (round2_near (computeDB a.Ts))
  have r7 := abs_le.mp (round2_near l.LsDB)
  have r8 := abs_le.mp (round2_near (-computeDB 1.38e-23))
  have r9 := abs_le.mp (round2_near (computeDB l.R))
  have r10 := abs_le.mp (round2_near l.EBN0)
  have r11 := abs_le.mp (round2_near l.EBN0margin)
  generalize hK : computeDB 1.38e-23 = K at *
  simp only [budgetTotal, budgetLines, budgetResult, List.map_cons, List.map_nil, List.sum_cons, List.sum_nil, hK]
  push_cast
  norm_num at r1 r2 r3 r4 r5 r6 r7 r8 r9 r10 r11 ⊢
  constructor
  · rw [abs_le]; constructor <;> linarith
  · rw [abs_le]; constructor <;> linarith

/-- C93: without DSN system loss the printed lines add up to the printed result within rounding. -/
theorem C93_report_adds_up_partial (a : LinkArgs) (l : Link) (hp : PositiveLink a) (h : Link.init a = .ok l) (h0 : a.LDSNDB = 0) :
    |budgetTotal (budgetLines a l) - (budgetResult a l).1| ≤ 0.05 := by
  have := (C93_report_sum a l hp h).1
  rwa [h0, add_zero] at this

/-- C93, negation: with the default DSN system loss of 1 dB the printed lines of every link add up to at least 0.95 dB more
than the printed result. -/
theorem C93_report_adds_up_false (a : LinkArgs) (l : Link) (hp : PositiveLink a) (h : Link.init a = .ok l) (h1 : a.LDSNDB = 1.0) :
    (budgetResult a l).1 + 0.95 ≤ budgetTotal (budgetLines a l) := by
  have := abs_le.mp (C93_report_sum a l hp h).1
  rw [h1] at this
  norm_num at this ⊢
  linarith [this.1]

theorem demoLink_positive : PositiveLink (demoLink 65 1.5e8 28 0.6 0.6) where
  freq := by norm_num [demoLink]
  Pt := by norm_num [demoLink]
  Ts := by norm_num [demoLink]
  range := by norm_num [demoLink]
  rate := by norm_num [demoLink]
  etaT := by intro x hx; simp only [demoLink, Option.some.injEq] at hx; rw [← hx]; norm_num
  etaR := by intro x hx; simp only [demoLink, Option.some.injEq] at hx; rw [← hx]; norm_num

/-- Cases for `C93_report_sum`, `C93_report_adds_up_partial` and `C93_report_adds_up_false`: the link of the other examples,
without and with the default DSN loss. -/
example : (∃ l, Link.init { demoLink 65 1.5e8 28 0.6 0.6 with LDSNDB := 0 } = .ok l ∧
      |budgetTotal (budgetLines { demoLink 65 1.5e8 28 0.6 0.6 with LDSNDB := 0 } l) -
        (budgetResult { demoLink 65 1.5e8 28 0.6 0.6 with LDSNDB := 0 } l).1| ≤ 0.05) ∧
    ∃ l, Link.init (demoLink 65 1.5e8 28 0.6 0.6) = .ok l ∧
      (budgetResult (demoLink 65 1.5e8 28 0.6 0.6) l).1 + 0.95 ≤
        budgetTotal (budgetLines (demoLink 65 1.5e8 28 0.6 0.6) l) := by
  have hp := demoLink_positive
  constructor
  · obtain ⟨l, hl⟩ : ∃ l, Link.init { demoLink 65 1.5e8 28 0.6 0.6 with LDSNDB := 0 } = .ok l := by
      have h : (8.4:ℝ) * 1e9 ≠ 0 := by norm_num
      have h6 : (0.6:ℝ) ≠ 0 := by norm_num
      simp [demoLink, Link.init, rxGain, txGain, needNumber, getAttr, bind, Except.bind, pure, Except.pure, h, h6]
    exact ⟨l, hl, C93_report_adds_up_partial _ l
      ⟨hp.freq, hp.Pt, hp.Ts, hp.range, hp.rate, hp.etaT, hp.etaR⟩ hl rfl⟩
  · obtain ⟨l, hl⟩ := demoLink_ok 65 1.5e8 28 (etaT := 0.6) (etaR := 0.6) (by norm_num) (by norm_num)
    exact ⟨l, hl, C93_report_adds_up_false _ l hp hl rfl⟩

end AMAT.Props
