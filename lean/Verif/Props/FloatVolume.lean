import Mathlib.Tactic.Linarith
import Mathlib.Tactic.Positivity
import Mathlib.Tactic.FieldSimp
import Verif.Model.FloatVolume
import Verif.Props.FloatLoad
import Verif.Props.TelecomProps

/-
C125: schedules and data volumes in double precision.  The sample times of a schedule ascend from zero to its exact duration
and lie within 3·2⁻⁵³ of their nominal values; a sample is scheduled as in exact arithmetic unless a window ends next to it,
and a sample on the edge of a window can be dropped.  The data volume starts at zero, never decreases, does not change at all
while the link is down, and exceeds rate times elapsed time by rounding only.
-/

noncomputable section

namespace AMAT.Props

open AMAT

theorem linspace0R_step {rnd : ℝ → ℝ} (hr : RoundsTo binary64 rnd) {T : ℝ} {n : ℕ} (hn : 2 ≤ n) (hn2 : n ≤ 2 ^ 52)
    (hT : (2:ℝ) ^ (-900 : ℤ) ≤ T) :
    (2:ℝ) ^ (-960 : ℤ) ≤ T / ((n : ℝ) - 1) ∧ (2:ℝ) ^ (-960 : ℤ) ≤ rnd (T / ((n : ℝ) - 1)) ∧
      |rnd (T / ((n : ℝ) - 1)) - T / ((n : ℝ) - 1)| ≤ 2⁻¹ ^ 53 * (T / ((n : ℝ) - 1)) := by
  have hn1 : (1:ℝ) ≤ (n : ℝ) - 1 := by
    have : (2:ℝ) ≤ n := by exact_mod_cast hn
    linarith
  have hn3 : (n : ℝ) - 1 ≤ 2 ^ 60 := by
    have : (n:ℝ) ≤ 2 ^ 52 := by exact_mod_cast hn2
    linarith
  have h60 : (2:ℝ) ^ (-900 : ℤ) = 2 ^ 60 * (2:ℝ) ^ (-960 : ℤ) := by
    rw [show (-900:ℤ) = 60 + (-960) by norm_num, binary64.two_zpow_add]; norm_cast
  have hp := binary64.two_zpow_pos (-960)
  have h1 : (2:ℝ) ^ (-960 : ℤ) ≤ T / ((n : ℝ) - 1) := by
    rw [le_div_iff₀ (by linarith)]
    calc (2:ℝ) ^ (-960 : ℤ) * ((n : ℝ) - 1) ≤ (2:ℝ) ^ (-960 : ℤ) * 2 ^ 60 := by gcongr
      _ = (2:ℝ) ^ (-900 : ℤ) := by rw [h60, mul_comm]
      _ ≤ T := hT
  have h2 : (0:ℝ) < T / ((n : ℝ) - 1) := by linarith
  refine ⟨h1, hr.ge_of_ge (binary64.pow_mem (by norm_num)) h1, ?_⟩
  have := binary64.rel_error hr (x := T / ((n : ℝ) - 1)) (by
    rw [abs_of_pos h2]
    refine le_trans ?_ h1
    exact zpow_le_zpow_right₀ (by norm_num) (by norm_num))
  rwa [abs_of_pos h2] at this

theorem linspace0R_get {rnd : ℝ → ℝ} (hr : RoundsTo binary64 rnd) {T : ℝ} {n : ℕ} (hn : 2 ≤ n) (hn2 : n ≤ 2 ^ 52)
    (hT : (2:ℝ) ^ (-900 : ℤ) ≤ T) (i : ℕ) (hi : i < n) :
    (linspace0R rnd T n)[i]? = some (if i + 1 = n then T else rnd ((i : ℝ) * rnd (T / ((n : ℝ) - 1)))) := by
  obtain ⟨-, h2, -⟩ := linspace0R_step hr hn hn2 hT
  have h0 : rnd (T / ((n : ℝ) - 1)) ≠ 0 :=
     ne_of_gt (lt_of_lt_of_le (binary64.two_zpow_pos (-960)) h2)
  simp only [linspace0R, List.getElem?_map, List.getElem?_range hi, Option.map_some]
  simp [h0, show 1 < n by omega, show ¬ n ≤ 1 by omega]

/-- **C125**, sample times.  The times of a schedule ascend from exactly zero to exactly its duration, and each lies within
3·2⁻⁵³ (relatively) of its nominal value. -/
theorem C125_sample_times {rnd : ℝ → ℝ} (hr : RoundsTo binary64 rnd) (T : ℝ) (hTm : T ∈ binary64) (n : ℕ) (hn : 2 ≤ n)
    (hn2 : n ≤ 2 ^ 52) (hT : (2:ℝ) ^ (-900 : ℤ) ≤ T) (ws : List (ℝ × ℝ)) :
    (scheduleInitR rnd T n ws).1.length = n ∧ (scheduleInitR rnd T n ws).1[0]? = some 0 ∧
    (scheduleInitR rnd T n ws).1[n - 1]? = some T ∧ (scheduleInitR rnd T n ws).1.Pairwise (· ≤ ·) ∧
    (∀ t ∈ (scheduleInitR rnd T n ws).1, 0 ≤ t ∧ t ≤ T ∧ t ∈ binary64) ∧
    ∀ (i : ℕ) (t : ℝ), (scheduleInitR rnd T n ws).1[i]? = some t →
      |t - i * (T / ((n : ℝ) - 1))| ≤ 3 * 2⁻¹ ^ 53 * (i * (T / ((n : ℝ) - 1))) := by
  have hg := linspace0R_get hr hn hn2 hT
  obtain ⟨h1, h2, h3⟩ := linspace0R_step hr hn hn2 hT
  have hlen : (linspace0R rnd T n).length = n := by simp [linspace0R]
  have hn1 : (1:ℝ) ≤ (n : ℝ) - 1 := by
    have : (2:ℝ) ≤ n := by exact_mod_cast hn
    linarith
  have hp := binary64.two_zpow_pos (-960)
  have hs : T / ((n : ℝ) - 1) * ((n : ℝ) - 1) = T := by field_simp
  set s := T / ((n : ℝ) - 1) with hsd
  have hs0 : 0 < s := by linarith
  have h3' := abs_le.mp h3
  have hr0 : rnd 0 = 0 := hr.eq_self zero_mem_binary64
  have hT0 : 0 ≤ T := le_trans (binary64.two_zpow_pos _).le hT
  -- no rounded time exceeds the duration
  have hle : ∀ i : ℕ, i + 1 < n → rnd ((i : ℝ) * rnd s) ≤ T := by
    intro i hi
    refine hr.le_of_le hTm ?_
    have hi' : (i:ℝ) + 1 ≤ (n : ℝ) - 1 := by
      have : ((i + 2 : ℕ) : ℝ) ≤ n := by exact_mod_cast hi
      push_cast at this; linarith
    have hn3 : (n : ℝ) ≤ 2 ^ 52 := by exact_mod_cast hn2
    have hi0 : (0:ℝ) ≤ i := Nat.cast_nonneg i
    calc (i:ℝ) * rnd s ≤ i * (s + 2⁻¹ ^ 53 * s) := by gcongr; linarith
      _ = (i + i * 2⁻¹ ^ 53) * s := by ring
      _ ≤ ((n : ℝ) - 1) * s := by
          gcongr
          have : (i:ℝ) * 2⁻¹ ^ 53 ≤ 1 := by
            calc (i:ℝ) * 2⁻¹ ^ 53 ≤ 2 ^ 52 * 2⁻¹ ^ 53 := by gcongr; linarith
              _ ≤ 1 := by norm_num
          linarith
      _ = T := by rw [mul_comm, hs]
  have hnn : ∀ i : ℕ, 0 ≤ rnd ((i : ℝ) * rnd s) := fun i =>
    hr.ge_of_ge zero_mem_binary64 (mul_nonneg (Nat.cast_nonneg i) (by linarith))
  have hall : ∀ t ∈ linspace0R rnd T n, 0 ≤ t ∧ t ≤ T ∧ t ∈ binary64 := by
    intro t ht
    obtain ⟨i, hi, rfl⟩ := List.mem_iff_getElem.mp ht
    have hin : i < n := by rwa [hlen] at hi
    have := hg i hin
    rw [List.getElem?_eq_getElem hi] at this
    rw [Option.some.inj this]
    split_ifs with h
    · exact ⟨hT0, le_rfl, hTm⟩
    · exact ⟨hnn i, hle i (by omega), hr.mem _⟩
  refine ⟨hlen, ?_, ?_, ?_, hall, ?_⟩
  · show (linspace0R rnd T n)[0]? = some 0
    rw [hg 0 (by omega), if_neg (by omega)]
    simp [hr0]
  · show (linspace0R rnd T n)[n - 1]? = some T
    rw [hg (n - 1) (by omega), if_pos (by omega)]
  · show (linspace0R rnd T n).Pairwise (· ≤ ·)
    rw [List.pairwise_iff_getElem]
    intro i j hi hj hij
    have hin : i < n := by rwa [hlen] at hi
    have hjn : j < n := by rwa [hlen] at hj
    have e1 := hg i hin
    have e2 := hg j hjn
    rw [List.getElem?_eq_getElem hi, if_neg (by omega)] at e1
    rw [List.getElem?_eq_getElem hj] at e2
    rw [Option.some.inj e1, Option.some.inj e2]
    split_ifs with h
    · exact hle i (by omega)
    · refine hr.mono (mul_le_mul_of_nonneg_right ?_ (by linarith))
      exact_mod_cast hij.le
  · intro i t ht
    change (linspace0R rnd T n)[i]? = some t at ht
    have hin : i < n := by
      have := (List.getElem?_eq_some_iff.mp ht).1
      rwa [hlen] at this
    rw [hg i hin] at ht
    obtain rfl := Option.some.inj ht
    split_ifs with h
    · have e : (i:ℝ) * s = T := by
        have : (i:ℝ) = n - 1 := by rw [← h]; push_cast; ring
        rw [this, mul_comm, hs]
      rw [e, sub_self, abs_zero]; positivity
    · rcases Nat.eq_zero_or_pos i with rfl | hi0
      · simp [hr0]
      · have hi1 : (1:ℝ) ≤ i := by exact_mod_cast hi0
        have hx : (2:ℝ) ^ (-1022 : ℤ) ≤ i * rnd s := by
          have : (2:ℝ) ^ (-1022 : ℤ) ≤ (2:ℝ) ^ (-960 : ℤ) := zpow_le_zpow_right₀ (by norm_num) (by norm_num)
          nlinarith
        have hx0 : 0 ≤ i * rnd s := le_trans (binary64.two_zpow_pos _).le hx
        have e := binary64.rel_error hr (x := i * rnd s) (by rwa [abs_of_nonneg hx0])
        rw [abs_of_nonneg hx0] at e
        have e1 : |(i:ℝ) * rnd s - i * s| ≤ 2⁻¹ ^ 53 * (i * s) := by
          rw [← mul_sub, abs_mul, abs_of_nonneg (by linarith : (0:ℝ) ≤ i)]
          nlinarith
        have e2 := abs_le.mp e1
        have his : 0 < (i:ℝ) * s := by positivity
        calc |rnd (i * rnd s) - i * s| ≤ |rnd (i * rnd s) - i * rnd s| + |i * rnd s - i * s| := abs_sub_le _ _ _
          _ ≤ 2⁻¹ ^ 53 * (i * rnd s) + 2⁻¹ ^ 53 * (i * s) := add_le_add e e1
          _ ≤ 2⁻¹ ^ 53 * (2 * (i * s)) + 2⁻¹ ^ 53 * (i * s) := by
              have : (2⁻¹:ℝ) ^ 53 * (i * s) ≤ 1 * (i * s) := by gcongr; norm_num
              have : (i:ℝ) * rnd s ≤ 2 * (i * s) := by linarith
              gcongr
          _ = 3 * 2⁻¹ ^ 53 * (i * s) := by ring

/-- **C125**, schedules.  A sample transmits exactly if its computed time lies in a window, and this agrees with exact
arithmetic (C11) unless the edge of a window lies within 3·2⁻⁵³ (relatively) of the nominal time. -/
theorem C125_schedule {rnd : ℝ → ℝ} (hr : RoundsTo binary64 rnd) (T : ℝ) (hTm : T ∈ binary64) (n : ℕ) (hn : 2 ≤ n)
    (hn2 : n ≤ 2 ^ 52) (hT : (2:ℝ) ^ (-900 : ℤ) ≤ T) (ws : List (ℝ × ℝ)) (i : ℕ) (hi : i < n) :
    ∃ t b, (scheduleInitR rnd T n ws).1[i]? = some t ∧ (scheduleInitR rnd T n ws).2[i]? = some b ∧
      (b = true ↔ ∃ w ∈ ws, w.1 ≤ t ∧ t ≤ w.2) ∧
      ((∀ w ∈ ws, 3 * 2⁻¹ ^ 53 * (i * (T / ((n : ℝ) - 1))) < |w.1 - i * (T / ((n : ℝ) - 1))| ∧
        3 * 2⁻¹ ^ 53 * (i * (T / ((n : ℝ) - 1))) < |w.2 - i * (T / ((n : ℝ) - 1))|) →
        (scheduleInit T n ws).2[i]? = some b) := by
  obtain ⟨hlen, -, -, -, -, hacc⟩ := C125_sample_times hr T hTm n hn hn2 hT ws
  have hil : i < (scheduleInitR rnd T n ws).1.length := by rwa [hlen]
  have ht := List.getElem?_eq_getElem hil
  set t := (scheduleInitR rnd T n ws).1[i] with htd
  refine ⟨t, windowLoop t false ws, ht, ?_, ?_, ?_⟩
  · show ((scheduleInitR rnd T n ws).1.map (fun t => windowLoop t false ws))[i]? = _
    rw [List.getElem?_map, ht]; rfl
  · rw [windowLoop_iff]; simp
  · intro hw
    have ha := hacc i t ht
    have e : (scheduleInit T n ws).2[i]? = some (windowLoop ((i : ℝ) * (T / ((n : ℝ) - 1))) false ws) := by
      simp [scheduleInit, linspace0, List.getElem?_range hi]
    rw [e]
    congr 1
    rw [Bool.eq_iff_iff, windowLoop_iff, windowLoop_iff]
    simp only [Bool.false_eq_true, and_false, or_false]
    obtain ⟨a1, a2⟩ := abs_le.mp ha
    refine exists_congr fun w => and_congr_right fun hwm => ?_
    obtain ⟨b1, b2⟩ := hw w hwm
    rcases lt_abs.mp b1 with c1 | c1 <;> rcases lt_abs.mp b2 with c2 | c2 <;>
      constructor <;> rintro ⟨d1, d2⟩ <;> constructor <;> linarith

/-- **C125**, a limit: a sample on the edge of a window can be dropped.  An hour sampled at 100 points has its twelfth sample
at 400 s, and exact arithmetic has it transmit in the window from 0 to 400 s; in doubles the sample falls at
400.00000000000006 s and does not transmit. -/
theorem C125_edge_dropped {rnd : ℝ → ℝ} (hr : RoundsTo binary64 rnd) :
    (scheduleInit 3600 100 [(0, 400)]).2[11]? = some true ∧
    (scheduleInitR rnd 3600 100 [(0, 400)]).2[11]? = some false := by
  have hn : (2:ℕ) ≤ 100 := by norm_num
  have hT : (2:ℝ) ^ (-900 : ℤ) ≤ 3600 := by
    have : (2:ℝ) ^ (-900 : ℤ) ≤ (2:ℝ) ^ (0 : ℤ) := zpow_le_zpow_right₀ (by norm_num) (by norm_num)
    rw [zpow_zero] at this
    linarith
  have hTm : (3600:ℝ) ∈ binary64 := by simpa using int_mem (m := 3600) (by norm_num)
  have s1 : rnd (3600 / 99) = (5117726849284655 : ℤ) * (2:ℝ) ^ (-47 : ℤ) :=
    binary64.round_eq hr 5117726849284655 (-47) (by norm_num) (by norm_num) (by norm_num) (by rw [abs_lt]; constructor <;> norm_num)
  have s2 : rnd (11 * rnd (3600 / 99)) = (7036874417766401 : ℤ) * (2:ℝ) ^ (-44 : ℤ) := by
    rw [s1]
    exact binary64.round_eq hr 7036874417766401 (-44) (by norm_num) (by norm_num) (by norm_num)
      (by rw [abs_lt]; constructor <;> norm_num)
  have hg := linspace0R_get hr (n := 100) hn (by norm_num) hT 11 (by norm_num)
  constructor
  · norm_num [scheduleInit, linspace0, windowLoop, List.getElem?_map, List.getElem?_range]
  · show ((linspace0R rnd 3600 100).map (fun t => windowLoop t false [(0, 400)]))[11]? = _
    rw [List.getElem?_map, hg]
    simp only [show ¬ (11 + 1 = 100) by norm_num, if_false, Option.map_some]
    rw [show ((100 : ℕ) : ℝ) - 1 = 99 by norm_num, show ((11 : ℕ) : ℝ) = 11 by norm_num, s2]
    norm_num [windowLoop]

/-- The products of a rate with two boolean arrays are exact. -/
theorem gate_exact {rnd : ℝ → ℝ} (hr : RoundsTo binary64 rnd) {R : ℝ} (hR : R ∈ binary64) (v x : Bool) :
    rnd (rnd (R * boolNum v) * boolNum x) = R * boolNum v * boolNum x := by
  have h0 := hr.eq_self zero_mem_binary64
  have hR := hr.eq_self hR
  cases v <;> cases x <;> simp [boolNum, h0, hR]

theorem trapzFromR_getElem {rnd : ℝ → ℝ} : ∀ (l : List (ℝ × ℝ)) (acc : ℝ) (i : ℕ) (p q : ℝ × ℝ), l[i]? = some p →
    l[i + 1]? = some q → ∃ u, (acc :: trapzFromR rnd acc l)[i]? = some u ∧
      (acc :: trapzFromR rnd acc l)[i + 1]? = some (rnd (u + trapzIncR rnd p q)) := by
  intro l
  induction l with
  | nil => intro acc i p q hp; simp at hp
  | cons a r ih =>
      intro acc i p q hp hq
      cases r with
      | nil => simp at hq
      | cons b r =>
          cases i with
          | zero =>
              simp only [List.getElem?_cons_zero, Option.some.injEq, List.getElem?_cons_succ] at hp hq
              subst hp hq
              exact ⟨acc, by simp, by simp [trapzFromR]⟩
          | succ i =>
              obtain ⟨u, h1, h2⟩ := ih (rnd (acc + trapzIncR rnd a b)) i p q (by simpa using hp) (by simpa using hq)
              exact ⟨u, by simpa [trapzFromR] using h1, by simpa [trapzFromR] using h2⟩

/-- **C125**, volumes.  For a non-negative rate and a non-decreasing grid of doubles the data volume has one entry per
sample, starts at zero and never decreases.  It agrees with the volume in exact arithmetic (C12) up to a relative
2·(k + 4)·2⁻⁵³ after `k` steps and an underflow of k·2⁻¹⁰⁷³, so that it exceeds rate times elapsed time by no more.  Over a
step at both ends of which the link is down it does not change, to the last bit. -/
theorem C125_volume {rnd : ℝ → ℝ} (hr : RoundsTo binary64 rnd) (R : ℝ) (hR : 0 ≤ R) (hRm : R ∈ binary64) (ts : List ℝ)
    (hts : ∀ t ∈ ts, t ∈ binary64) (vis tx : List Bool) (hv : vis.length = ts.length) (ht : tx.length = ts.length)
    (hmono : ts.Pairwise (· ≤ ·)) (t0 : ℝ) (h0 : ts[0]? = some t0) :
    ∃ out dv, computeDataVolumeR rnd R ts vis tx = .ok out ∧ computeDataVolume R ts vis tx = .ok dv ∧
      out.length = ts.length ∧ out[0]? = some 0 ∧ out.Pairwise (· ≤ ·) ∧
      (∀ (k : ℕ) (x y t : ℝ), k + 4 ≤ 2 ^ 52 → out[k]? = some x → dv[k]? = some y → ts[k]? = some t →
        |x - y| ≤ 2 * (k + 4) * 2⁻¹ ^ 53 * y + k * (2:ℝ) ^ (-1073 : ℤ) ∧
        x ≤ (1 + 2 * (k + 4) * 2⁻¹ ^ 53) * (R * (t - t0)) + k * (2:ℝ) ^ (-1073 : ℤ)) ∧
      ∀ (i : ℕ) (v0 v1 x0 x1 : Bool), vis[i]? = some v0 → vis[i + 1]? = some v1 → tx[i]? = some x0 → tx[i + 1]? = some x1 →
        (v0 && x0) = false → (v1 && x1) = false → out[i + 1]? = out[i]? := by
  have hne : ts ≠ [] := by rintro rfl; simp at h0
  obtain ⟨dv, hdv, hdl, -⟩ := C12_data_volume R hR ts vis tx hv ht hne hmono
  have htot := C12_total_bound R hR ts vis tx hv ht hmono dv hdv t0 h0
  set samples := ts.zip ((vis.zip tx).map (fun p => R * boolNum p.1 * boolNum p.2)) with hs
  have hgate : ts.zip ((vis.zip tx).map (fun p => rnd (rnd (R * boolNum p.1) * boolNum p.2))) = samples := by
    rw [hs]; congr 2; funext p; exact gate_exact hr hRm _ _
  have hlen : samples.length = ts.length := by simp [hs, hv, ht]
  have hsne : samples ≠ [] := by
    intro h; rw [h] at hlen; simp at hlen; exact hne (List.length_eq_zero_iff.mp hlen.symm)
  have hst : samples.Pairwise (fun p q => p.1 ≤ q.1) := zip_pairwise hmono _
  have hb : ∀ v x : Bool, R * boolNum v * boolNum x = if (v && x) = true then R else 0 := by
    intro v x; cases v <;> cases x <;> simp [boolNum]
  have hsy : ∀ p ∈ samples, 0 ≤ p.2 ∧ p.1 ∈ binary64 ∧ p.2 ∈ binary64 := by
    intro p hp
    obtain ⟨m1, m2⟩ := List.of_mem_zip hp
    obtain ⟨c, -, hc⟩ := List.mem_map.mp m2
    have : 0 ≤ p.2 ∧ p.2 ∈ binary64 := by
      rw [← hc]
      show 0 ≤ R * boolNum c.1 * boolNum c.2 ∧ R * boolNum c.1 * boolNum c.2 ∈ binary64
      rw [hb]; split_ifs
      · exact ⟨hR, hRm⟩
      · exact ⟨le_rfl, zero_mem_binary64⟩
    exact ⟨this.1, hts _ m1, this.2⟩
  obtain ⟨out, ho, hol, hoz, hop, -⟩ := C114_load_never_decreases hr samples hsne hst (fun p hp => (hsy p hp).1)
  have hout : computeDataVolumeR rnd R ts vis tx = .ok out := by
    simp only [computeDataVolumeR, hv, ht, ne_eq, not_true_eq_false, or_self, if_false, hgate, ho]
  refine ⟨out, dv, hout, hdv, by rw [hol, hlen], hoz, hop, ?_, ?_⟩
  · intro k x y t hk hx hy htk
    have hdv' : dv = 0 :: trapzFrom 0 samples := by
      simp only [computeDataVolume, hv, ht, ne_eq, not_true_eq_false, or_self, if_false, ← hs] at hdv
      cases hc : samples with
      | nil => exact absurd hc hsne
      | cons a b => rw [hc] at hdv; simpa [cumTrapz] using hdv.symm
    have hkl : k < samples.length := by
      rw [hlen]; exact (List.getElem?_eq_some_iff.mp htk).1
    have hyT : y = Spec.trapz (samples.take (k + 1)) := by
      rw [hdv', cumsum_getElem? 0 samples k hkl] at hy
      simpa using hy.symm
    have ha := C114_load_accurate hr samples hst hsy out ho k hk x hx
    rw [← hyT] at ha
    refine ⟨ha, ?_⟩
    obtain ⟨u, hu, hu0, hub⟩ := htot k t htk
    rw [hy] at hu
    obtain rfl := Option.some.inj hu
    have := (abs_le.mp ha).2
    have h5 : (1 + 2 * ((k:ℝ) + 4) * 2⁻¹ ^ 53) * y ≤ (1 + 2 * ((k:ℝ) + 4) * 2⁻¹ ^ 53) * (R * (t - t0)) := by gcongr
    linarith
  · intro i v0 v1 x0 x1 h1 h2 h3 h4 d0 d1
    have hi1 : i + 1 < ts.length := by rw [← hv]; exact (List.getElem?_eq_some_iff.mp h2).1
    have hp : samples[i]? = some (ts[i], 0) := by
      simp only [hs, List.getElem?_zip_eq_some, List.getElem?_map]
      refine ⟨List.getElem?_eq_getElem _, ?_⟩
      simp only [List.zip, List.getElem?_zipWith, h1, h3, Option.map_some]
      rw [hb, d0]; simp
    have hq : samples[i + 1]? = some (ts[i + 1], 0) := by
      simp only [hs, List.getElem?_zip_eq_some, List.getElem?_map]
      refine ⟨List.getElem?_eq_getElem _, ?_⟩
      simp only [List.zip, List.getElem?_zipWith, h2, h4, Option.map_some]
      rw [hb, d1]; simp
    have ho' : out = 0 :: trapzFromR rnd 0 samples := by
      cases hc : samples with
      | nil => exact absurd hc hsne
      | cons a b => rw [hc] at ho; simpa [cumTrapzR] using ho.symm
    obtain ⟨u, hu, hu'⟩ := trapzFromR_getElem (rnd := rnd) samples 0 i _ _ hp hq
    have hz := hr.eq_self zero_mem_binary64
    have hinc : trapzIncR rnd (ts[i], 0) (ts[i + 1], 0) = 0 := by simp [trapzIncR, hz]
    have hum : u ∈ binary64 := by
      have hmem : u ∈ out := by rw [ho']; exact List.mem_of_getElem? hu
      rw [ho'] at hmem
      rcases List.mem_cons.mp hmem with rfl | hm
      · exact zero_mem_binary64
      · exact ((trapzFromR_chain hr samples 0 zero_mem_binary64 hst (fun p hp => (hsy p hp).1)).1 u hm).2
    rw [hinc, add_zero, hr.eq_self hum] at hu'
    rw [ho', hu, hu']

/-- A case of `C125_volume`: a link of 1000 bit/s down during the last of three steps. -/
example {rnd : ℝ → ℝ} (hr : RoundsTo binary64 rnd) : ∃ out,
    computeDataVolumeR rnd 1000 [0, 10, 20, 30] [true, true, false, true] [true, true, true, false] = .ok out ∧
    out.Pairwise (· ≤ ·) ∧ out[3]? = out[2]? := by
  have m : ∀ t ∈ ([0, 10, 20, 30] : List ℝ), t ∈ binary64 := by
    intro t ht
    simp only [List.mem_cons, List.not_mem_nil, or_false] at ht
    rcases ht with rfl | rfl | rfl | rfl
    · exact zero_mem_binary64
    · simpa using int_mem (m := 10) (by norm_num)
    · simpa using int_mem (m := 20) (by norm_num)
    · simpa using int_mem (m := 30) (by norm_num)
  obtain ⟨out, dv, h1, -, -, -, h2, -, h3⟩ := C125_volume hr 1000 (by norm_num)
    (by simpa using int_mem (m := 1000) (by norm_num)) [0, 10, 20, 30] m [true, true, false, true] [true, true, true, false]
    rfl rfl (by norm_num) 0 rfl
  exact ⟨out, h1, h2, h3 2 false true true false rfl rfl rfl rfl rfl rfl⟩

/-- A case of `C125_sample_times` and `C125_schedule`: the hour sampled at 100 points, with a window from 100 to 500 s; the
twelfth sample is clear of both ends. -/
example {rnd : ℝ → ℝ} (hr : RoundsTo binary64 rnd) : (scheduleInitR rnd 3600 100 [(100, 500)]).2[11]? = some true := by
  have hT : (2:ℝ) ^ (-900 : ℤ) ≤ 3600 := by
    have : (2:ℝ) ^ (-900 : ℤ) ≤ (2:ℝ) ^ (0 : ℤ) := zpow_le_zpow_right₀ (by norm_num) (by norm_num)
    rw [zpow_zero] at this
    linarith
  obtain ⟨t, b, -, h2, -, h4⟩ := C125_schedule hr 3600 (by simpa using int_mem (m := 3600) (by norm_num)) 100 (by norm_num)
    (by norm_num) hT [(100, 500)] 11 (by norm_num)
  have h5 := h4 (by
    intro w hw
    simp only [List.mem_cons, List.not_mem_nil, or_false] at hw
    subst hw
    norm_num [abs_of_neg, abs_of_pos])
  have h6 : (scheduleInit 3600 100 [(100, 500)]).2[11]? = some true := by
    norm_num [scheduleInit, linspace0, windowLoop, List.getElem?_map, List.getElem?_range]
  rw [h2, ← h5, h6]

/-- **C125**, lengths.  A data volume is computed only from visibilities and a schedule with as many samples as there are
times. -/
theorem C125_lengths (rnd : ℝ → ℝ) (R : ℝ) (ts : List ℝ) (vis tx : List Bool) (out : List ℝ)
    (h : computeDataVolumeR rnd R ts vis tx = .ok out) : vis.length = ts.length ∧ tx.length = ts.length := by
  unfold computeDataVolumeR at h
  split_ifs at h with hc
  · push Not at hc; exact hc

/-- Case for `C125_lengths`: a schedule with two samples for three times is refused. -/
example (rnd : ℝ → ℝ) : ∀ out, computeDataVolumeR rnd 1000 [0, 1, 2] [true, true, true] [true, true] ≠ .ok out :=
  fun out h => absurd (C125_lengths rnd _ _ _ _ out h).2 (by simp)

/-- **C125**, extremely short schedules.  Even when the step between the samples underflows to zero, the times ascend from
exactly zero to exactly the duration. -/
theorem C125_underflowing_step {rnd : ℝ → ℝ} (hr : RoundsTo binary64 rnd) (T : ℝ) (hTm : T ∈ binary64) (hT : 0 ≤ T) (n : ℕ)
    (hn : 2 ≤ n) (hs : rnd (T / ((n : ℝ) - 1)) = 0) (ws : List (ℝ × ℝ)) :
    (scheduleInitR rnd T n ws).1[0]? = some 0 ∧ (scheduleInitR rnd T n ws).1[n - 1]? = some T ∧
    (scheduleInitR rnd T n ws).1.Pairwise (· ≤ ·) := by
  have hr0 : rnd 0 = 0 := hr.eq_self zero_mem_binary64
  have one : (1:ℝ) ∈ binary64 := by simpa using int_mem (m := 1) (by norm_num)
  have hn1 : (0:ℝ) < (n : ℝ) - 1 := by
    have : (2:ℝ) ≤ n := by exact_mod_cast hn
    linarith
  have hlen : (linspace0R rnd T n).length = n := by simp [linspace0R]
  have hg : ∀ i, i < n → (linspace0R rnd T n)[i]? =
      some (if i + 1 = n then T else rnd (rnd ((i : ℝ) / ((n : ℝ) - 1)) * T)) := by
    intro i hi
    simp only [linspace0R, List.getElem?_map, List.getElem?_range hi, Option.map_some]
    simp [hs, show 1 < n by omega, show ¬ n ≤ 1 by omega]
  refine ⟨?_, ?_, ?_⟩
  · show (linspace0R rnd T n)[0]? = some 0
    rw [hg 0 (by omega), if_neg (by omega)]
    simp [hr0]
  · show (linspace0R rnd T n)[n - 1]? = some T
    rw [hg (n - 1) (by omega), if_pos (by omega)]
  · show (linspace0R rnd T n).Pairwise (· ≤ ·)
    rw [List.pairwise_iff_getElem]
    intro i j hi hj hij
    have hin : i < n := by rwa [hlen] at hi
    have hjn : j < n := by rwa [hlen] at hj
    have e1 := hg i hin
    have e2 := hg j hjn
    rw [List.getElem?_eq_getElem hi, if_neg (by omega)] at e1
    rw [List.getElem?_eq_getElem hj] at e2
    rw [Option.some.inj e1, Option.some.inj e2]
    split_ifs with h
    · refine hr.le_of_le hTm ?_
      have : rnd ((i : ℝ) / ((n : ℝ) - 1)) ≤ 1 := by
        refine hr.le_of_le one ?_
        rw [div_le_one hn1, ← h]
        have : (i:ℝ) ≤ j := by exact_mod_cast hij.le
        push_cast; linarith
      nlinarith
    · refine hr.mono (mul_le_mul_of_nonneg_right (hr.mono ?_) hT)
      refine div_le_div_of_nonneg_right ?_ hn1.le
      exact_mod_cast hij.le

/-- Case for `C125_underflowing_step`: the smallest positive double, sampled at 100 points. -/
example {rnd : ℝ → ℝ} (hr : RoundsTo binary64 rnd) :
    (scheduleInitR rnd ((2:ℝ) ^ (-1074 : ℤ)) 100 []).1[99]? = some ((2:ℝ) ^ (-1074 : ℤ)) ∧
    (scheduleInitR rnd ((2:ℝ) ^ (-1074 : ℤ)) 100 []).1.Pairwise (· ≤ ·) := by
  have hη := binary64.two_zpow_pos (-1074)
  have hm : (2:ℝ) ^ (-1074 : ℤ) ∈ binary64 := ⟨1, -1074, by norm_num, le_rfl, by norm_cast; rw [one_mul]⟩
  have hs : rnd ((2:ℝ) ^ (-1074 : ℤ) / (((100 : ℕ) : ℝ) - 1)) = 0 := by
    set η := (2:ℝ) ^ (-1074 : ℤ)
    have h2 : (2:ℝ) ^ (-1075 : ℤ) = η / 2 := by
      rw [show (-1075:ℤ) = -1074 - 1 by norm_num, zpow_sub_one₀ (by norm_num)]; rfl
    have hx : η / (((100 : ℕ) : ℝ) - 1) = η / 99 := by norm_num
    rw [hx]
    have hb := (round_any hr (x := η / 99) (by positivity)).2
    rw [h2] at hb
    have h0 : 0 ≤ rnd (η / 99) := hr.ge_of_ge zero_mem_binary64 (by positivity)
    obtain ⟨m, e, -, he, hme⟩ := hr.mem (η / 99)
    have hp := binary64.two_zpow_pos e
    have hle : η ≤ (2:ℝ) ^ e := zpow_le_zpow_right₀ (by norm_num) he
    rcases lt_or_ge 0 m with h | h
    · exfalso
      have : (1:ℝ) ≤ m := by exact_mod_cast h
      have h3 : η ≤ rnd (η / 99) := by rw [hme]; nlinarith
      have : (1 + 2⁻¹ ^ 53 : ℝ) * (η / 99) ≤ 2 * (η / 99) := by
        refine mul_le_mul_of_nonneg_right ?_ (by positivity)
        norm_num
      linarith
    · have : (m:ℝ) ≤ 0 := by exact_mod_cast h
      have : rnd (η / 99) ≤ 0 := by rw [hme]; nlinarith
      linarith
  obtain ⟨-, h2, h3⟩ := C125_underflowing_step hr _ hm hη.le 100 (by norm_num) hs []
  exact ⟨h2, h3⟩

end AMAT.Props
