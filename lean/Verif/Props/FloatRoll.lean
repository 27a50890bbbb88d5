import Verif.Model.FloatRoll
import Verif.Props.FloatTable
import Verif.Props.GuidanceProps

/-
C123: the roll-rate limit in double precision.
-/

noncomputable section

namespace AMAT.Props

open AMAT

/-- The bank angle after `n` cycles with constant command, in double precision. -/
def bankAfterR (rnd : ℝ → ℝ) (rate cmd ts ini : ℝ) (n : ℕ) : ℝ :=
  (fun x => (psuedoControllerR rnd rate cmd x ts).1)^[n] ini

/-- Without rounding errors this is the limiter of C38 and C39. -/
theorem controllerR_exact (rate cmd ini ts : ℝ) : psuedoControllerR (fun x => x) rate cmd ini ts = psuedoController rate cmd ini ts :=
  rfl

theorem sign_round {rnd : ℝ → ℝ} (hr : RoundsTo binary64 rnd) {x y : ℝ} (hx : x ∈ binary64) (hy : y ∈ binary64) :
    npSign (rnd (x - y)) = npSign (x - y) := by
  obtain ⟨a, ha, e⟩ := diff_near hr hx hy
  have ha0 := near_pos ha
  rw [e]
  unfold npSign
  rcases lt_trichotomy (x - y) 0 with h | h | h
  · have h1 := mul_neg_of_neg_of_pos h ha0
    rw [if_neg (by linarith), if_pos h1, if_neg (by linarith), if_pos h]
  · rw [h, zero_mul]
  · rw [if_pos (mul_pos h ha0), if_pos h]

theorem sign_cases (x : ℝ) : npSign x = 1 ∧ 0 < x ∨ npSign x = -1 ∧ x < 0 ∨ npSign x = 0 ∧ x = 0 := by
  unfold npSign
  rcases lt_trichotomy x 0 with h | h | h
  · right; left; rw [if_neg (by linarith), if_pos h]; exact ⟨rfl, h⟩
  · right; right; rw [h]; simp
  · left; rw [if_pos h]; exact ⟨rfl, h⟩

/-- The limiter on doubles: both branches, and exact sign and first product. -/
theorem controllerR_eq {rnd : ℝ → ℝ} (hr : RoundsTo binary64 rnd) {rate cmd ini : ℝ} (hrate : rate ∈ binary64)
    (hc : cmd ∈ binary64) (hi : ini ∈ binary64) (ts : ℝ) :
    psuedoControllerR rnd rate cmd ini ts =
      (rnd (ini + rnd (npSign (cmd - ini) * rate * ts)), rnd (ini + rnd (npSign (cmd - ini) * rate * ts))) := by
  have e : rnd (npSign (cmd - ini) * rate) = npSign (cmd - ini) * rate := by
    apply hr.eq_self
    rcases sign_cases (cmd - ini) with ⟨h, -⟩ | ⟨h, -⟩ | ⟨h, -⟩ <;> rw [h]
    · rwa [one_mul]
    · rw [neg_one_mul]; exact binary64.neg_mem hrate
    · rw [zero_mul]; exact zero_mem_binary64
  unfold psuedoControllerR
  rw [sign_round hr hc hi, e, ite_self]

/-- Rounding error of one cycle. -/
def rollError (st x : ℝ) : ℝ := 2⁻¹ ^ 51 * (st + |x|) + (2:ℝ) ^ (-1073 : ℤ)

theorem roll_error {rnd : ℝ → ℝ} (hr : RoundsTo binary64 rnd) {rate cmd ini ts : ℝ} (hrate : rate ∈ binary64)
    (hc : cmd ∈ binary64) (hi : ini ∈ binary64) (h0 : 0 ≤ rate * ts) :
    |(psuedoControllerR rnd rate cmd ini ts).1 - (ini + npSign (cmd - ini) * (rate * ts))| ≤
      rollError (rate * ts) ini := by
  rw [controllerR_eq hr hrate hc hi]
  simp only
  set σ := npSign (cmd - ini)
  have hσ : |σ| ≤ 1 := by
    rcases sign_cases (cmd - ini) with ⟨h, -⟩ | ⟨h, -⟩ | ⟨h, -⟩ <;> simp [σ, h]
  obtain ⟨a, b, ha, hb, e1⟩ := round_split hr (σ * rate * ts)
  obtain ⟨c, hcn, e2⟩ := sum_near hr hi (hr.mem (σ * rate * ts))
  rw [e2, e1]
  have hη := binary64.two_zpow_pos (-1074)
  have h73 : (2:ℝ) ^ (-1073 : ℤ) = 2 * (2:ℝ) ^ (-1074 : ℤ) := by
    rw [show (-1073:ℤ) = 1 + (-1074) by norm_num, binary64.two_zpow_add, zpow_one]
  obtain ⟨a1, a2⟩ := ha
  obtain ⟨c1, c2⟩ := hcn
  rw [pow_one] at a1 a2 c1 c2
  have hac : |a * c - 1| ≤ 2⁻¹ ^ 51 := by
    have hu : (0:ℝ) < 2⁻¹ ^ 53 ∧ (2⁻¹:ℝ) ^ 53 ≤ 1 / 4 := by norm_num
    have h51 : (2⁻¹:ℝ) ^ 51 = 4 * 2⁻¹ ^ 53 := by norm_num
    rw [h51]
    generalize (2⁻¹:ℝ) ^ 53 = u at *
    rw [abs_le]; constructor <;> nlinarith
  have hc' : |c - 1| ≤ 2⁻¹ ^ 51 := by
    have h51 : (2⁻¹:ℝ) ^ 53 ≤ 2⁻¹ ^ 51 := by norm_num
    rw [abs_le]; constructor <;> linarith
  have hc2 : |c| ≤ 2 := by
    have h51 : (2⁻¹:ℝ) ^ 53 ≤ 1 := by norm_num
    rw [abs_le]; constructor <;> linarith
  have e : (ini + (σ * rate * ts * a + b)) * c - (ini + σ * (rate * ts)) =
      σ * (rate * ts) * (a * c - 1) + ini * (c - 1) + b * c := by ring
  rw [e]
  have t1 : |σ * (rate * ts) * (a * c - 1)| ≤ rate * ts * 2⁻¹ ^ 51 := by
    rw [abs_mul, abs_mul, abs_of_nonneg h0]
    have : |σ| * (rate * ts) ≤ rate * ts := mul_le_of_le_one_left h0 hσ
    exact mul_le_mul this hac (abs_nonneg _) h0
  have t2 : |ini * (c - 1)| ≤ |ini| * 2⁻¹ ^ 51 := by
    rw [abs_mul]; exact mul_le_mul_of_nonneg_left hc' (abs_nonneg _)
  have t3 : |b * c| ≤ (2:ℝ) ^ (-1074 : ℤ) * 2 := by
    rw [abs_mul]; exact mul_le_mul hb hc2 (abs_nonneg _) hη.le
  have := abs_add_le (σ * (rate * ts) * (a * c - 1) + ini * (c - 1)) (b * c)
  have := abs_add_le (σ * (rate * ts) * (a * c - 1)) (ini * (c - 1))
  unfold rollError
  rw [h73]
  generalize (2⁻¹:ℝ) ^ 51 = u at *
  linarith

/-- C123: in double precision the bank angle changes in one cycle by at most the maximal step, up to rounding errors. -/
theorem C123_roll_limit {rnd : ℝ → ℝ} (hr : RoundsTo binary64 rnd) {rate cmd ini ts : ℝ} (hrate : rate ∈ binary64)
    (hc : cmd ∈ binary64) (hi : ini ∈ binary64) (h0 : 0 ≤ rate * ts) :
    |(psuedoControllerR rnd rate cmd ini ts).1 - ini| ≤
      rate * ts + 2⁻¹ ^ 51 * (rate * ts + |ini|) + (2:ℝ) ^ (-1073 : ℤ) := by
  have h := roll_error hr hrate hc hi h0
  unfold rollError at h
  set x := (psuedoControllerR rnd rate cmd ini ts).1
  have hσ : |npSign (cmd - ini) * (rate * ts)| ≤ rate * ts := by
    rw [abs_mul, abs_of_nonneg h0]
    refine mul_le_of_le_one_left h0 ?_
    rcases sign_cases (cmd - ini) with ⟨h, -⟩ | ⟨h, -⟩ | ⟨h, -⟩ <;> simp [h]
  have e : x - ini = (x - (ini + npSign (cmd - ini) * (rate * ts))) + npSign (cmd - ini) * (rate * ts) := by ring
  rw [e]
  refine (abs_add_le _ _).trans ?_
  linarith

/-- C123: the turn is never in the wrong direction, not even by a rounding error, and an angle equal to the command is held
exactly. -/
theorem C123_roll_direction {rnd : ℝ → ℝ} (hr : RoundsTo binary64 rnd) {rate cmd ini ts : ℝ} (hrate : rate ∈ binary64)
    (hc : cmd ∈ binary64) (hi : ini ∈ binary64) (h0 : 0 ≤ rate * ts) :
    (ini < cmd → ini ≤ (psuedoControllerR rnd rate cmd ini ts).1) ∧
      (cmd < ini → (psuedoControllerR rnd rate cmd ini ts).1 ≤ ini) ∧
      (cmd = ini → (psuedoControllerR rnd rate cmd ini ts).1 = ini) := by
  rw [controllerR_eq hr hrate hc hi]
  simp only
  refine ⟨fun h => ?_, fun h => ?_, fun h => ?_⟩
  · have hs : npSign (cmd - ini) = 1 := by unfold npSign; rw [if_pos (by linarith)]
    rw [hs, one_mul]
    have := hr.ge_of_ge zero_mem_binary64 h0
    exact hr.ge_of_ge hi (by linarith)
  · have hs : npSign (cmd - ini) = -1 := by unfold npSign; rw [if_neg (by linarith), if_pos (by linarith)]
    rw [hs]
    have := hr.le_of_le zero_mem_binary64 (x := -1 * rate * ts) (by linarith)
    exact hr.le_of_le hi (by linarith)
  · have hs : npSign (cmd - ini) = 0 := by rw [h, sub_self]; simp [npSign]
    rw [hs, zero_mul, zero_mul, hr.eq_self zero_mem_binary64, add_zero, hr.eq_self hi]

theorem bankAfterR_succ (rnd : ℝ → ℝ) (rate cmd ts ini : ℝ) (n : ℕ) :
    bankAfterR rnd rate cmd ts ini (n + 1) = (psuedoControllerR rnd rate cmd (bankAfterR rnd rate cmd ts ini n) ts).1 := by
  unfold bankAfterR
  rw [Function.iterate_succ_apply']

theorem bankAfterR_mem {rnd : ℝ → ℝ} (hr : RoundsTo binary64 rnd) {ini : ℝ} (hi : ini ∈ binary64) (rate cmd ts : ℝ) (n : ℕ) :
    bankAfterR rnd rate cmd ts ini n ∈ binary64 := by
  cases n with
  | zero => exact hi
  | succ n =>
    rw [bankAfterR_succ]
    unfold psuedoControllerR
    split_ifs <;> exact hr.mem _

theorem roll_step (d st : ℝ) (h : 0 ≤ st) : |d - npSign d * st| ≤ max (|d| - st) st := by
  rcases sign_cases d with ⟨hs, hd⟩ | ⟨hs, hd⟩ | ⟨hs, hd⟩ <;> rw [hs]
  · rw [abs_of_pos hd, one_mul, le_max_iff]
    rcases le_total st d with h1 | h1
    · left; rw [abs_of_nonneg (by linarith)]
    · right; rw [abs_of_nonpos (by linarith)]; linarith
  · rw [abs_of_neg hd, le_max_iff]
    rcases le_total st (-d) with h1 | h1
    · left; rw [abs_of_nonpos (by linarith)]; linarith
    · right; rw [abs_of_nonneg (by linarith)]; linarith
  · rw [hd]; simp [h]

/-- C123: with a step that is not lost in the rounding errors of the angles, a constant command is tracked in double precision
to within one step and rounding errors, after finitely many cycles and ever after. -/
theorem C123_tracks {rnd : ℝ → ℝ} (hr : RoundsTo binary64 rnd) {rate cmd ts ini : ℝ} (hrate : rate ∈ binary64)
    (hc : cmd ∈ binary64) (hi : ini ∈ binary64) (hn : (2:ℝ) ^ (-1022 : ℤ) ≤ rate * ts)
    (hs : 2⁻¹ ^ 48 * (|cmd| + |cmd - ini|) ≤ rate * ts) :
    ∃ N : ℕ, (N:ℝ) ≤ 2 * |cmd - ini| / (rate * ts) + 2 ∧
      ∀ n, N ≤ n → |cmd - bankAfterR rnd rate cmd ts ini n| ≤ rate * ts + 2⁻¹ ^ 49 * (rate * ts + |cmd|) := by
  set st := rate * ts with hst
  have hst0 : 0 < st := lt_of_lt_of_le (binary64.two_zpow_pos _) hn
  have h22 : (2:ℝ) ^ (-1073 : ℤ) = 2⁻¹ ^ 51 * (2:ℝ) ^ (-1022 : ℤ) := by
    rw [show (-1073:ℤ) = -51 + (-1022) by norm_num, binary64.two_zpow_add]
    congr 1
    norm_num
  have hsmall : (2:ℝ) ^ (-1073 : ℤ) ≤ 2⁻¹ ^ 51 * st := by
    rw [h22]; exact mul_le_mul_of_nonneg_left hn (by positivity)
  have hu : (0:ℝ) < 2⁻¹ ^ 51 ∧ (2⁻¹:ℝ) ^ 51 ≤ 1 / 64 := by norm_num
  have h49 : (2⁻¹:ℝ) ^ 49 = 4 * 2⁻¹ ^ 51 := by norm_num
  set x := bankAfterR rnd rate cmd ts ini with hx
  have step : ∀ n, |cmd - x (n + 1)| ≤ max (|cmd - x n| - st) st + rollError st (x n) := by
    intro n
    have h1 := roll_error hr hrate hc (bankAfterR_mem hr hi rate cmd ts n) hst0.le
    rw [← bankAfterR_succ, ← hst, ← hx] at h1
    have h2 := roll_step (cmd - x n) st hst0.le
    have e : cmd - x (n + 1) = (cmd - x n - npSign (cmd - x n) * st) +
        -(x (n + 1) - (x n + npSign (cmd - x n) * st)) := by ring
    rw [e]
    refine (abs_add_le _ _).trans ?_
    rw [abs_neg]
    linarith
  have size : ∀ n, |x n| ≤ |cmd| + |cmd - x n| := by
    intro n
    have := abs_sub cmd (cmd - x n)
    rwa [sub_sub_cancel] at this
  have near : ∀ n, |cmd - x n| ≤ 2 * st → |cmd - x (n + 1)| ≤ st + 2⁻¹ ^ 49 * (st + |cmd|) := by
    intro n h
    have h1 := step n
    have h2 := size n
    have h3 : max (|cmd - x n| - st) st = st := max_eq_right (by linarith)
    rw [h3] at h1
    have h4 : rollError st (x n) ≤ 2⁻¹ ^ 49 * (st + |cmd|) := by
      unfold rollError
      rw [h49]
      have := abs_nonneg cmd
      generalize (2⁻¹:ℝ) ^ 51 = u at *
      nlinarith
    linarith
  have h48 : (2⁻¹:ℝ) ^ 48 = 8 * 2⁻¹ ^ 51 := by norm_num
  have hC := abs_nonneg cmd
  have hE := abs_nonneg (cmd - ini)
  have far : ∀ n : ℕ, |cmd - x n| ≤ max (|cmd - ini| - n * (st / 2)) (2 * st) := by
    intro n
    induction n with
    | zero => simp [hx, bankAfterR]
    | succ n ih =>
      have h1 := step n
      have h2 := size n
      have h3 : |cmd - x n| ≤ |cmd - ini| + 2 * st := by
        refine ih.trans (max_le ?_ (by linarith))
        have : (0:ℝ) ≤ n * (st / 2) := by positivity
        linarith
      have h4 : rollError st (x n) ≤ st / 2 := by
        unfold rollError
        rw [h48] at hs
        clear_value st
        generalize (2⁻¹:ℝ) ^ 51 = u at *
        nlinarith
      push_cast
      rw [le_max_iff]
      rcases le_total (|cmd - x n|) (2 * st) with h5 | h5
      · right
        rw [max_eq_right (by linarith)] at h1
        linarith
      · rw [max_eq_left (by linarith)] at h1
        rcases le_max_iff.mp ih with h6 | h6
        · left; linarith
        · right; linarith
  refine ⟨⌈2 * |cmd - ini| / st⌉₊ + 1, ?_, fun n h => ?_⟩
  · have := (Nat.ceil_lt_add_one (a := 2 * |cmd - ini| / st) (by positivity)).le
    push_cast
    linarith
  · obtain ⟨m, rfl⟩ : ∃ m, n = m + 1 := ⟨n - 1, by omega⟩
    apply near
    refine (far m).trans (max_le ?_ le_rfl)
    have h1 : 2 * |cmd - ini| / st ≤ m := by
      refine (Nat.le_ceil _).trans ?_
      exact_mod_cast (by omega : ⌈2 * |cmd - ini| / st⌉₊ ≤ m)
    rw [div_le_iff₀ hst0] at h1
    linarith

/-- Case for `C123_roll_limit`, `C123_roll_direction` and `C123_tracks`: 20 °/s, one-second cycles, from 0° towards 75°. -/
example {rnd : ℝ → ℝ} (hr : RoundsTo binary64 rnd) :
    ∃ N : ℕ, (N:ℝ) ≤ 2 * |(75:ℝ) - 0| / (20 * 1) + 2 ∧
      ∀ n, N ≤ n → |75 - bankAfterR rnd 20 75 1 0 n| ≤ 20 * 1 + 2⁻¹ ^ 49 * (20 * 1 + |75|) := by
  have h20 : (20:ℝ) ∈ binary64 := by simpa using int_double 20 (by norm_num)
  have h75 : (75:ℝ) ∈ binary64 := by simpa using int_double 75 (by norm_num)
  refine C123_tracks hr h20 h75 zero_mem_binary64 ?_ ?_
  · have : (2:ℝ) ^ (-1022 : ℤ) ≤ 1 := zpow_le_one_of_nonpos₀ (by norm_num) (by norm_num)
    linarith
  · rw [abs_of_pos (by norm_num), abs_of_pos (by norm_num)]; norm_num

/-- The double nearest to 0.1. -/
theorem tenth_double {rnd : ℝ → ℝ} (hr : RoundsTo binary64 rnd) : rnd (1 / 10) = 7205759403792794 * (2:ℝ) ^ (-56 : ℤ) := by
  have := binary64.round_eq hr 7205759403792794 (-56) (x := 1 / 10) (by norm_num) (by norm_num) (by norm_num)
    (by norm_num [abs_lt])
  exact_mod_cast this

/-- C123 (finding): the roll-rate limit itself is exceeded by rounding: from 0.1° towards 75° with 20 °/s and one-second
cycles the angle changes by more than 20°. -/
theorem C123_limit_exceeded {rnd : ℝ → ℝ} (hr : RoundsTo binary64 rnd) :
    20 * 1 < |(psuedoControllerR rnd 20 75 (rnd (1 / 10)) 1).1 - rnd (1 / 10)| := by
  have h20 : (20:ℝ) ∈ binary64 := by simpa using int_double 20 (by norm_num)
  have h75 : (75:ℝ) ∈ binary64 := by simpa using int_double 75 (by norm_num)
  rw [controllerR_eq hr h20 h75 (hr.mem _)]
  simp only
  have hs : npSign (75 - rnd (1 / 10)) = 1 := by
    unfold npSign; rw [if_pos]; rw [tenth_double hr]; norm_num
  rw [hs, one_mul, mul_one, hr.eq_self h20, tenth_double hr]
  have := binary64.round_eq hr 5657647031884186 (-48) (x := 7205759403792794 * (2:ℝ) ^ (-56 : ℤ) + 20) (by norm_num)
    (by norm_num) (by norm_num) (by norm_num [abs_lt])
  rw [this]
  norm_num

end AMAT.Props
