import Mathlib.Tactic.Linarith
import Mathlib.Tactic.Positivity
import Mathlib.Analysis.SpecialFunctions.Trigonometric.Bounds
import Verif.Model.FloatRestart
import Verif.Props.FloatGridProps
import Verif.Props.FloatLoad

/-
C116: going on from reported values, in double precision.
-/

noncomputable section

namespace AMAT.Spec

/-- `y` is `x` up to a relative error of 2⁻⁴⁹ (two units in the sixteenth digit). -/
def same49 (x y : ℝ) : Prop := |y - x| ≤ 2⁻¹ ^ 49 * |x|

/-- Zero, or not so small that doubles lose digits on the way. -/
def carries (x : ℝ) : Prop := x = 0 ∨ (2:ℝ) ^ (-700 : ℤ) ≤ |x|

end AMAT.Spec

namespace AMAT.Props

open AMAT

/-- Without rounding these are the conversions of the exact model. -/
theorem restartR_id (P : Planet) (i : InitState) :
    restartR id Real.pi P.RP P.Vref i = P.nonDimState (Vehicle.entryState P i) := by
  simp only [restartR, Planet.nonDimState, Vehicle.entryState, Planet.computeR, id]
  norm_num

theorem reportR_id (P : Planet) (J t : ℝ) (s : FState) :
    P.toPlotUnits (P.dimensionalizeArr (TrajArrays.ofSamples [(t, s)])) =
      { t := [P.tau * t / 60], r := [(reportR id Real.pi P.RP P.Vref J s).h0Km],
        theta := [(reportR id Real.pi P.RP P.Vref J s).theta0Deg], phi := [(reportR id Real.pi P.RP P.Vref J s).phi0Deg],
        v := [(reportR id Real.pi P.RP P.Vref J s).v0Kms], psi := [(reportR id Real.pi P.RP P.Vref J s).psi0Deg],
        gamma := [(reportR id Real.pi P.RP P.Vref J s).gamma0Deg],
        drange := [(reportR id Real.pi P.RP P.Vref J s).drange0Km] } := by
  simp only [reportR, Planet.toPlotUnits, Planet.dimensionalizeArr, TrajArrays.ofSamples, id, List.map_cons, List.map_nil]
  norm_num

/-- `x` is a product of at most `n` factors within 2⁻⁵³ of one. -/
def Near (n : ℕ) (x : ℝ) : Prop := (1 - 2⁻¹ ^ 53) ^ n ≤ x ∧ x ≤ (1 + 2⁻¹ ^ 53) ^ n

theorem near_zero : Near 0 1 := by simp [Near]

theorem near_pos {n : ℕ} {x : ℝ} (h : Near n x) : 0 < x := lt_of_lt_of_le (pow_pos (by norm_num) n) h.1

theorem near_mul {m n : ℕ} {x y : ℝ} (hx : Near m x) (hy : Near n y) : Near (m + n) (x * y) := by
  have h1 : (0:ℝ) < (1 - 2⁻¹ ^ 53) ^ m := pow_pos (by norm_num) m
  have h2 : (0:ℝ) < (1 - 2⁻¹ ^ 53) ^ n := pow_pos (by norm_num) n
  constructor
  · rw [pow_add]; exact mul_le_mul hx.1 hy.1 h2.le (near_pos hx).le
  · rw [pow_add]; exact mul_le_mul hx.2 hy.2 (near_pos hy).le (pow_nonneg (by norm_num) m)

theorem near_part {n : ℕ} {x w : ℝ} (hx : Near n x) (h0 : 0 ≤ w) (h1 : w ≤ 1) : Near n (1 + (x - 1) * w) := by
  have a : (1 - 2⁻¹ ^ 53 : ℝ) ^ n ≤ 1 := pow_le_one₀ (by norm_num) (by norm_num)
  have b : (1:ℝ) ≤ (1 + 2⁻¹ ^ 53) ^ n := one_le_pow₀ (by norm_num)
  obtain ⟨c, d⟩ := hx
  constructor <;> nlinarith

theorem near_abs {n : ℕ} (hn : n ≤ 9) {x : ℝ} (h : Near n x) : |x - 1| ≤ 2⁻¹ ^ 49 := by
  have a : (1 - 2⁻¹ ^ 53 : ℝ) ^ 9 ≤ (1 - 2⁻¹ ^ 53) ^ n := pow_le_pow_of_le_one (by norm_num) (by norm_num) hn
  have b : (1 + 2⁻¹ ^ 53 : ℝ) ^ n ≤ (1 + 2⁻¹ ^ 53) ^ 9 := pow_le_pow_right₀ (by norm_num) hn
  have c : (1:ℝ) - 2⁻¹ ^ 49 ≤ (1 - 2⁻¹ ^ 53) ^ 9 := by norm_num
  have d : (1 + 2⁻¹ ^ 53 : ℝ) ^ 9 ≤ 1 + 2⁻¹ ^ 49 := by norm_num
  rw [abs_le]
  constructor <;> linarith [h.1, h.2]

theorem round_near {rnd : ℝ → ℝ} (hr : RoundsTo binary64 rnd) {x : ℝ} (hx : (2:ℝ) ^ (-1022 : ℤ) ≤ |x|) :
    ∃ a, Near 1 a ∧ rnd x = x * a := by
  have hx0 : 0 < |x| := lt_of_lt_of_le (binary64.two_zpow_pos _) hx
  have hne : x ≠ 0 := abs_pos.mp hx0
  have h := binary64.rel_error hr hx
  refine ⟨rnd x / x, ?_, by field_simp⟩
  have h1 : |rnd x / x - 1| ≤ 2⁻¹ ^ 53 := by
    rw [show rnd x / x - 1 = (rnd x - x) / x by field_simp, abs_div, div_le_iff₀ hx0]
    exact h
  obtain ⟨a, b⟩ := abs_le.mp h1
  constructor <;> rw [pow_one] <;> linarith

theorem round_zero {rnd : ℝ → ℝ} (hr : RoundsTo binary64 rnd) : rnd 0 = 0 := hr.eq_self zero_mem_binary64

theorem tiny {m : ℤ} (hm : -1022 ≤ m) : (2:ℝ) ^ (-1022 : ℤ) ≤ (2:ℝ) ^ m := zpow_le_zpow_right₀ (by norm_num) hm

/-- A rounded multiple of a value that is not tiny. -/
theorem step {rnd : ℝ → ℝ} (hr : RoundsTo binary64 rnd) {x k : ℝ} {m : ℤ} (hx : (2:ℝ) ^ m ≤ |x|) (hm : -1022 ≤ m - 60)
    (hk : 2⁻¹ ^ 59 ≤ k) : ∃ a, Near 1 a ∧ rnd (x * k) = x * k * a ∧ (2:ℝ) ^ (m - 60) ≤ |rnd (x * k)| := by
  have hk0 : (0:ℝ) < k := lt_of_lt_of_le (by norm_num) hk
  have e : (2:ℝ) ^ (m - 60) = (2:ℝ) ^ m * 2⁻¹ ^ 60 := by
    rw [zpow_sub₀ (by norm_num), div_eq_mul_inv]; norm_num
  have hp := binary64.two_zpow_pos m
  have h1 : (2:ℝ) ^ m * 2⁻¹ ^ 59 ≤ |x * k| := by
    rw [abs_mul, abs_of_pos hk0]
    exact mul_le_mul hx hk (by norm_num) (abs_nonneg x)
  have h2 : (2:ℝ) ^ (m - 60) ≤ |x * k| := le_trans (by rw [e]; nlinarith) h1
  obtain ⟨a, ha, h⟩ := round_near hr (le_trans (tiny (by omega)) h2)
  refine ⟨a, ha, h, ?_⟩
  rw [h, abs_mul, abs_of_pos (near_pos ha), e]
  have h3 : (1:ℝ) / 2 ≤ a := le_trans (by norm_num) ha.1
  have h4 : (2:ℝ) ^ m * 2⁻¹ ^ 59 * (1 / 2) ≤ |x * k| * a := mul_le_mul h1 h3 (by norm_num) (abs_nonneg _)
  linarith

theorem milli {rnd : ℝ → ℝ} (hr : RoundsTo binary64 rnd) : ∃ a, Near 1 a ∧ rnd 0.001 = 1000⁻¹ * a := by
  have h : (0.001:ℝ) = 1000⁻¹ := by norm_num
  rw [h]
  refine round_near hr ?_
  refine le_trans (tiny (m := -10) (by norm_num)) ?_
  rw [abs_of_pos (by norm_num)]
  norm_num

theorem same_of_near {n : ℕ} (hn : n ≤ 9) {x a : ℝ} (h : Near n a) : Spec.same49 x (x * a) := by
  unfold Spec.same49
  rw [show x * a - x = (a - 1) * x by ring, abs_mul]
  exact mul_le_mul_of_nonneg_right (near_abs hn h) (abs_nonneg x)

/-- Four rounded factors. -/
theorem four_steps {rnd : ℝ → ℝ} (hr : RoundsTo binary64 rnd) {x k1 k2 k3 k4 : ℝ} (hx : Spec.carries x)
    (h1 : 2⁻¹ ^ 59 ≤ k1) (h2 : 2⁻¹ ^ 59 ≤ k2) (h3 : 2⁻¹ ^ 59 ≤ k3) (h4 : 2⁻¹ ^ 59 ≤ k4) :
    ∃ a, Near 4 a ∧ rnd (rnd (rnd (rnd (x * k1) * k2) * k3) * k4) = x * (k1 * k2 * k3 * k4) * a := by
  rcases hx with rfl | hx
  · refine ⟨1, ?_, by simp [round_zero hr]⟩
    constructor <;> norm_num
  obtain ⟨a, ha, ea, hb⟩ := step hr hx (by norm_num) h1
  obtain ⟨b, hb', eb, hc⟩ := step hr hb (by norm_num) h2
  obtain ⟨c, hc', ec, hd⟩ := step hr hc (by norm_num) h3
  obtain ⟨d, hd', ed, _⟩ := step hr hd (by norm_num) h4
  refine ⟨a * b * c * d, near_mul (near_mul (near_mul ha hb') hc') hd', ?_⟩
  rw [ed, ec, eb, ea]
  ring

theorem milli_ge {rnd : ℝ → ℝ} (hr : RoundsTo binary64 rnd) : (2⁻¹:ℝ) ^ 59 ≤ rnd 0.001 := by
  obtain ⟨c, hc, ec⟩ := milli hr
  rw [ec]
  refine le_trans ?_ (mul_le_mul_of_nonneg_left hc.1 (by norm_num))
  norm_num

/-- Scaled quantities (speed, downrange) survive the trip through reported values. -/
theorem scaled_trip {rnd : ℝ → ℝ} (hr : RoundsTo binary64 rnd) {x k : ℝ} (hx : Spec.carries x) (h1 : 1 ≤ k)
    (h2 : k ≤ 2 ^ 59) : Spec.same49 x (rnd (rnd (rnd (rnd (x * k) * rnd 0.001) * 1000) / k)) := by
  have hk0 : 0 < k := by linarith
  obtain ⟨c, hc, ec⟩ := milli hr
  have h4 : (2⁻¹:ℝ) ^ 59 ≤ k⁻¹ := by
    rw [inv_pow]; exact inv_anti₀ hk0 h2
  obtain ⟨a, ha, ea⟩ := four_steps hr hx (le_trans (by norm_num) h1) (milli_ge hr) (show (2⁻¹:ℝ) ^ 59 ≤ 1000 by norm_num) h4
  rw [div_eq_mul_inv, ea, ec, show x * (k * (1000⁻¹ * c) * 1000 * k⁻¹) * a = x * (c * a) * (k * k⁻¹) by ring,
    mul_inv_cancel₀ hk0.ne', mul_one]
  exact same_of_near (n := 5) (by norm_num) (near_mul hc ha)

/-- Angles survive the trip through degrees, whatever number is used for π. -/
theorem angle_trip {rnd : ℝ → ℝ} (hr : RoundsTo binary64 rnd) {x p : ℝ} (hx : Spec.carries x) (h1 : 3 ≤ p) (h2 : p ≤ 4) :
    Spec.same49 x (rnd (rnd (rnd (rnd (x * 180) / p) * p) / 180)) := by
  have hp : 0 < p := by linarith
  have h4 : (2⁻¹:ℝ) ^ 59 ≤ p⁻¹ := by
    rw [inv_pow]; exact inv_anti₀ hp (le_trans h2 (by norm_num))
  obtain ⟨a, ha, ea⟩ := four_steps hr (k1 := 180) (k3 := p) (k4 := 180⁻¹) hx (by norm_num) h4 (le_trans (by norm_num) h1)
    (by norm_num)
  rw [div_eq_mul_inv _ p, div_eq_mul_inv _ (180:ℝ), ea,
    show x * (180 * p⁻¹ * p * 180⁻¹) * a = x * a * (p * p⁻¹) by ring, mul_inv_cancel₀ hp.ne', mul_one]
  exact same_of_near (n := 4) (by norm_num) ha

/-- The height above the surface: the difference of two doubles is zero or at least 2⁻⁵². -/
theorem height_near {rnd : ℝ → ℝ} (hr : RoundsTo binary64 rnd) {RP r : ℝ} (hRP : RP ∈ binary64) (h1 : 1 ≤ RP)
    (hm : r ∈ binary64) (hle : RP ≤ r) : ∃ a, Near 3 a ∧ rnd (rnd (r - RP) * rnd 0.001) = (r - RP) * 1000⁻¹ * a ∧
      (r - RP = 0 ∨ (2:ℝ) ^ (-172 : ℤ) ≤ |rnd (rnd (r - RP) * rnd 0.001)|) := by
  rcases eq_or_ne RP r with rfl | hne
  · exact ⟨1, by constructor <;> norm_num, by simp [round_zero hr], .inl (by simp)⟩
  have hg := binary64.gap (j := 0) hRP hm (by rw [zpow_zero, abs_of_pos (by linarith)]; exact h1)
    (by rw [zpow_zero, abs_of_pos (by linarith)]; linarith) hne
  obtain ⟨c, hc, ec⟩ := milli hr
  obtain ⟨a, ha, ea, hb⟩ := step hr (k := 1) hg (by norm_num) (by norm_num)
  rw [mul_one] at ea hb
  obtain ⟨b, hb', eb, hd⟩ := step hr hb (by norm_num) (milli_ge hr)
  refine ⟨a * c * b, near_mul (near_mul ha hc) hb', ?_, .inr ?_⟩
  · rw [eb, ea, ec]; ring
  · simpa using hd

theorem radius_trip {rnd : ℝ → ℝ} (hr : RoundsTo binary64 rnd) {x RP : ℝ} (hRP : RP ∈ binary64) (h1 : 1 ≤ RP) (hx : 1 ≤ x) :
    Spec.same49 x (rnd (rnd (RP + rnd (rnd (rnd (rnd (x * RP) - RP) * rnd 0.001) * 1000)) / RP)) := by
  have hp : 0 < RP := by linarith
  have hle : RP ≤ rnd (x * RP) := hr.ge_of_ge hRP (by nlinarith)
  have hxR : (2:ℝ) ^ (-1022 : ℤ) ≤ |x * RP| := by
    refine le_trans (tiny (m := 0) (by norm_num)) ?_
    rw [zpow_zero, abs_of_pos (by nlinarith)]; nlinarith
  obtain ⟨a, ha, ea⟩ := round_near hr hxR
  obtain ⟨b, hb, eb, hbig⟩ := height_near hr hRP h1 (hr.mem (x * RP)) hle
  set r := rnd (x * RP) with hrdef
  set k := rnd (rnd (r - RP) * rnd 0.001) with hk
  -- the height in metres
  obtain ⟨c, hc, ec⟩ : ∃ c, Near 1 c ∧ rnd (k * 1000) = k * 1000 * c := by
    rcases hbig with h | h
    · refine ⟨1, by constructor <;> norm_num, ?_⟩
      rw [eb, h]; simp [round_zero hr]
    · obtain ⟨c, hc, ec, _⟩ := step hr (k := 1000) h (by norm_num) (by norm_num)
      exact ⟨c, hc, ec⟩
  have hr0 : 0 < r := by linarith
  have e1 : RP + rnd (k * 1000) = r * (1 + (b * c - 1) * ((r - RP) / r)) := by
    rw [ec, eb]; field_simp; ring
  have hw : Near 4 (1 + (b * c - 1) * ((r - RP) / r)) :=
    near_part (near_mul hb hc) (div_nonneg (by linarith) hr0.le) (by rw [div_le_one hr0]; linarith)
  have hge : RP ≤ RP + rnd (k * 1000) := by
    have : 0 ≤ rnd (k * 1000) := by
      rw [ec, eb]
      have := near_pos hc
      have := near_pos hb
      have : 0 ≤ r - RP := by linarith
      positivity
    linarith
  have hRP2 : RP ≤ rnd (RP + rnd (k * 1000)) := hr.ge_of_ge hRP hge
  obtain ⟨d, hd, ed⟩ := round_near hr (x := RP + rnd (k * 1000)) (by
    refine le_trans (tiny (m := 0) (by norm_num)) ?_
    rw [zpow_zero, abs_of_pos (by linarith)]; linarith)
  obtain ⟨e, he, ee⟩ := round_near hr (x := rnd (RP + rnd (k * 1000)) / RP) (by
    refine le_trans (tiny (m := 0) (by norm_num)) ?_
    rw [zpow_zero, abs_of_pos (div_pos (by linarith) hp), one_le_div hp]; exact hRP2)
  rw [ee, ed, e1, ea]
  rw [show x * RP * a * (1 + (b * c - 1) * ((x * RP * a - RP) / (x * RP * a))) * d / RP * e =
    x * (a * (1 + (b * c - 1) * ((x * RP * a - RP) / (x * RP * a))) * d * e) * (RP / RP) by ring, div_self hp.ne', mul_one]
  rw [ea] at hw
  exact same_of_near (n := 7) (by norm_num) (near_mul (near_mul (near_mul ha hw) hd) he)

theorem near_three {x : ℝ} (h : Near 3 x) : |x - 1| ≤ 2⁻¹ ^ 51 := by
  have c : (1:ℝ) - 2⁻¹ ^ 51 ≤ (1 - 2⁻¹ ^ 53) ^ 3 := by norm_num
  have d : (1 + 2⁻¹ ^ 53 : ℝ) ^ 3 ≤ 1 + 2⁻¹ ^ 51 := by norm_num
  rw [abs_le]
  constructor <;> linarith [h.1, h.2]

theorem one_mem_binary64 : (1:ℝ) ∈ binary64 := ⟨1, 0, by norm_num, by norm_num, by simp⟩

/-- A height given in kilometres comes back from the first sample of the simulation, up to an error that is relative to the
distance from the centre. -/
theorem height_joint {rnd : ℝ → ℝ} (hr : RoundsTo binary64 rnd) {h RP : ℝ} (hRP : RP ∈ binary64) (h1 : 1 ≤ RP) (h0 : 0 ≤ h)
    (hh : Spec.carries h) :
    |rnd (rnd (rnd (rnd (rnd (RP + rnd (h * 1000)) / RP) * RP) - RP) * rnd 0.001) - h| ≤ 2⁻¹ ^ 49 * (RP / 1000 + h) := by
  have hp : 0 < RP := by linarith
  obtain ⟨a, ha, ea⟩ : ∃ a, Near 1 a ∧ rnd (h * 1000) = h * 1000 * a := by
    rcases hh with rfl | hh
    · exact ⟨1, by constructor <;> norm_num, by simp [round_zero hr]⟩
    · obtain ⟨c, hc, ec, _⟩ := step hr (k := 1000) hh (by norm_num) (by norm_num)
      exact ⟨c, hc, ec⟩
  have ha0 := near_pos ha
  have big : ∀ {x : ℝ}, 1 ≤ x → (2:ℝ) ^ (-1022 : ℤ) ≤ |x| := fun hx => by
    refine le_trans (tiny (m := 0) (by norm_num)) ?_
    rw [zpow_zero, abs_of_pos (by linarith)]; exact hx
  have hz : 0 ≤ rnd (h * 1000) := by rw [ea]; positivity
  have g2 : RP ≤ rnd (RP + rnd (h * 1000)) := hr.ge_of_ge hRP (by linarith)
  obtain ⟨b, hb, eb⟩ := round_near hr (big (x := RP + rnd (h * 1000)) (by linarith))
  have q3 : 1 ≤ rnd (RP + rnd (h * 1000)) / RP := by rw [one_le_div hp]; exact g2
  have g3 : 1 ≤ rnd (rnd (RP + rnd (h * 1000)) / RP) := hr.ge_of_ge one_mem_binary64 q3
  obtain ⟨c, hc, ec⟩ := round_near hr (big q3)
  have q4 : RP ≤ rnd (rnd (RP + rnd (h * 1000)) / RP) * RP := by nlinarith
  have g4 : RP ≤ rnd (rnd (rnd (RP + rnd (h * 1000)) / RP) * RP) := hr.ge_of_ge hRP q4
  obtain ⟨d, hd, ed⟩ := round_near hr (big (le_trans h1 q4))
  obtain ⟨e, he, ee, _⟩ := height_near hr hRP h1 (hr.mem _) g4
  rw [ee, ed, ec, eb, ea]
  have hq : Near 3 (b * c * d) := near_mul (near_mul hb hc) hd
  have e1 : (RP + h * 1000 * a) * b / RP * c * RP * d = (RP + h * 1000 * a) * (b * c * d) := by field_simp
  rw [e1]
  have hall : Near 7 (a * (b * c * d) * e) := near_mul (near_mul ha hq) he
  generalize b * c * d = q at hq hall
  have n1 := near_three hq
  have n2 := near_abs (by norm_num) hall
  have n3 : e ≤ 2 := le_trans he.2 (by norm_num)
  have n4 := near_pos he
  have e2 : ((RP + h * 1000 * a) * q - RP) * 1000⁻¹ * e - h = RP / 1000 * ((q - 1) * e) + h * (a * q * e - 1) := by
    field_simp; ring
  rw [e2]
  have t1 : |RP / 1000 * ((q - 1) * e)| ≤ RP / 1000 * (2⁻¹ ^ 51 * 2) := by
    rw [abs_mul, abs_mul, abs_of_pos (show 0 < RP / 1000 by positivity), abs_of_pos n4]
    refine mul_le_mul_of_nonneg_left ?_ (by positivity)
    exact mul_le_mul n1 n3 n4.le (by norm_num)
  have t2 : |h * (a * q * e - 1)| ≤ h * 2⁻¹ ^ 49 := by
    rw [abs_mul, abs_of_nonneg h0]
    exact mul_le_mul_of_nonneg_left n2 h0
  have t3 : RP / 1000 * (2⁻¹ ^ 51 * 2) ≤ RP / 1000 * 2⁻¹ ^ 49 := mul_le_mul_of_nonneg_left (by norm_num) (by positivity)
  refine le_trans (abs_add_le _ _) ?_
  linarith

theorem scaled_joint {rnd : ℝ → ℝ} (hr : RoundsTo binary64 rnd) {x k : ℝ} (hx : Spec.carries x) (h1 : 1 ≤ k)
    (h2 : k ≤ 2 ^ 59) : Spec.same49 x (rnd (rnd (rnd (rnd (x * 1000) / k) * k) * rnd 0.001)) := by
  have hk0 : 0 < k := by linarith
  obtain ⟨c, hc, ec⟩ := milli hr
  have h4 : (2⁻¹:ℝ) ^ 59 ≤ k⁻¹ := by
    rw [inv_pow]; exact inv_anti₀ hk0 h2
  obtain ⟨a, ha, ea⟩ := four_steps hr hx (show (2⁻¹:ℝ) ^ 59 ≤ 1000 by norm_num) h4 (le_trans (by norm_num) h1) (milli_ge hr)
  rw [div_eq_mul_inv, ea, ec, show x * (1000 * k⁻¹ * k * (1000⁻¹ * c)) * a = x * (c * a) * (k * k⁻¹) by ring,
    mul_inv_cancel₀ hk0.ne', mul_one]
  exact same_of_near (n := 5) (by norm_num) (near_mul hc ha)

theorem angle_joint {rnd : ℝ → ℝ} (hr : RoundsTo binary64 rnd) {x p : ℝ} (hx : Spec.carries x) (h1 : 3 ≤ p) (h2 : p ≤ 4) :
    Spec.same49 x (rnd (rnd (rnd (rnd (x * p) / 180) * 180) / p)) := by
  have hp : 0 < p := by linarith
  have h4 : (2⁻¹:ℝ) ^ 59 ≤ p⁻¹ := by
    rw [inv_pow]; exact inv_anti₀ hp (le_trans h2 (by norm_num))
  obtain ⟨a, ha, ea⟩ := four_steps hr (k1 := p) (k2 := 180⁻¹) (k3 := 180) hx (le_trans (by norm_num) h1) (by norm_num)
    (by norm_num) h4
  rw [div_eq_mul_inv _ p, div_eq_mul_inv _ (180:ℝ), ea,
    show x * (p * 180⁻¹ * 180 * p⁻¹) * a = x * a * (p * p⁻¹) by ring, mul_inv_cancel₀ hp.ne', mul_one]
  exact same_of_near (n := 4) (by norm_num) ha

/-- **C116.** A simulation continued from the reported last values of another one starts where that one ended: in doubles every
component of the dimensionless state comes back within a relative 2⁻⁴⁹ (so zeros come back as zeros). -/
theorem C116_restart_in_doubles {rnd : ℝ → ℝ} (hr : RoundsTo binary64 rnd) (p RP Vref J : ℝ) (s : FState) (hp1 : 3 ≤ p)
    (hp2 : p ≤ 4) (hRP : RP ∈ binary64) (hRP1 : 1 ≤ RP) (hRP2 : RP ≤ 2 ^ 59) (hV1 : 1 ≤ Vref) (hV2 : Vref ≤ 2 ^ 59)
    (hr1 : 1 ≤ s.r) (hθ : Spec.carries s.theta) (hφ : Spec.carries s.phi) (hv : Spec.carries s.v) (hψ : Spec.carries s.psi)
    (hγ : Spec.carries s.gamma) (hd : Spec.carries s.drange) :
    let s' := restartR rnd p RP Vref (reportR rnd p RP Vref J s)
    Spec.same49 s.r s'.r ∧ Spec.same49 s.theta s'.theta ∧ Spec.same49 s.phi s'.phi ∧ Spec.same49 s.v s'.v ∧
      Spec.same49 s.psi s'.psi ∧ Spec.same49 s.gamma s'.gamma ∧ Spec.same49 s.drange s'.drange :=
  ⟨radius_trip hr hRP hRP1 hr1, angle_trip hr hθ hp1 hp2, angle_trip hr hφ hp1 hp2, scaled_trip hr hv hV1 hV2,
    angle_trip hr hψ hp1 hp2, angle_trip hr hγ hp1 hp2, scaled_trip hr hd hRP1 hRP2⟩

/-- C116, seen from the histories: the first sample of a simulation repeats the initial values it was given.  Speed, angles and
downrange within a relative 2⁻⁴⁹; the height within 2⁻⁴⁹ of the distance from the centre, since it is added to the radius. -/
theorem C116_first_sample {rnd : ℝ → ℝ} (hr : RoundsTo binary64 rnd) (p RP Vref J : ℝ) (i : InitState) (hp1 : 3 ≤ p)
    (hp2 : p ≤ 4) (hRP : RP ∈ binary64) (hRP1 : 1 ≤ RP) (hRP2 : RP ≤ 2 ^ 59) (hV1 : 1 ≤ Vref) (hV2 : Vref ≤ 2 ^ 59)
    (hh0 : 0 ≤ i.h0Km) (hh : Spec.carries i.h0Km) (hθ : Spec.carries i.theta0Deg) (hφ : Spec.carries i.phi0Deg)
    (hv : Spec.carries i.v0Kms) (hψ : Spec.carries i.psi0Deg) (hγ : Spec.carries i.gamma0Deg)
    (hd : Spec.carries i.drange0Km) :
    let i' := reportR rnd p RP Vref J (restartR rnd p RP Vref i)
    |i'.h0Km - i.h0Km| ≤ 2⁻¹ ^ 49 * (RP / 1000 + i.h0Km) ∧ Spec.same49 i.theta0Deg i'.theta0Deg ∧
      Spec.same49 i.phi0Deg i'.phi0Deg ∧ Spec.same49 i.v0Kms i'.v0Kms ∧ Spec.same49 i.psi0Deg i'.psi0Deg ∧
      Spec.same49 i.gamma0Deg i'.gamma0Deg ∧ Spec.same49 i.drange0Km i'.drange0Km :=
  ⟨height_joint hr hRP hRP1 hh0 hh, angle_joint hr hθ hp1 hp2, angle_joint hr hφ hp1 hp2, scaled_joint hr hv hV1 hV2,
    angle_joint hr hψ hp1 hp2, angle_joint hr hγ hp1 hp2, scaled_joint hr hd hRP1 hRP2⟩

/-- The double `np.pi`. -/
def npPi : ℝ := 884279719003555 / 2 ^ 48

theorem npPi_mem : npPi ∈ binary64 := ⟨884279719003555, -48, by norm_num, by norm_num, by
  unfold npPi; rw [zpow_neg]; norm_num⟩

theorem int_double (n : ℤ) (h : |n| < 2 ^ 53) : (n:ℝ) ∈ binary64 := ⟨n, 0, h, by norm_num, by simp⟩

/-- C116 (finding): the trip is not exact.  A flight that ends at a longitude of 1.125 rad is continued from
1.1250000000000002 rad. -/
theorem C116_not_exact {rnd : ℝ → ℝ} (hr : RoundsTo binary64 rnd) (RP Vref J : ℝ) (s : FState) (hs : s.theta = 1.125) :
    (restartR rnd npPi RP Vref (reportR rnd npPi RP Vref J s)).theta = 1.125 + 2⁻¹ ^ 52 := by
  have e0 : rnd (s.theta * 180) = 202.5 := by
    rw [hs, show (1.125:ℝ) * 180 = 202.5 by norm_num]
    exact hr.eq_self ⟨405, -1, by norm_num, by norm_num, by norm_num⟩
  have e1 : rnd (202.5 / npPi) = 4535811057392924 / 2 ^ 46 := by
    have := round_rat hr 4535811057392924 46 (x := 202.5 / npPi) (by norm_num) (by norm_num) (by norm_num)
      (by unfold npPi; rw [abs_lt]; constructor <;> norm_num)
    rw [this]; norm_num
  have e2 : rnd (4535811057392924 / 2 ^ 46 * npPi) = 7124835347988481 / 2 ^ 45 := by
    have := round_rat hr 7124835347988481 45 (x := 4535811057392924 / 2 ^ 46 * npPi) (by norm_num) (by norm_num) (by norm_num)
      (by unfold npPi; rw [abs_lt]; constructor <;> norm_num)
    rw [this]; norm_num
  have e3 : rnd (7124835347988481 / 2 ^ 45 / 180) = 5066549580791809 / 2 ^ 52 := by
    have := round_rat hr 5066549580791809 52 (x := 7124835347988481 / 2 ^ 45 / 180) (by norm_num) (by norm_num) (by norm_num)
      (by rw [abs_lt]; constructor <;> norm_num)
    rw [this]; norm_num
  simp only [restartR, reportR]
  rw [e0, e1, e2, e3]
  norm_num

/-- A case: an entry at Mars from 120 km with 5.5 km/s, and the state 1.02 radii from the centre. -/
theorem C116_mars_case : ∃ rnd : ℝ → ℝ, RoundsTo binary64 rnd ∧
    (let s' := restartR rnd npPi 3389500 (rnd (√(rnd (42828370000000 / 3389500))))
      (reportR rnd npPi 3389500 (rnd (√(rnd (42828370000000 / 3389500)))) 0 ⟨1.02, 1.125, 0, 1.5, 0.5, -0.25, 0.125⟩)
    Spec.same49 1.02 s'.r ∧ s'.theta ≠ 1.125 ∧ Spec.same49 1.125 s'.theta ∧ s'.phi = 0 ∧ Spec.same49 1.5 s'.v) ∧
    (let i' := reportR rnd npPi 3389500 (rnd (√(rnd (42828370000000 / 3389500)))) 0
      (restartR rnd npPi 3389500 (rnd (√(rnd (42828370000000 / 3389500)))) ⟨120, 0, 0, 5.5, 90, -12, 0, 0⟩)
    |i'.h0Km - 120| ≤ 2⁻¹ ^ 49 * 3600 ∧ Spec.same49 5.5 i'.v0Kms ∧ Spec.same49 (-12) i'.gamma0Deg) := by
  obtain ⟨rnd, hr⟩ := exists_roundsTo
  refine ⟨rnd, hr, ?_⟩
  have hRP : (3389500:ℝ) ∈ binary64 := by
    have := int_double 3389500 (by norm_num)
    exact_mod_cast this
  have hI : ∀ n : ℤ, |n| < 2 ^ 53 → (n:ℝ) ∈ binary64 := int_double
  have hp1 : (3:ℝ) ≤ npPi := by unfold npPi; norm_num
  have hp2 : npPi ≤ 4 := by unfold npPi; norm_num
  have a1 : (1:ℝ) ≤ rnd (42828370000000 / 3389500) := hr.ge_of_ge one_mem_binary64 (by norm_num)
  have a2 : rnd (42828370000000 / 3389500) ≤ 16777216 := by
    have := hr.le_of_le (x := 42828370000000 / 3389500) (hI 16777216 (by norm_num)) (by norm_num)
    exact_mod_cast this
  have hV1 : (1:ℝ) ≤ rnd (√(rnd (42828370000000 / 3389500))) :=
    hr.ge_of_ge one_mem_binary64 (by rw [Real.one_le_sqrt]; exact a1)
  have hV2 : rnd (√(rnd (42828370000000 / 3389500))) ≤ 2 ^ 59 := by
    have h := hr.le_of_le (x := √(rnd (42828370000000 / 3389500))) (hI 4096 (by norm_num))
      (by rw [Real.sqrt_le_left (by norm_num)]; exact le_trans a2 (by norm_num))
    exact le_trans h (by norm_num)
  have hc : ∀ x : ℝ, 2⁻¹ ^ 3 ≤ |x| → Spec.carries x := fun x hx => .inr (by
    refine le_trans ?_ hx
    rw [show (2⁻¹:ℝ) ^ 3 = (2:ℝ) ^ (-3 : ℤ) by norm_num]
    exact zpow_le_zpow_right₀ (by norm_num) (by norm_num))
  have hz : Spec.carries 0 := .inl rfl
  have h1 := C116_restart_in_doubles hr npPi 3389500 _ 0 ⟨1.02, 1.125, 0, 1.5, 0.5, -0.25, 0.125⟩ hp1 hp2 hRP (by norm_num)
    (by norm_num) hV1 hV2 (by norm_num) (hc _ (by norm_num [abs_of_pos])) hz (hc _ (by norm_num [abs_of_pos]))
    (hc _ (by norm_num [abs_of_pos])) (hc _ (by rw [abs_neg]; norm_num [abs_of_pos])) (hc _ (by norm_num [abs_of_pos]))
  have h2 := C116_first_sample hr npPi 3389500 _ 0 ⟨120, 0, 0, 5.5, 90, -12, 0, 0⟩ hp1 hp2 hRP (by norm_num) (by norm_num) hV1
    hV2 (by norm_num) (hc _ (by norm_num [abs_of_pos])) hz hz (hc _ (by norm_num [abs_of_pos])) (hc _ (by norm_num [abs_of_pos]))
    (hc _ (by rw [abs_neg]; norm_num [abs_of_pos])) hz
  refine ⟨⟨h1.1, ?_, h1.2.1, ?_, h1.2.2.2.1⟩, ?_, h2.2.2.2.1, h2.2.2.2.2.2.1⟩
  · rw [C116_not_exact hr _ _ _ _ rfl]; norm_num
  · have := h1.2.2.1
    simpa [Spec.same49] using this
  · exact le_trans h2.1 (by norm_num)

end AMAT.Props
