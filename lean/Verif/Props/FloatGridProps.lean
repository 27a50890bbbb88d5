import Verif.Lemmas.FloatGrid
import Verif.Props.Sampling

/-
Property C104: the times at which a flight is reported, in double precision.
-/

noncomputable section

open Real

namespace AMAT.Props

open AMAT

/-- Without rounding the grid is the one of the exact model. -/
theorem tGridR_id (P : Planet) (tSec dt : ℝ) : tGridR id P.tau tSec dt = Vehicle.tGrid P tSec dt := rfl

theorem rounded {rnd : ℝ → ℝ} (hr : RoundsTo binary64 rnd) {x : ℝ} (hx : (2:ℝ) ^ (-1022 : ℤ) ≤ x) :
    ∃ a, |a| ≤ 2⁻¹ ^ 53 ∧ rnd x = x * (1 + a) := by
  have hx0 : 0 < x := lt_of_lt_of_le (binary64.two_zpow_pos _) hx
  have h := binary64.rel_error hr (x := x) (by rwa [abs_of_pos hx0])
  rw [abs_of_pos hx0] at h
  refine ⟨(rnd x - x) / x, ?_, by field_simp; ring⟩
  rw [abs_div, abs_of_pos hx0, div_le_iff₀ hx0]
  exact h

theorem prod3 {a b c : ℝ} (ha : |a| ≤ 2⁻¹ ^ 53) (hb : |b| ≤ 2⁻¹ ^ 53) (hc : |c| ≤ 2⁻¹ ^ 53) :
    (1 - 2⁻¹ ^ 53) ^ 3 ≤ (1 + a) * (1 + b) * (1 + c) ∧ (1 + a) * (1 + b) * (1 + c) ≤ (1 + 2⁻¹ ^ 53) ^ 3 := by
  obtain ⟨a1, a2⟩ := abs_le.mp ha
  obtain ⟨b1, b2⟩ := abs_le.mp hb
  obtain ⟨c1, c2⟩ := abs_le.mp hc
  have hu : (2⁻¹ : ℝ) ^ 53 ≤ 1 / 2 := by norm_num
  generalize (2⁻¹ : ℝ) ^ 53 = u at *
  have p1 : 0 ≤ 1 - u := by linarith
  constructor
  · calc (1 - u) ^ 3 = (1 - u) * (1 - u) * (1 - u) := by ring
      _ ≤ (1 + a) * (1 + b) * (1 + c) := by
        apply mul_le_mul (mul_le_mul (by linarith) (by linarith) p1 (by linarith)) (by linarith) p1
        exact mul_nonneg (by linarith) (by linarith)
  · have : (1 + a) * (1 + b) * (1 + c) ≤ (1 + u) * (1 + u) * (1 + u) :=
      mul_le_mul (mul_le_mul (by linarith) (by linarith) (by linarith) (by linarith)) (by linarith) (by linarith)
        (mul_nonneg (by linarith) (by linarith))
    calc (1 + a) * (1 + b) * (1 + c) ≤ (1 + u) * (1 + u) * (1 + u) := this
      _ = (1 + u) ^ 3 := by ring

theorem prod_bound {a b c : ℝ} (ha : |a| ≤ 2⁻¹ ^ 53) (hb : |b| ≤ 2⁻¹ ^ 53) (hc : |c| ≤ 2⁻¹ ^ 53) :
    |(1 + a) * (1 + b) * (1 + c) - 1| ≤ 2⁻¹ ^ 51 := by
  obtain ⟨h1, h2⟩ := prod3 ha hb hc
  have e1 : (1 + (2⁻¹ : ℝ) ^ 53) ^ 3 ≤ 1 + 2⁻¹ ^ 51 := by norm_num
  have e2 : 1 - (2⁻¹ : ℝ) ^ 51 ≤ (1 - 2⁻¹ ^ 53) ^ 3 := by norm_num
  rw [abs_le]
  constructor <;> linarith

theorem ratio_bound {a b c d : ℝ} (ha : |a| ≤ 2⁻¹ ^ 53) (hb : |b| ≤ 2⁻¹ ^ 53) (hc : |c| ≤ 2⁻¹ ^ 53)
    (hd : |d| ≤ 2⁻¹ ^ 53) : |(1 + a) * (1 + b) * (1 + c) / (1 + d) - 1| ≤ 2⁻¹ ^ 50 := by
  obtain ⟨h1, h2⟩ := prod3 ha hb hc
  obtain ⟨d1, d2⟩ := abs_le.mp hd
  have hu : (2⁻¹ : ℝ) ^ 53 ≤ 1 / 2 := by norm_num
  have hp : 0 < 1 + d := by linarith
  have e1 : (1 + (2⁻¹ : ℝ) ^ 53) ^ 3 ≤ (1 + 2⁻¹ ^ 50) * (1 - 2⁻¹ ^ 53) := by norm_num
  have e2 : (1 - (2⁻¹ : ℝ) ^ 50) * (1 + 2⁻¹ ^ 53) ≤ (1 - 2⁻¹ ^ 53) ^ 3 := by norm_num
  have e3 : (1 + (2⁻¹ : ℝ) ^ 50) * (1 - 2⁻¹ ^ 53) ≤ (1 + 2⁻¹ ^ 50) * (1 + d) :=
    mul_le_mul_of_nonneg_left (by linarith) (by norm_num)
  have e4 : (1 - (2⁻¹ : ℝ) ^ 50) * (1 + d) ≤ (1 - 2⁻¹ ^ 50) * (1 + 2⁻¹ ^ 53) :=
    mul_le_mul_of_nonneg_left (by linarith) (by norm_num)
  rw [abs_le]
  constructor
  · have : 1 - (2⁻¹ : ℝ) ^ 50 ≤ (1 + a) * (1 + b) * (1 + c) / (1 + d) := by rw [le_div_iff₀ hp]; linarith
    linarith
  · have : (1 + a) * (1 + b) * (1 + c) / (1 + d) ≤ 1 + 2⁻¹ ^ 50 := by rw [div_le_iff₀ hp]; linarith
    linarith

/-- C104, double precision: whatever the rounding of ties, for a step and a duration of at most `2^50` steps the history has
one point for each step up to the requested duration, with one more or one less possible only if the ratio of duration and
step is an integer up to rounding.  Point `k` is at `k·dt` up to a relative error of `2^-51`; the last one is not before the
requested duration and not more than a full step after it, up to rounding. -/
theorem C104_grid_in_doubles_partial {rnd : ℝ → ℝ} (hr : RoundsTo binary64 rnd) (tau tSec dt : ℝ) (hdt : dt ∈ binary64)
    (h0 : 0 ≤ tSec) (h1 : 1 ≤ tau) (h2 : (2:ℝ) ^ (-1022 : ℤ) ≤ dt / tau) (h3 : tSec / dt + 1 ≤ 2 ^ 50) :
    (⌈tSec / dt⌉₊ ≤ (timesR rnd tau tSec dt).length ∧ (timesR rnd tau tSec dt).length ≤ ⌈tSec / dt⌉₊ + 2) ∧
    ((∀ n : ℤ, 2⁻¹ ^ 50 * (tSec / dt + 1) < |tSec / dt - n|) → (timesR rnd tau tSec dt).length = ⌈tSec / dt⌉₊ + 1) ∧
    (∀ k < (timesR rnd tau tSec dt).length, ∃ x, (timesR rnd tau tSec dt)[k]? = some x ∧
      |x - k * dt| ≤ 2⁻¹ ^ 51 * (k * dt)) ∧
    ∃ last, (timesR rnd tau tSec dt).getLast? = some last ∧ tSec - 2⁻¹ ^ 49 * (tSec + dt) ≤ last ∧
      last ≤ (tSec + dt) * (1 + 2⁻¹ ^ 49) := by
  have hτ : 0 < tau := by linarith
  have hz := binary64.two_zpow_pos (-1022)
  have hdt0 : 0 < dt := by
    have := lt_of_lt_of_le hz h2
    rcases div_pos_iff.mp this with h | h
    · exact h.1
    · linarith
  have hdn : (2:ℝ) ^ (-1022 : ℤ) ≤ dt := by
    refine h2.trans (div_le_self hdt0.le h1)
  have hmin : (2:ℝ) ^ (-1022 : ℤ) ∈ binary64 := binary64.pow_mem (by norm_num)
  have h1F : (1:ℝ) ∈ binary64 := by simpa using binary64.pow_mem (e := 0) (by norm_num)
  have h0F : (0:ℝ) ∈ binary64 := ⟨0, 0, by norm_num, by norm_num, by simp⟩
  obtain ⟨a, ha, eA⟩ := rounded hr (x := tSec + dt) (by linarith)
  have hA : dt ≤ rnd (tSec + dt) := hr.ge_of_ge hdt (by linarith)
  obtain ⟨b, hb, eS⟩ := rounded hr (x := rnd (tSec + dt) / tau) (h2.trans (by gcongr))
  obtain ⟨d, hd, eD⟩ := rounded hr h2
  have hDn : (2:ℝ) ^ (-1022 : ℤ) ≤ rnd (dt / tau) := hr.ge_of_ge hmin h2
  have hD0 : 0 < rnd (dt / tau) := lt_of_lt_of_le hz hDn
  have hSD : rnd (dt / tau) ≤ rnd (rnd (tSec + dt) / tau) := hr.mono (by gcongr)
  have hone : 1 ≤ rnd (rnd (tSec + dt) / tau) / rnd (dt / tau) := (one_le_div hD0).mpr hSD
  have hsmall : (2:ℝ) ^ (-1022 : ℤ) ≤ 1 := zpow_le_one_of_nonpos₀ (by norm_num) (by norm_num)
  obtain ⟨c, hc, eQ⟩ := rounded hr (x := rnd (rnd (tSec + dt) / tau) / rnd (dt / tau)) (hsmall.trans hone)
  have hQ1 : 1 ≤ rnd (rnd (rnd (tSec + dt) / tau) / rnd (dt / tau)) := hr.ge_of_ge h1F hone
  set Q := rnd (rnd (rnd (tSec + dt) / tau) / rnd (dt / tau)) with hQ
  set D := rnd (dt / tau) with hDdef
  set x := tSec / dt + 1 with hx
  have hxp : 1 ≤ x := by
    have : 0 ≤ tSec / dt := by positivity
    linarith
  have hxdt : x * dt = tSec + dt := by rw [hx]; field_simp
  have hd1 : 0 < 1 + d := by
    have := (abs_le.mp hd).1
    have hu : (2⁻¹ : ℝ) ^ 53 ≤ 1 / 2 := by norm_num
    linarith
  have hQx : |Q - x| ≤ 2⁻¹ ^ 50 * x := by
    have e : Q = x * ((1 + a) * (1 + b) * (1 + c) / (1 + d)) := by
      rw [eQ, eS, eA, eD, ← hxdt]
      field_simp
    rw [e, show x * ((1 + a) * (1 + b) * (1 + c) / (1 + d)) - x = x * ((1 + a) * (1 + b) * (1 + c) / (1 + d) - 1) by ring,
      abs_mul, abs_of_pos (by linarith), mul_comm]
    exact mul_le_mul_of_nonneg_right (ratio_bound ha hb hc hd) (by linarith)
  have hlen : (timesR rnd tau tSec dt).length = ⌈Q⌉₊ := by simp [timesR, tGridR, arangeR, hQ, hDdef]
  have hget : ∀ k < ⌈Q⌉₊, (timesR rnd tau tSec dt)[k]? = some (rnd (tau * rnd ((k:ℝ) * D))) := by
    intro k hk
    simp only [timesR, tGridR, arangeR, List.getElem?_map]
    rw [List.getElem?_range hk]
    rfl
  have hval : ∀ k : ℕ, |rnd (tau * rnd ((k:ℝ) * D)) - k * dt| ≤ 2⁻¹ ^ 51 * (k * dt) := by
    intro k
    rcases Nat.eq_zero_or_pos k with rfl | hk
    · simp [hr.eq_self h0F]
    · have hk1 : (1:ℝ) ≤ k := by exact_mod_cast hk
      have hkD : (2:ℝ) ^ (-1022 : ℤ) ≤ k * D := hDn.trans (le_mul_of_one_le_left hD0.le hk1)
      obtain ⟨f, hf, eF⟩ := rounded hr hkD
      have hF : (2:ℝ) ^ (-1022 : ℤ) ≤ rnd (k * D) := hr.ge_of_ge hmin hkD
      obtain ⟨g, hg, eG⟩ := rounded hr (x := tau * rnd (k * D)) (hF.trans (le_mul_of_one_le_left (hz.le.trans hF) h1))
      have e : rnd (tau * rnd ((k:ℝ) * D)) = k * dt * ((1 + d) * (1 + f) * (1 + g)) := by
        rw [eG, eF, eD]
        field_simp
      have hkd : 0 < (k:ℝ) * dt := by positivity
      rw [e, show k * dt * ((1 + d) * (1 + f) * (1 + g)) - k * dt = k * dt * ((1 + d) * (1 + f) * (1 + g) - 1) by ring,
        abs_mul, abs_of_pos hkd, mul_comm]
      exact mul_le_mul_of_nonneg_right (prod_bound hd hf hg) hkd.le
  have hQp : 0 < ⌈Q⌉₊ := Nat.ceil_pos.mpr (by linarith)
  obtain ⟨q1, q2⟩ := abs_le.mp hQx
  have hx1 : 2⁻¹ ^ 50 * x ≤ 1 := by
    calc (2⁻¹:ℝ) ^ 50 * x ≤ 2⁻¹ ^ 50 * 2 ^ 50 := by gcongr
      _ = 1 := by norm_num
  have hceil : ⌈tSec / dt + 1⌉₊ = ⌈tSec / dt⌉₊ + 1 := Nat.ceil_add_one (by positivity)
  refine ⟨⟨?_, ?_⟩, ?_, ?_, ?_⟩
  · rw [hlen]; exact Nat.ceil_mono (by linarith)
  · rw [hlen]
    calc ⌈Q⌉₊ ≤ ⌈x + 1⌉₊ := Nat.ceil_mono (by linarith)
      _ = ⌈tSec / dt⌉₊ + 2 := by rw [Nat.ceil_add_one (by linarith), hx, hceil]
  · intro hfar
    rw [hlen]
    apply le_antisymm
    · rw [← hceil, Nat.ceil_le]
      have h4 := Nat.le_ceil (tSec / dt)
      have h5 := hfar (⌈tSec / dt⌉₊ : ℤ)
      rw [abs_sub_comm, abs_of_nonneg (by push_cast; linarith)] at h5
      rw [hceil]
      push_cast at h5 ⊢
      linarith
    · have h6 : 0 < tSec / dt := by
        have h5 := hfar 0
        have : 0 ≤ tSec / dt := by positivity
        rw [Int.cast_zero, sub_zero, abs_of_nonneg this] at h5
        have : 0 < (2⁻¹:ℝ) ^ 50 * x := by positivity
        linarith
      have h4 := Nat.ceil_lt_add_one h6.le
      have h5 := hfar ((⌈tSec / dt⌉₊ : ℤ) - 1)
      rw [abs_of_nonneg (by push_cast; linarith)] at h5
      push_cast at h5
      have : ⌈tSec / dt⌉₊ < ⌈Q⌉₊ := by
        rw [Nat.lt_ceil]; linarith
      omega
  · intro k hk
    rw [hlen] at hk
    exact ⟨_, hget k hk, hval k⟩
  · refine ⟨_, by rw [List.getLast?_eq_getElem?, hlen]; exact hget _ (by omega), ?_⟩
    have hv := abs_le.mp (hval (⌈Q⌉₊ - 1))
    have hcast : ((⌈Q⌉₊ - 1 : ℕ) : ℝ) = (⌈Q⌉₊ : ℝ) - 1 := by rw [Nat.cast_sub hQp]; simp
    rw [hcast] at hv ⊢
    have c1 := Nat.le_ceil Q
    have c2 := Nat.ceil_lt_add_one (show 0 ≤ Q by linarith)
    have m1 : x * dt - 2⁻¹ ^ 50 * (x * dt) ≤ Q * dt := by nlinarith
    have m2 : Q * dt ≤ x * dt + 2⁻¹ ^ 50 * (x * dt) := by nlinarith
    rw [hxdt] at m1 m2
    have m3 : Q * dt ≤ (⌈Q⌉₊ : ℝ) * dt := mul_le_mul_of_nonneg_right c1 hdt0.le
    have m4 : ((⌈Q⌉₊ : ℝ) - 1) * dt ≤ Q * dt := mul_le_mul_of_nonneg_right (by linarith) hdt0.le
    have m5 : ((⌈Q⌉₊ : ℝ) - 1) * dt = (⌈Q⌉₊ : ℝ) * dt - dt := by ring
    have k1 : (2⁻¹:ℝ) ^ 51 = 1 / 2251799813685248 := by norm_num
    have k2 : (2⁻¹:ℝ) ^ 50 = 1 / 1125899906842624 := by norm_num
    have k3 : (2⁻¹:ℝ) ^ 49 = 1 / 562949953421312 := by norm_num
    rw [k1] at hv
    rw [k2] at m1 m2
    rw [k3]
    have hs0 : 0 < tSec + dt := by linarith
    constructor <;> linarith [hv.1, hv.2]

/-- The same with values: rounding a rational number. -/
theorem round_rat {rnd : ℝ → ℝ} (hr : RoundsTo binary64 rnd) (m : ℤ) (k : ℕ) {x : ℝ} (h1 : 2 ^ 52 < m) (h2 : m < 2 ^ 53)
    (hk : k ≤ 1074) (hx : |x * 2 ^ k - m| < 1 / 2) : rnd x = m / 2 ^ k := by
  have hp : (0:ℝ) < 2 ^ k := by positivity
  have e : (m : ℝ) * (2:ℝ) ^ (-(k:ℤ)) = m / 2 ^ k := by rw [zpow_neg, zpow_natCast]; rfl
  rw [← e]
  refine binary64.round_eq hr m _ h1 h2 (by omega) ?_
  have e2 : x - (m : ℝ) * (2:ℝ) ^ (-(k:ℤ)) = (x * 2 ^ k - m) / 2 ^ k := by rw [e]; field_simp
  rw [e2, abs_div, abs_of_pos hp, zpow_neg, zpow_natCast, div_lt_iff₀ hp]
  calc |x * 2 ^ k - m| < 1 / 2 := hx
    _ = ((2:ℝ) ^ k)⁻¹ / 2 * 2 ^ k := by field_simp

theorem round_sqrt {rnd : ℝ → ℝ} (hr : RoundsTo binary64 rnd) (m : ℤ) (k : ℕ) {x : ℝ} (h1 : 2 ^ 52 < m) (h2 : m < 2 ^ 53)
    (hk : k ≤ 1074) (hlo : ((m - 1 / 2) / 2 ^ k : ℝ) ^ 2 < x) (hhi : x < ((m + 1 / 2) / 2 ^ k : ℝ) ^ 2) :
    rnd (√x) = m / 2 ^ k := by
  have hp : (0:ℝ) < 2 ^ k := by positivity
  have hm : (1:ℝ) ≤ m := by
    have : (1:ℤ) ≤ m := by linarith
    exact_mod_cast this
  refine round_rat hr m k h1 h2 hk ?_
  have a := Real.lt_sqrt_of_sq_lt hlo
  have b := (Real.sqrt_lt' (show (0:ℝ) < (m + 1 / 2) / 2 ^ k by positivity)).mpr hhi
  rw [div_lt_iff₀ hp] at a
  rw [lt_div_iff₀ hp] at b
  rw [abs_lt]
  constructor <;> linarith

/-- C104 (finding), at Earth a flight of 2400 s with steps of 1 s is reported for 2401 s: there is a point a full step after
the requested duration. -/
theorem C104_extra_point {rnd : ℝ → ℝ} (hr : RoundsTo binary64 rnd) : ∃ P : Planet, Planet.init "EARTH" = .ok P ∧
    (timesR rnd (tauR rnd P.RP P.GM) 2400 1).length = 2402 ∧
    (timesR rnd (tauR rnd P.RP P.GM) 2400 1).getLast? = some 2401 := by
  obtain ⟨P, hP⟩ := (C01_planet_names "EARTH").1.mpr (by simp [Spec.bodies])
  have hR : P.RP = 6371000 := by
    have : P.RP = 6371e3 := by simp [Planet.init] at hP; subst hP; rfl
    rw [this]; norm_num
  have hG : P.GM = 398600400000000 := by
    have : P.GM = 3.986004E14 := by simp [Planet.init] at hP; subst hP; rfl
    rw [this]; norm_num
  refine ⟨P, hP, ?_⟩
  have e1 : rnd (P.GM / P.RP) = (8397306555939601 : ℤ) / 2 ^ 27 :=
    round_rat hr _ 27 (by norm_num) (by norm_num) (by norm_num) (by rw [hR, hG, abs_lt]; norm_num)
  have e2 : rnd (√(rnd (P.GM / P.RP))) = (8696908264003411 : ℤ) / 2 ^ 40 := by
    rw [e1]
    exact round_sqrt hr _ 40 (by norm_num) (by norm_num) (by norm_num) (by norm_num) (by norm_num)
  have e3 : tauR rnd P.RP P.GM = (7084877671890579 : ℤ) / 2 ^ 43 := by
    rw [tauR, e2]
    exact round_rat hr _ 43 (by norm_num) (by norm_num) (by norm_num) (by rw [hR, abs_lt]; norm_num)
  have e4 : rnd (2400 + 1) = 2401 := by
    rw [show (2400:ℝ) + 1 = 2401 by norm_num]
    exact hr.eq_self ⟨2401, 0, by norm_num, by norm_num, by norm_num⟩
  have e5 : rnd (2401 / tauR rnd P.RP P.GM) = (6712424229689883 : ℤ) / 2 ^ 51 := by
    rw [e3]
    exact round_rat hr _ 51 (by norm_num) (by norm_num) (by norm_num) (by rw [abs_lt]; norm_num)
  have e6 : rnd (1 / tauR rnd P.RP P.GM) = (5725549696961632 : ℤ) / 2 ^ 62 := by
    rw [e3]
    exact round_rat hr _ 62 (by norm_num) (by norm_num) (by norm_num) (by rw [abs_lt]; norm_num)
  have e7 : rnd (rnd (2401 / tauR rnd P.RP P.GM) / rnd (1 / tauR rnd P.RP P.GM)) = (5279854836580353 : ℤ) / 2 ^ 41 := by
    rw [e5, e6]
    exact round_rat hr _ 41 (by norm_num) (by norm_num) (by norm_num) (by rw [abs_lt]; norm_num)
  have hc : ⌈rnd (rnd (2401 / tauR rnd P.RP P.GM) / rnd (1 / tauR rnd P.RP P.GM))⌉₊ = 2402 := by
    rw [e7, Nat.ceil_eq_iff (by norm_num)]
    constructor <;> norm_num
  have hlen : (timesR rnd (tauR rnd P.RP P.GM) 2400 1).length = 2402 := by
    simp only [timesR, tGridR, arangeR, e4, List.length_map, List.length_range]
    exact hc
  refine ⟨hlen, ?_⟩
  rw [List.getLast?_eq_getElem?, hlen]
  simp only [timesR, tGridR, arangeR, e4, List.getElem?_map]
  rw [List.getElem?_range (by rw [hc]; norm_num)]
  have e8 : rnd (((2402 - 1 : ℕ) : ℝ) * rnd (1 / tauR rnd P.RP P.GM)) = (6712424229689882 : ℤ) / 2 ^ 51 := by
    rw [e6]
    exact round_rat hr _ 51 (by norm_num) (by norm_num) (by norm_num) (by rw [abs_lt]; norm_num)
  have e9 : rnd (tauR rnd P.RP P.GM * rnd (((2402 - 1 : ℕ) : ℝ) * rnd (1 / tauR rnd P.RP P.GM)))
      = (5279854836580352 : ℤ) / 2 ^ 41 := by
    rw [e8, e3]
    exact round_rat hr _ 41 (by norm_num) (by norm_num) (by norm_num) (by rw [abs_lt]; norm_num)
  simp only [Option.map_some, e9]
  norm_num

/-- C104 (finding), at Neptune every cycle of a guided simulation with a time step of 1 s and integration steps of 0.1 s lasts
1.1 s. -/
theorem C104_long_cycle {rnd : ℝ → ℝ} (hr : RoundsTo binary64 rnd) : ∃ (P : Planet) (last : ℝ),
    Planet.init "NEPTUNE" = .ok P ∧ (timesR rnd (tauR rnd P.RP P.GM) 1 (rnd (1 / 10))).length = 12 ∧
    (timesR rnd (tauR rnd P.RP P.GM) 1 (rnd (1 / 10))).getLast? = some last ∧ |last - 11 / 10| ≤ 2⁻¹ ^ 50 := by
  obtain ⟨P, hP⟩ := (C01_planet_names "NEPTUNE").1.mpr (by simp [Spec.bodies])
  have hR : P.RP = 24622000 := by
    have : P.RP = 24622e3 := by simp [Planet.init] at hP; subst hP; rfl
    rw [this]; norm_num
  have hG : P.GM = 6836529900000000 := by
    have : P.GM = 6.8365299E15 := by simp [Planet.init] at hP; subst hP; rfl
    rw [this]; norm_num
  have e0 : rnd (1 / 10) = (7205759403792794 : ℤ) / 2 ^ 56 :=
    round_rat hr _ 56 (by norm_num) (by norm_num) (by norm_num) (by rw [abs_lt]; norm_num)
  have e1 : rnd (P.GM / P.RP) = (4658351832619543 : ℤ) / 2 ^ 24 :=
    round_rat hr _ 24 (by norm_num) (by norm_num) (by norm_num) (by rw [hR, hG, abs_lt]; norm_num)
  have e2 : rnd (√(rnd (P.GM / P.RP))) = (4580322213288716 : ℤ) / 2 ^ 38 := by
    rw [e1]
    exact round_sqrt hr _ 38 (by norm_num) (by norm_num) (by norm_num) (by norm_num) (by norm_num)
  have e3 : tauR rnd P.RP P.GM = (6498706891011276 : ℤ) / 2 ^ 42 := by
    rw [tauR, e2]
    exact round_rat hr _ 42 (by norm_num) (by norm_num) (by norm_num) (by rw [hR, abs_lt]; norm_num)
  have e4 : rnd (1 + rnd (1 / 10)) = (4953959590107546 : ℤ) / 2 ^ 52 := by
    rw [e0]
    exact round_rat hr _ 52 (by norm_num) (by norm_num) (by norm_num) (by rw [abs_lt]; norm_num)
  have e5 : rnd (rnd (1 + rnd (1 / 10)) / tauR rnd P.RP P.GM) = (6866181515241423 : ℤ) / 2 ^ 63 := by
    rw [e3, e4]
    exact round_rat hr _ 63 (by norm_num) (by norm_num) (by norm_num) (by rw [abs_lt]; norm_num)
  have e6 : rnd (rnd (1 / 10) / tauR rnd P.RP P.GM) = (4993586556539216 : ℤ) / 2 ^ 66 := by
    rw [e3, e0]
    exact round_rat hr _ 66 (by norm_num) (by norm_num) (by norm_num) (by rw [abs_lt]; norm_num)
  have e7 : rnd (rnd (rnd (1 + rnd (1 / 10)) / tauR rnd P.RP P.GM) / rnd (rnd (1 / 10) / tauR rnd P.RP P.GM))
      = (6192449487634433 : ℤ) / 2 ^ 49 := by
    rw [e5, e6]
    exact round_rat hr _ 49 (by norm_num) (by norm_num) (by norm_num) (by rw [abs_lt]; norm_num)
  have hc : ⌈rnd (rnd (rnd (1 + rnd (1 / 10)) / tauR rnd P.RP P.GM) / rnd (rnd (1 / 10) / tauR rnd P.RP P.GM))⌉₊ = 12 := by
    rw [e7, Nat.ceil_eq_iff (by norm_num)]
    constructor <;> norm_num
  have hlen : (timesR rnd (tauR rnd P.RP P.GM) 1 (rnd (1 / 10))).length = 12 := by
    simp only [timesR, tGridR, arangeR, List.length_map, List.length_range]
    exact hc
  have e8 : rnd (((12 - 1 : ℕ) : ℝ) * rnd (rnd (1 / 10) / tauR rnd P.RP P.GM)) = (6866181515241422 : ℤ) / 2 ^ 63 := by
    rw [e6]
    exact round_rat hr _ 63 (by norm_num) (by norm_num) (by norm_num) (by rw [abs_lt]; norm_num)
  have e9 : rnd (tauR rnd P.RP P.GM * rnd (((12 - 1 : ℕ) : ℝ) * rnd (rnd (1 / 10) / tauR rnd P.RP P.GM)))
      = (4953959590107545 : ℤ) / 2 ^ 52 := by
    rw [e8, e3]
    exact round_rat hr _ 52 (by norm_num) (by norm_num) (by norm_num) (by rw [abs_lt]; norm_num)
  refine ⟨P, (4953959590107545 : ℤ) / 2 ^ 52, hP, hlen, ?_, ?_⟩
  · rw [List.getLast?_eq_getElem?, hlen]
    simp only [timesR, tGridR, arangeR, List.getElem?_map]
    rw [List.getElem?_range (by rw [hc]; norm_num)]
    simp only [Option.map_some, e9]
  · rw [abs_le]; norm_num

/-- Cases for `C104_grid_in_doubles_partial` and the findings: rounding functions exist; a flight of 2400 s with steps of 1 s
meets the hypotheses, and one of 2400.5 s has a ratio far from every integer. -/
example : ∃ rnd, RoundsTo binary64 rnd ∧ (1:ℝ) ∈ binary64 ∧ (2:ℝ) ^ (-1022 : ℤ) ≤ 1 / 806 ∧ (2400:ℝ) / 1 + 1 ≤ 2 ^ 50 ∧
    ∀ n : ℤ, 2⁻¹ ^ 50 * ((2400 + 1 / 2 : ℝ) / 1 + 1) < |(2400 + 1 / 2 : ℝ) / 1 - n| := by
  obtain ⟨rnd, hr⟩ := exists_roundsTo
  refine ⟨rnd, hr, ⟨1, 0, by norm_num, by norm_num, by norm_num⟩, ?_, by norm_num, ?_⟩
  · calc (2:ℝ) ^ (-1022 : ℤ) ≤ (2:ℝ) ^ (-10 : ℤ) := zpow_le_zpow_right₀ (by norm_num) (by norm_num)
      _ ≤ 1 / 806 := by norm_num
  · intro n
    have h : (1/2 : ℝ) ≤ |(2400 + 1 / 2 : ℝ) / 1 - n| := by
      rcases le_or_gt n 2400 with h | h
      · have : (n:ℝ) ≤ 2400 := by exact_mod_cast h
        rw [abs_of_nonneg (by linarith)]; linarith
      · have : (2401:ℝ) ≤ n := by exact_mod_cast h
        rw [abs_of_neg (by linarith)]; linarith
    refine lt_of_lt_of_le ?_ h
    norm_num

end AMAT.Props
