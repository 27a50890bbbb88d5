import Verif.Model.Guidance
import Verif.Spec.Trapz
import Verif.Lemmas.Trapz
import Verif.Props.PlanetProps
import Mathlib.Analysis.SpecialFunctions.Trigonometric.DerivHyp
import Mathlib.Analysis.Calculus.Deriv.MeanValue

/-
C80: the density scale height computed by the planet model (`Planet.scaleHeight`, planet.py:816-845).
-/

noncomputable section

namespace AMAT.Props

open Real

/-- The trapezoidal sum of an exponential over a uniform grid, in closed form. -/
theorem trapz_exp (c H s : ℝ) (hH : 0 < H) (hs : 0 < s) (n : ℕ) : ∀ k : ℕ,
    Spec.trapz (((List.range' k (n + 1)).map (fun i : ℕ => (i : ℝ) * s)).map (fun x => (x, c * exp (-x / H)))) =
      s / 2 * (cosh (s / (2 * H)) / sinh (s / (2 * H))) *
        (c * exp (-(k * s) / H) - c * exp (-((k + n : ℕ) * s) / H)) := by
  have hsh : sinh (s / (2 * H)) ≠ 0 := by
    have : 0 < sinh (s / (2 * H)) := sinh_pos_iff.mpr (by positivity)
    exact this.ne'
  induction n with
  | zero => intro k; simp [List.range', Spec.trapz]
  | succ n ih =>
    intro k
    have h1 := ih (k + 1)
    rw [List.range'_succ, List.range'_succ]
    rw [List.range'_succ] at h1
    simp only [List.map_cons, Spec.trapz] at h1 ⊢
    rw [h1]
    set x := s / (2 * H) with hx
    have e1 : exp (-((k + 1 : ℕ) * s) / H) = exp (-(k * s) / H) * exp (-x) ^ 2 := by
      rw [← exp_nat_mul, ← exp_add]
      congr 1
      rw [hx]
      push_cast
      field_simp
      ring
    have e2 : ((k + 1 + n : ℕ) : ℝ) = ((k + (n + 1) : ℕ) : ℝ) := by push_cast; ring
    rw [e2, e1]
    have e3 : cosh x = (exp x + exp (-x)) / 2 := cosh_eq x
    have e4 : sinh x = (exp x - exp (-x)) / 2 := sinh_eq x
    have e5 : exp x * exp (-x) = 1 := by rw [← exp_add]; simp
    have e6 : exp x - exp (-x) ≠ 0 := fun h => hsh (by rw [e4, h]; simp)
    rw [e3, e4]
    generalize exp (-(↑k * s) / H) = E at *
    generalize exp (-(((k + (n + 1) : ℕ) : ℝ) * s) / H) = F at *
    push_cast
    field_simp
    generalize exp x = a at *
    generalize exp (-x) = b at *
    linear_combination c * 2 * b * E * e5

/-- `x ≤ x² coth x …`: the factor of the trapezoidal rule lies between 1 and `1 + x²/3`. -/
theorem coth_bounds (x : ℝ) (hx : 0 < x) :
    1 ≤ x * (cosh x / sinh x) ∧ x * (cosh x / sinh x) ≤ 1 + x ^ 2 / 3 := by
  have hs : 0 < sinh x := sinh_pos_iff.mpr hx
  have hlow : ∀ y : ℝ, 0 ≤ y → sinh y ≤ y * cosh y := by
    have hm : MonotoneOn (fun y : ℝ => y * cosh y - sinh y) (Set.Ici 0) := by
      refine monotoneOn_of_deriv_nonneg (convex_Ici 0) (by fun_prop) (by fun_prop) ?_
      intro y hy
      rw [interior_Ici] at hy
      have hd : HasDerivAt (fun y : ℝ => y * cosh y - sinh y) (1 * cosh y + y * sinh y - cosh y) y :=
        ((hasDerivAt_id y).mul (hasDerivAt_cosh y)).sub (hasDerivAt_sinh y)
      rw [hd.deriv]
      have : 0 < sinh y := sinh_pos_iff.mpr hy
      have := mul_pos (Set.mem_Ioi.1 hy) this
      linarith
    intro y hy
    have := hm (Set.mem_Ici.2 le_rfl) (Set.mem_Ici.2 hy) hy
    simp only [zero_mul, sinh_zero, sub_zero] at this
    linarith
  have hup : x * cosh x ≤ (1 + x ^ 2 / 3) * sinh x := by
    have hm : MonotoneOn (fun y : ℝ => (1 + y ^ 2 / 3) * sinh y - y * cosh y) (Set.Ici 0) := by
      refine monotoneOn_of_deriv_nonneg (convex_Ici 0) (by fun_prop) (by fun_prop) ?_
      intro y hy
      rw [interior_Ici] at hy
      have hp : HasDerivAt (fun y : ℝ => 1 + y ^ 2 / 3) (2 * y / 3) y := by
        have := ((hasDerivAt_id y).pow 2).div_const 3 |>.const_add 1
        simpa using this
      have hd : HasDerivAt (fun y : ℝ => (1 + y ^ 2 / 3) * sinh y - y * cosh y)
          (2 * y / 3 * sinh y + (1 + y ^ 2 / 3) * cosh y - (1 * cosh y + y * sinh y)) y :=
        (hp.mul (hasDerivAt_sinh y)).sub ((hasDerivAt_id y).mul (hasDerivAt_cosh y))
      rw [hd.deriv]
      have h0 : 0 ≤ y := le_of_lt hy
      have := mul_nonneg h0 (sub_nonneg.mpr (hlow y h0))
      nlinarith
    have := hm (Set.mem_Ici.2 le_rfl) (Set.mem_Ici.2 hx.le) hx.le
    simp only [sinh_zero, mul_zero, zero_mul, sub_zero] at this
    linarith
  constructor
  · rw [← mul_div_assoc, le_div_iff₀ hs, one_mul]
    exact hlow x hx.le
  · rw [← mul_div_assoc, div_le_iff₀ hs]
    exact hup

theorem cumTrapz_last (mode : ScipyMode) (l : List (ℝ × ℝ)) (hl : l ≠ []) :
    ∃ a, cumTrapz mode l 0 = .ok a ∧ a.getLastD 0 = Spec.trapz l := by
  cases l with
  | nil => exact absurd rfl hl
  | cons p l =>
    refine ⟨0 :: trapzFrom 0 (p :: l), by simp [cumTrapz], ?_⟩
    have hlen : ∀ (acc : ℝ) (p : ℝ × ℝ) (l : List (ℝ × ℝ)), (trapzFrom acc (p :: l)).length = l.length := by
      intro acc p l
      induction l generalizing acc p with
      | nil => rfl
      | cons q l ih => simp [trapzFrom, ih]
    have h := cumsum_getElem? 0 (p :: l) l.length (by simp)
    rw [List.take_of_length_le (by simp), zero_add] at h
    rw [List.getLastD_eq_getLast?, List.getLast?_eq_getElem?]
    simp only [List.length_cons, hlen, Nat.add_sub_cancel, h, Option.getD_some]

/-- The altitudes of atmospheric interface of the eight bodies are whole numbers of kilometres, at least two. -/
theorem hSkip_whole (name : String) (P : Planet) (hP : Planet.init name = .ok P) :
    ∃ n : ℕ, 2 ≤ n ∧ P.hSkip = 1000 * n := by
  have hn := (C01_planet_names name).1.mp ⟨P, hP⟩
  simp only [Spec.bodies, List.mem_cons, List.not_mem_nil, or_false] at hn
  rcases hn with rfl | rfl | rfl | rfl | rfl | rfl | rfl | rfl <;>
    simp only [Planet.init, String.reduceEq, if_true, if_false, Except.ok.injEq] at hP <;> subst hP
  · exact ⟨180, by norm_num, by norm_num [Planet.withScales]⟩
  · exact ⟨120, by norm_num, by norm_num [Planet.withScales]⟩
  · exact ⟨120, by norm_num, by norm_num [Planet.withScales]⟩
  · exact ⟨1000, by norm_num, by norm_num [Planet.withScales]⟩
  · exact ⟨1000, by norm_num, by norm_num [Planet.withScales]⟩
  · exact ⟨1000, by norm_num, by norm_num [Planet.withScales]⟩
  · exact ⟨1500, by norm_num, by norm_num [Planet.withScales]⟩
  · exact ⟨1000, by norm_num, by norm_num [Planet.withScales]⟩

/-- The grid from index `k` on. -/
theorem grid_drop (P : Planet) (n k : ℕ) (hS : P.hSkip = 1000 * n) :
    P.scaleHeightGrid.drop k = (List.range' k (n - k)).map (fun i : ℕ => (i : ℝ) * (P.hSkip / ((n : ℝ) - 1))) := by
  have fl : ⌊P.hSkip / 1000⌋₊ = n := by
    rw [hS, mul_div_cancel_left₀ _ (by norm_num : (1000:ℝ) ≠ 0), Nat.floor_natCast]
  unfold Planet.scaleHeightGrid linspace0
  rw [fl, ← List.map_drop, List.range_eq_range', List.drop_range']
  simp

/-- The result for altitudes below the last grid cell, for every density. -/
theorem scaleHeight_eq (P : Planet) (atm : Atmosphere) (mode : ScipyMode) (d : ℝ → ℝ) (n : ℕ) (hS : P.hSkip = 1000 * n)
    (h : ℝ) (hk : ⌊h / 1000⌋₊ < n) :
    P.scaleHeight atm mode h d = .ok (if P.density atm h - P.density atm P.hSkip = 0 then none else
      some (Spec.trapz (((List.range' ⌊h / 1000⌋₊ (n - ⌊h / 1000⌋₊)).map
        (fun i : ℕ => (i : ℝ) * (P.hSkip / ((n : ℝ) - 1)))).map (fun x => (x, atm.densityInt x))) /
        (P.density atm h - P.density atm P.hSkip))) := by
  unfold Planet.scaleHeight
  rw [grid_drop P n _ hS]
  obtain ⟨a, h1, h2⟩ := cumTrapz_last mode (((List.range' ⌊h / 1000⌋₊ (n - ⌊h / 1000⌋₊)).map
        (fun i : ℕ => (i : ℝ) * (P.hSkip / ((n : ℝ) - 1)))).map (fun x => (x, atm.densityInt x))) (by
      simp only [ne_eq, List.map_eq_nil_iff, List.range'_eq_nil_iff]
      omega)
  simp only [h1, bind, Except.bind, pure, Except.pure, h2]

/-- The scale height does not depend on the density function passed to it. -/
theorem scaleHeight_argument (P : Planet) (atm : Atmosphere) (mode : ScipyMode) (h : ℝ) (d d' : ℝ → ℝ) :
    P.scaleHeight atm mode h d = P.scaleHeight atm mode h d' := rfl

/-- **C80.** In an atmosphere whose density model is exponential with scale height `H` up to the atmospheric interface,
the computed value at altitude `h` (metres) is exactly this: the trapezoidal factor `x coth x · H` with `x = s/2H`, `s` the
grid spacing, times the ratio of the density differences from grid point number `⌊h/1000⌋` and from `h`. -/
theorem C80_exponential (name : String) (P : Planet) (hP : Planet.init name = .ok P) (atm : Atmosphere) (c H : ℝ)
    (hc : 0 < c) (hH : 0 < H) (hρ : ∀ x, 0 ≤ x → x ≤ P.hSkip → atm.densityInt x = c * exp (-x / H)) (mode : ScipyMode)
    (d : ℝ → ℝ) (h : ℝ) (h0 : 0 ≤ h) (h1 : h < P.hSkip) :
    ∃ s : ℝ, s = P.hSkip / (P.hSkip / 1000 - 1) ∧
    P.scaleHeight atm mode h d = .ok (some (s / 2 * (cosh (s / (2 * H)) / sinh (s / (2 * H))) *
      ((exp (-(⌊h / 1000⌋₊ * s) / H) - exp (-P.hSkip / H)) / (exp (-h / H) - exp (-P.hSkip / H))))) := by
  obtain ⟨n, hn, hS⟩ := hSkip_whole name P hP
  have hnr : (2:ℝ) ≤ n := by exact_mod_cast hn
  have hTh := (C01_planet_consistent name P hP).2.2.2.2.2.2.2.1
  have hk : ⌊h / 1000⌋₊ < n := by
    rw [Nat.floor_lt (by positivity), div_lt_iff₀ (by norm_num)]
    linarith
  set k := ⌊h / 1000⌋₊ with hkdef
  have hSn : P.hSkip / 1000 = n := by rw [hS]; field_simp
  refine ⟨P.hSkip / (n - 1), by rw [hSn], ?_⟩
  set s := P.hSkip / ((n:ℝ) - 1) with hs
  have hpos : 0 < P.hSkip := by rw [hS]; positivity
  have hs0 : 0 < s := div_pos hpos (by linarith)
  have hend : ((n - 1 : ℕ) : ℝ) * s = P.hSkip := by
    rw [hs, Nat.cast_sub (by omega), Nat.cast_one]
    field_simp [show (n:ℝ) - 1 ≠ 0 by linarith]
  have dens : ∀ x, 0 ≤ x → x ≤ P.hSkip → P.density atm x = c * exp (-x / H) := by
    intro x hx hx'
    unfold Planet.density
    rw [if_pos ⟨hx, hx'.trans hTh⟩, hρ x hx hx']
  have hden : P.density atm h - P.density atm P.hSkip = c * (exp (-h / H) - exp (-P.hSkip / H)) := by
    rw [dens h h0 h1.le, dens _ hpos.le le_rfl]; ring
  have hlt : exp (-P.hSkip / H) < exp (-h / H) := by
    apply exp_lt_exp.mpr
    apply div_lt_div_of_pos_right _ hH
    linarith
  have hden0 : c * (exp (-h / H) - exp (-P.hSkip / H)) ≠ 0 := (mul_pos hc (sub_pos.mpr hlt)).ne'
  have hmap : ((List.range' k (n - k)).map (fun i : ℕ => (i : ℝ) * s)).map (fun x => (x, atm.densityInt x)) =
      ((List.range' k (n - 1 - k + 1)).map (fun i : ℕ => (i : ℝ) * s)).map (fun x => (x, c * exp (-x / H))) := by
    rw [show n - 1 - k + 1 = n - k by omega]
    apply List.map_congr_left
    intro x hx
    obtain ⟨i, hi, rfl⟩ := List.mem_map.1 hx
    rw [List.mem_range'_1] at hi
    have hi' : (i:ℝ) ≤ ((n - 1 : ℕ) : ℝ) := by exact_mod_cast (by omega : i ≤ n - 1)
    rw [hρ _ (by positivity) (by rw [← hend]; exact mul_le_mul_of_nonneg_right hi' hs0.le)]
  rw [scaleHeight_eq P atm mode d n hS h hk, ← hkdef, ← hs, hmap, trapz_exp c H s hH hs0, hden, if_neg hden0]
  rw [show k + (n - 1 - k) = n - 1 by omega, hend]
  congr 2
  rw [← mul_sub, mul_div_assoc, mul_div_mul_left _ _ hc.ne']

/-- **C80, the part that holds.** At the points of the grid (every spacing `s` from the ground, `s` a little over 1 km) the
value for such an atmosphere is its scale height `H`, with an error between 0 and `s²/12H`: 0.1 % for `H` = 10 km. -/
theorem C80_grid_points_partial (name : String) (P : Planet) (hP : Planet.init name = .ok P) (atm : Atmosphere) (c H : ℝ)
    (hc : 0 < c) (hH : 0 < H) (hρ : ∀ x, 0 ≤ x → x ≤ P.hSkip → atm.densityInt x = c * exp (-x / H)) (mode : ScipyMode)
    (d : ℝ → ℝ) (j : ℕ) (s : ℝ) (hs : s = P.hSkip / (P.hSkip / 1000 - 1)) (hj : j * s < P.hSkip) :
    ∃ v, P.scaleHeight atm mode (j * s) d = .ok (some v) ∧ H ≤ v ∧ v ≤ H + s ^ 2 / (12 * H) := by
  obtain ⟨n, hn, hS⟩ := hSkip_whole name P hP
  have hnr : (2:ℝ) ≤ n := by exact_mod_cast hn
  have hSn : P.hSkip / 1000 = n := by rw [hS]; field_simp
  have hpos : 0 < P.hSkip := by rw [hS]; positivity
  have hn1 : 0 < (n:ℝ) - 1 := by linarith
  rw [hSn] at hs
  have hs0 : 0 < s := hs ▸ div_pos hpos hn1
  have hjn : (j:ℝ) < n - 1 := by
    rw [hs, mul_div_assoc', div_lt_iff₀ hn1] at hj
    nlinarith
  have hfl : ⌊(j * s) / 1000⌋₊ = j := by
    rw [Nat.floor_eq_iff (by positivity)]
    have e : (j * s) / 1000 = j + j / (n - 1) := by
      rw [hs, hS]; field_simp; ring
    rw [e]
    constructor
    · have : (0:ℝ) ≤ j / (n - 1) := by positivity
      linarith
    · have : (j:ℝ) / (n - 1) < 1 := (div_lt_one hn1).mpr hjn
      linarith
  obtain ⟨s', hs', hv⟩ := C80_exponential name P hP atm c H hc hH hρ mode d (j * s) (by positivity) hj
  rw [hSn] at hs'
  obtain rfl : s' = s := hs'.trans hs.symm
  rw [hfl] at hv
  have hlt : exp (-P.hSkip / H) < exp (-(j * s') / H) := by
    apply exp_lt_exp.mpr
    apply div_lt_div_of_pos_right _ hH
    linarith
  rw [div_self (sub_pos.mpr hlt).ne', mul_one] at hv
  refine ⟨_, hv, ?_⟩
  obtain ⟨b1, b2⟩ := coth_bounds (s' / (2 * H)) (by positivity)
  set q := cosh (s' / (2 * H)) / sinh (s' / (2 * H)) with hq
  have e : s' / 2 * q = H * (s' / (2 * H) * q) := by field_simp
  rw [e]
  constructor
  · nlinarith
  · have := mul_le_mul_of_nonneg_left b2 hH.le
    refine this.trans (le_of_eq ?_)
    field_simp
    ring

/-- **C80 (finding).** In the last kilometre below the atmospheric interface the computed scale height is zero, whatever the
atmosphere. -/
theorem C80_zero_at_top (name : String) (P : Planet) (hP : Planet.init name = .ok P) (atm : Atmosphere)
    (mode : ScipyMode) (d : ℝ → ℝ) (h : ℝ) (h0 : P.hSkip - 1000 ≤ h) (h1 : h < P.hSkip)
    (hd : P.density atm h ≠ P.density atm P.hSkip) : P.scaleHeight atm mode h d = .ok (some 0) := by
  obtain ⟨n, hn, hS⟩ := hSkip_whole name P hP
  have hnr : (2:ℝ) ≤ n := by exact_mod_cast hn
  have hh : 0 ≤ h := by linarith
  have hk : ⌊h / 1000⌋₊ = n - 1 := by
    rw [Nat.floor_eq_iff (by positivity), Nat.cast_sub (by omega), Nat.cast_one, le_div_iff₀ (by norm_num),
      div_lt_iff₀ (by norm_num)]
    constructor <;> linarith
  rw [scaleHeight_eq P atm mode d n hS h (by omega), if_neg (sub_ne_zero.mpr hd), hk,
    show n - (n - 1) = 1 by omega]
  simp [Spec.trapz]

/-- The density may be any function with different values at the two altitudes. -/
example : ∃ (P : Planet) (atm : Atmosphere), Planet.init "MARS" = .ok P ∧
    P.density atm (P.hSkip - 500) ≠ P.density atm P.hSkip := by
  obtain ⟨P, hP⟩ := (C01_planet_names "MARS").1.mpr (by simp [Spec.bodies])
  refine ⟨P, ⟨fun x => exp (-x), fun _ => 1, fun _ => 1, fun _ => 1⟩, hP, ?_⟩
  have hS : P.hSkip = 120000 := by simp [Planet.init] at hP; subst hP; norm_num [Planet.withScales]
  have hT : P.hThres = 120000 := by simp [Planet.init] at hP; subst hP; norm_num [Planet.withScales]
  unfold Planet.density
  rw [hS, hT, if_pos (by norm_num), if_pos (by norm_num)]
  intro h
  have := exp_injective h
  norm_num at this

/-- **C80 (finding).** At or above the atmospheric interface the computation raises `ValueError`. -/
theorem C80_raises_above (name : String) (P : Planet) (hP : Planet.init name = .ok P) (atm : Atmosphere)
    (mode : ScipyMode) (d : ℝ → ℝ) (h : ℝ) (h1 : P.hSkip ≤ h) :
    P.scaleHeight atm mode h d = .error .valueError := by
  obtain ⟨n, hn, hS⟩ := hSkip_whole name P hP
  have hk : n ≤ ⌊h / 1000⌋₊ := by
    apply Nat.le_floor
    rw [le_div_iff₀ (by norm_num)]
    linarith
  have e : P.scaleHeightGrid.drop ⌊h / 1000⌋₊ = [] := by
    apply List.drop_eq_nil_of_le
    unfold Planet.scaleHeightGrid linspace0
    rw [hS, mul_div_cancel_left₀ _ (by norm_num : (1000:ℝ) ≠ 0), Nat.floor_natCast]
    simpa using hk
  unfold Planet.scaleHeight
  rw [e]
  rfl

/-- Cases for `C80_grid_points_partial` and `C80_raises_above`: Mars with an exponential atmosphere of scale height 10 km, at
the grid point next to 20 km, and at 130 km. -/
example : ∃ (P : Planet) (atm : Atmosphere) (v : ℝ), Planet.init "MARS" = .ok P ∧
    P.scaleHeight atm .strict (20 * (P.hSkip / (P.hSkip / 1000 - 1))) atm.densityInt = .ok (some v) ∧ 10000 ≤ v ∧
    v ≤ 10009 ∧ P.scaleHeight atm .strict 130000 atm.densityInt = .error .valueError := by
  obtain ⟨P, hP, -, -, hS, -⟩ := demo_mars
  obtain ⟨v, h1, h2, h3⟩ := C80_grid_points_partial "MARS" P hP
    ⟨fun x => 0.02 * exp (-x / 10000), fun _ => 1, fun _ => 1, fun _ => 1⟩ 0.02 10000 (by norm_num) (by norm_num)
    (fun x _ _ => rfl) .strict (fun x => 0.02 * exp (-x / 10000)) 20 _ rfl (by rw [hS]; norm_num)
  refine ⟨P, _, v, hP, h1, h2, h3.trans ?_, C80_raises_above "MARS" P hP _ .strict _ _ (by rw [hS]; norm_num)⟩
  rw [hS]; norm_num

/-- **C80 (finding).** Asked for the scale height of a profile with scale height 1000 km, in a model atmosphere with 10 km,
it answers with a value below 11 km.  Case for `C80_exponential`, which proves it. -/
theorem C80_wrong_profile : ∃ (P : Planet) (atm : Atmosphere) (d : ℝ → ℝ) (v : ℝ), Planet.init "MARS" = .ok P ∧
    (∀ x, d x = exp (-x / 1000000)) ∧ (∀ x, atm.densityInt x = exp (-x / 10000)) ∧
    P.scaleHeight atm .strict 0 d = .ok (some v) ∧ 10000 ≤ v ∧ v ≤ 11000 := by
  obtain ⟨P, hP⟩ := (C01_planet_names "MARS").1.mpr (by simp [Spec.bodies])
  let atm : Atmosphere := ⟨fun x => exp (-x / 10000), fun _ => 1, fun _ => 1, fun _ => 1⟩
  have hS : P.hSkip = 120000 := by
    simp [Planet.init] at hP; subst hP; norm_num [Planet.withScales]
  obtain ⟨v, h1, h2, h3⟩ := C80_grid_points_partial "MARS" P hP atm 1 10000 one_pos (by norm_num)
    (fun x _ _ => by simp [atm]) .strict (fun x => exp (-x / 1000000)) 0 _ rfl (by rw [hS]; norm_num)
  refine ⟨P, atm, fun x => exp (-x / 1000000), v, hP, fun _ => rfl, fun _ => rfl, ?_, h2, ?_⟩
  · simpa using h1
  · rw [hS] at h3
    norm_num at h3
    linarith

end AMAT.Props
