import Verif.Model.Profiles
import Verif.Props.PlanetProps

/-
C91: the altitude profiles drawn by `checkAtmProfiles`.
-/

noncomputable section

namespace AMAT.Props

open AMAT

theorem linspace_getElem (a b : ℝ) (n i : ℕ) (hi : i < n) :
    (linspace a b n)[i]? = some (a + (i : ℝ) * ((b - a) / ((n : ℝ) - 1))) := by
  rw [linspace, List.getElem?_map, List.getElem?_range hi]; rfl

theorem linspace_length (a b : ℝ) (n : ℕ) : (linspace a b n).length = n := by
  rw [linspace, List.length_map, List.length_range]

theorem linspace_range {a b : ℝ} (hab : a ≤ b) (n : ℕ) : ∀ x ∈ linspace a b n, a ≤ x ∧ x ≤ b := by
  intro x hx
  obtain ⟨i, hi⟩ := List.mem_iff_getElem?.mp hx
  have hin : i < n := by
    have := (List.getElem?_eq_some_iff.mp hi).1
    rwa [linspace_length] at this
  rw [linspace_getElem a b n i hin] at hi
  obtain rfl := Option.some.inj hi
  have h0 : (0:ℝ) ≤ i := Nat.cast_nonneg i
  rcases Nat.lt_or_ge 1 n with hn | hn
  · have hn' : (0:ℝ) < n - 1 := by have : (1:ℝ) < n := by exact_mod_cast hn
                                   linarith
    have hi' : (i:ℝ) ≤ n - 1 := by
      have : (i:ℝ) + 1 ≤ n := by exact_mod_cast hin
      linarith
    have hd : 0 ≤ (b - a) / ((n:ℝ) - 1) := div_nonneg (by linarith) hn'.le
    refine ⟨by nlinarith, ?_⟩
    have : (i:ℝ) * ((b - a) / ((n:ℝ) - 1)) ≤ (n - 1) * ((b - a) / ((n:ℝ) - 1)) := mul_le_mul_of_nonneg_right hi' hd
    rw [mul_div_cancel₀ _ hn'.ne'] at this
    linarith
  · have : i = 0 := by omega
    subst this
    constructor
    · simp
    · simpa using hab

theorem checkAtmProfiles_ok (P : Planet) (atm : Atmosphere) (h0 dh : ℝ) (hP : 0 ≤ P.hThres) (hdh : 0 < dh) :
    P.checkAtmProfiles atm h0 dh = .ok
      { h := linspace h0 P.hThres ⌊P.hThres / dh⌋₊
        temp := (linspace h0 P.hThres ⌊P.hThres / dh⌋₊).map atm.tempInt
        pres := (linspace h0 P.hThres ⌊P.hThres / dh⌋₊).map atm.pressureInt
        dens := (linspace h0 P.hThres ⌊P.hThres / dh⌋₊).map atm.densityInt
        sonic := (linspace h0 P.hThres ⌊P.hThres / dh⌋₊).map atm.sonicInt } := by
  have hq : 0 ≤ P.hThres / dh := div_nonneg hP hdh.le
  have hn : pyInt (P.hThres / dh) = (⌊P.hThres / dh⌋₊ : ℤ) := by
    rw [pyInt, if_pos hq]
    exact (Int.natCast_floor_eq_floor hq).symm
  unfold Planet.checkAtmProfiles
  rw [if_neg hdh.ne', hn]
  simp only [bind, Except.bind, pure, Except.pure, Atmosphere.tempVectorized, Atmosphere.presVectorized,
    Atmosphere.densityVectorized, Atmosphere.aVectorized, Int.toNat_natCast]
  rw [if_neg (by omega)]

/-- C91: for every supported body, loaded atmosphere, lower limit and positive interval the four profiles have one value
per altitude, every altitude lies between the lower limit and the edge of the atmosphere, and the values drawn are those
which the radius-based lookups return at the corresponding radius; for altitudes above ground the density drawn is the
density used in flight. -/
theorem C91_profiles_are_flown (name : String) (P : Planet) (hP : Planet.init name = .ok P) (atm : Atmosphere)
    (h0 dh : ℝ) (hdh : 0 < dh) : ∃ pr, P.checkAtmProfiles atm h0 dh = .ok pr ∧
    pr.h.length = ⌊P.hThres / dh⌋₊ ∧ pr.temp.length = pr.h.length ∧ pr.pres.length = pr.h.length ∧
    pr.dens.length = pr.h.length ∧ pr.sonic.length = pr.h.length ∧
    ∀ (i : ℕ) (x : ℝ), pr.h[i]? = some x →
      (h0 ≤ P.hThres → h0 ≤ x ∧ x ≤ P.hThres) ∧
      pr.temp[i]? = some (P.temperatureVec atm (P.computeR x)) ∧
      pr.pres[i]? = some (P.pressureVec atm (P.computeR x)) ∧
      pr.sonic[i]? = some (P.sonicVec atm (P.computeR x)) ∧
      pr.dens[i]? = some (P.rhoVec atm (P.computeR x)) ∧
      (0 ≤ h0 → h0 ≤ P.hThres → ∀ th ph, pr.dens[i]? = some (P.rho atm (P.computeR x) th ph)) := by
  have hc := C01_planet_consistent name P hP
  have h6 := hc.2.2.2.2.2.1
  have h7 := hc.2.2.2.2.2.2.1
  have h8 := hc.2.2.2.2.2.2.2.1
  have hT : 0 ≤ P.hThres := by linarith
  refine ⟨_, checkAtmProfiles_ok P atm h0 dh hT hdh, linspace_length _ _ _, by simp, by simp, by simp, by simp, ?_⟩
  intro i x hx
  simp only at hx
  have hmem : x ∈ linspace h0 P.hThres ⌊P.hThres / dh⌋₊ := List.mem_iff_getElem?.mpr ⟨i, hx⟩
  have e : P.computeR x - P.RP = x := by simp [Planet.computeR]
  refine ⟨fun h => linspace_range h _ x hmem, ?_, ?_, ?_, ?_, ?_⟩
  · simp [hx, Planet.temperatureVec, e]
  · simp [hx, Planet.pressureVec, e]
  · simp [hx, Planet.sonicVec, e]
  · simp [hx, Planet.rhoVec, e]
  · intro hh hle th ph
    have := linspace_range hle _ x hmem
    rw [List.getElem?_map, hx, Option.map_some, Planet.rho, e, Planet.density,
      if_pos ⟨by linarith [this.1], this.2⟩]

/-- C91: the altitudes are equally spaced, with a spacing that is the requested interval exactly when the lower limit is
`⌊h_thres/dh⌋ - 1` intervals below the edge of the atmosphere. -/
theorem C91_interval_partial (name : String) (P : Planet) (hP : Planet.init name = .ok P) (atm : Atmosphere)
    (h0 dh : ℝ) (hdh : 0 < dh) (hn : 2 * dh ≤ P.hThres) : ∃ pr, P.checkAtmProfiles atm h0 dh = .ok pr ∧
    pr.h[0]? = some h0 ∧ pr.h.getLast? = some P.hThres ∧
    ∀ (i : ℕ) (x y : ℝ), pr.h[i]? = some x → pr.h[i + 1]? = some y →
      (y - x = dh ↔ h0 = P.hThres - (⌊P.hThres / dh⌋₊ - 1 : ℝ) * dh) := by
  have hc := C01_planet_consistent name P hP
  have hT : 0 ≤ P.hThres := by linarith
  have h2 : (2:ℕ) ≤ ⌊P.hThres / dh⌋₊ := by
    apply Nat.le_floor
    rw [le_div_iff₀ hdh]
    exact_mod_cast hn
  set n := ⌊P.hThres / dh⌋₊ with hndef
  have hn1 : (0:ℝ) < (n:ℝ) - 1 := by
    have : (2:ℝ) ≤ n := by exact_mod_cast h2
    linarith
  refine ⟨_, checkAtmProfiles_ok P atm h0 dh hT hdh, ?_, ?_, ?_⟩
  · simp only
    rw [linspace_getElem _ _ _ 0 (by omega)]; simp
  · simp only
    rw [List.getLast?_eq_getElem?, linspace_length, linspace_getElem _ _ _ _ (by omega), Nat.cast_sub (by omega),
      Nat.cast_one, mul_div_cancel₀ _ hn1.ne']
    simp
  · intro i x y hx hy
    simp only at hx hy
    have hi : i + 1 < n := by
      have := (List.getElem?_eq_some_iff.mp hy).1
      rwa [linspace_length] at this
    rw [linspace_getElem _ _ _ _ (by omega)] at hx hy
    obtain rfl := Option.some.inj hx
    obtain rfl := Option.some.inj hy
    push_cast
    rw [show h0 + ((i:ℝ) + 1) * ((P.hThres - h0) / (n - 1)) - (h0 + i * ((P.hThres - h0) / (n - 1))) =
      (P.hThres - h0) / (n - 1) by ring, div_eq_iff hn1.ne']
    constructor <;> intro h <;> linarith

/-- C91, negation: with the default lower limit 0 the altitudes are never spaced by the requested interval but always
wider, whatever the interval. -/
theorem C91_interval_false (name : String) (P : Planet) (hP : Planet.init name = .ok P) (atm : Atmosphere)
    (dh : ℝ) (hdh : 0 < dh) : ∃ pr, P.checkAtmProfiles atm 0 dh = .ok pr ∧
    ∀ (i : ℕ) (x y : ℝ), pr.h[i]? = some x → pr.h[i + 1]? = some y → dh < y - x := by
  have hc := C01_planet_consistent name P hP
  have h6 := hc.2.2.2.2.2.1
  have h7 := hc.2.2.2.2.2.2.1
  have h8 := hc.2.2.2.2.2.2.2.1
  have hT : 0 < P.hThres := by linarith
  refine ⟨_, checkAtmProfiles_ok P atm 0 dh hT.le hdh, ?_⟩
  intro i x y hx hy
  simp only at hx hy
  set n := ⌊P.hThres / dh⌋₊ with hndef
  have hi : i + 1 < n := by
    have := (List.getElem?_eq_some_iff.mp hy).1
    rwa [linspace_length] at this
  have hn1 : (0:ℝ) < (n:ℝ) - 1 := by
    have : ((i + 1 : ℕ):ℝ) + 1 ≤ n := by exact_mod_cast hi
    push_cast at this
    have : (0:ℝ) ≤ i := Nat.cast_nonneg i
    linarith
  rw [linspace_getElem _ _ _ _ (by omega)] at hx hy
  obtain rfl := Option.some.inj hx
  obtain rfl := Option.some.inj hy
  push_cast
  rw [show 0 + ((i:ℝ) + 1) * ((P.hThres - 0) / (n - 1)) - (0 + i * ((P.hThres - 0) / (n - 1))) =
      P.hThres / (n - 1) by ring, lt_div_iff₀ hn1]
  have : (n:ℝ) ≤ P.hThres / dh := Nat.floor_le (div_pos hT hdh).le
  rw [le_div_iff₀ hdh] at this
  nlinarith

/-- C91: a zero interval raises `ZeroDivisionError`, a negative one whose size does not exceed the edge of the atmosphere
`ValueError`. -/
theorem C91_bad_interval (name : String) (P : Planet) (hP : Planet.init name = .ok P) (atm : Atmosphere) (h0 : ℝ) :
    P.checkAtmProfiles atm h0 0 = .error .zeroDivisionError ∧
    ∀ dh, dh < 0 → -P.hThres ≤ dh → P.checkAtmProfiles atm h0 dh = .error .valueError := by
  have hc := C01_planet_consistent name P hP
  have h6 := hc.2.2.2.2.2.1
  have h7 := hc.2.2.2.2.2.2.1
  have h8 := hc.2.2.2.2.2.2.2.1
  have hT : 0 < P.hThres := by linarith
  constructor
  · simp [Planet.checkAtmProfiles, bind, Except.bind, throw, throwThe, MonadExceptOf.throw]
  · intro dh hd hle
    have hq : P.hThres / dh ≤ -1 := by
      rw [div_le_iff_of_neg hd]; linarith
    have hn : pyInt (P.hThres / dh) < 0 := by
      rw [pyInt, if_neg (by linarith)]
      have : ⌈P.hThres / dh⌉ ≤ -1 := Int.ceil_le.mpr (by push_cast; linarith)
      omega
    simp [Planet.checkAtmProfiles, bind, Except.bind, throw, throwThe, MonadExceptOf.throw, hd.ne, hn]

/-- The defaults on Venus (edge at 180 km): 180 altitudes, spaced by 1005.59 m instead of 1000 m. -/
example (P : Planet) (hP : Planet.init "VENUS" = .ok P) (atm : Atmosphere) : ∃ pr,
    P.checkAtmProfiles atm 0 1000 = .ok pr ∧ pr.h.length = 180 ∧ pr.h[1]? = some (180000 / 179) := by
  have hT : P.hThres = 180000 := by simp [Planet.init] at hP; subst hP; norm_num [Planet.withScales]
  have hn : ⌊P.hThres / 1000⌋₊ = 180 := by
    rw [hT]; norm_num
  refine ⟨_, checkAtmProfiles_ok P atm 0 1000 (by rw [hT]; norm_num) (by norm_num), ?_, ?_⟩
  · simp only; rw [hn, linspace_length]
  · simp only; rw [hn, linspace_getElem _ _ _ 1 (by norm_num), hT]; norm_num

/-- A lower limit for which the interval is met: 180 samples need the lower limit 1 km. -/
example (P : Planet) (hP : Planet.init "VENUS" = .ok P) (atm : Atmosphere) : ∃ pr,
    P.checkAtmProfiles atm 1000 1000 = .ok pr ∧
    ∀ (i : ℕ) (x y : ℝ), pr.h[i]? = some x → pr.h[i + 1]? = some y → y - x = 1000 := by
  have hT : P.hThres = 180000 := by simp [Planet.init] at hP; subst hP; norm_num [Planet.withScales]
  have hn : ⌊P.hThres / 1000⌋₊ = 180 := by
    rw [hT]; norm_num
  obtain ⟨pr, h1, -, -, h2⟩ := C91_interval_partial "VENUS" P hP atm 1000 1000 (by norm_num) (by rw [hT]; norm_num)
  refine ⟨pr, h1, fun i x y hx hy => (h2 i x y hx hy).mpr ?_⟩
  rw [hn, hT]; norm_num

example (P : Planet) (hP : Planet.init "MARS" = .ok P) (atm : Atmosphere) :
    P.checkAtmProfiles atm 0 (-1000) = .error .valueError := by
  refine (C91_bad_interval "MARS" P hP atm 0).2 _ (by norm_num) ?_
  have hT : P.hThres ≥ 1000 := by simp [Planet.init] at hP; subst hP; norm_num [Planet.withScales]
  linarith

end AMAT.Props
