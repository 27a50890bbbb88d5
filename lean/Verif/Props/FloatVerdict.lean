import Mathlib.Algebra.Ring.Int.Parity
import Mathlib.Tactic.Linarith
import Mathlib.Tactic.Positivity
import Mathlib.Tactic.FieldSimp
import Verif.Model.FloatVerdict
import Verif.Lemmas.FloatGrid
import Verif.Props.PlanetProps
import Verif.Props.Sensitivity

/-
C133: verdicts in double precision.  The altitude is subtracted without rounding wherever it matters, so that a flight is
classified, truncated and given its density exactly as its radii say; a vehicle is never reported captured with an energy of
zero or more, and is reported captured if its kinetic energy is below 1 - 2⁻⁵¹ of what it takes to escape.
-/

noncomputable section

namespace AMAT.binary64

open AMAT

/-- Numbers within a factor of two of each other are subtracted exactly (Sterbenz). -/
theorem sub_mem {x y : ℝ} (hx : x ∈ binary64) (hy : y ∈ binary64) (h1 : y ≤ 2 * x) (h2 : x ≤ 2 * y) : x - y ∈ binary64 := by
  have key : ∀ (m e n f : ℤ), |m| < 2 ^ 53 → -1074 ≤ e → e ≤ f → (n : ℝ) * 2 ^ f ≤ 2 * ((m : ℝ) * 2 ^ e) →
      (0:ℝ) ≤ (n : ℝ) * 2 ^ f → (n : ℝ) * 2 ^ f - (m : ℝ) * 2 ^ e ∈ binary64 := by
    intro m e n f hm he hef h h0
    obtain ⟨k, rfl⟩ : ∃ k : ℕ, f = e + k := ⟨(f - e).toNat, by omega⟩
    have hp := two_zpow_pos e
    have e1 : (n : ℝ) * 2 ^ (e + (k : ℤ)) = ((n * 2 ^ k : ℤ) : ℝ) * 2 ^ e := by
      rw [two_zpow_add, zpow_natCast]; push_cast; ring
    rw [e1] at h h0 ⊢
    have h3 : n * 2 ^ k ≤ 2 * m := by
      have : ((n * 2 ^ k : ℤ) : ℝ) ≤ ((2 * m : ℤ) : ℝ) := by
        refine le_of_mul_le_mul_right (h.trans (le_of_eq ?_)) hp
        push_cast; ring
      exact_mod_cast this
    have h4 : 0 ≤ n * 2 ^ k := by
      have : (0:ℝ) ≤ ((n * 2 ^ k : ℤ) : ℝ) := nonneg_of_mul_nonneg_left h0 hp
      exact_mod_cast this
    refine ⟨n * 2 ^ k - m, e, ?_, he, by push_cast; ring⟩
    have := abs_lt.mp hm
    rw [abs_lt]; constructor <;> omega
  have hx0 : 0 ≤ x := by linarith
  have hy0 : 0 ≤ y := by linarith
  obtain ⟨m, e, hm, he, rfl⟩ := hx
  obtain ⟨n, f, hn, hf, rfl⟩ := hy
  rcases le_total e f with h | h
  · have := neg_mem (key m e n f hm he h h1 hy0)
    rwa [neg_sub] at this
  · exact key n f m e hn hf h h2 hx0

/-- A double other than zero is an odd number times a power of two. -/
theorem odd_form {x : ℝ} (hx : x ∈ binary64) (h0 : x ≠ 0) :
    ∃ m e : ℤ, Odd m ∧ |m| < 2 ^ 53 ∧ -1074 ≤ e ∧ x = (m : ℝ) * (2:ℝ) ^ e := by
  obtain ⟨m, e, hm, he, rfl⟩ := hx
  have hm0 : m ≠ 0 := by rintro rfl; simp at h0
  obtain ⟨N, hN⟩ : ∃ N : ℕ, m.natAbs ≤ N := ⟨_, le_rfl⟩
  clear h0
  induction N generalizing m e with
  | zero => omega
  | succ N ih =>
    rcases Int.even_or_odd m with ⟨k, hk⟩ | ho
    · obtain ⟨m', e', a, b, c, d⟩ := ih k (e + 1) (by rw [abs_lt] at hm ⊢; omega) (by omega) (by omega) (by omega)
      refine ⟨m', e', a, b, c, ?_⟩
      rw [← d, hk, two_zpow_add, zpow_one]; push_cast; ring
    · exact ⟨m, e, ho, hm, he, rfl⟩

/-- Odd parts are unique. -/
theorem odd_unique {m n e f : ℤ} (hm : Odd m) (hn : Odd n) (h : (m : ℝ) * (2:ℝ) ^ e = (n : ℝ) * (2:ℝ) ^ f) : m = n := by
  have key : ∀ {m n e f : ℤ}, Odd m → Odd n → (m : ℝ) * (2:ℝ) ^ e = (n : ℝ) * (2:ℝ) ^ f → e ≤ f → m = n := by
    intro m n e f hm hn h hle
    obtain ⟨k, rfl⟩ : ∃ k : ℕ, f = e + k := ⟨(f - e).toNat, by omega⟩
    have hp := two_zpow_pos e
    rw [two_zpow_add, zpow_natCast] at h
    have h1 : (m : ℝ) = ((n * 2 ^ k : ℤ) : ℝ) := by
      push_cast
      refine mul_right_cancel₀ hp.ne' (h.trans ?_); ring
    have h2 : m = n * 2 ^ k := by exact_mod_cast h1
    rcases Nat.eq_zero_or_pos k with rfl | hk
    · simpa using h2
    · exfalso
      have : Even m := by
        rw [h2]
        exact (((even_two : Even (2:ℤ)).pow_of_ne_zero hk.ne')).mul_left _
      exact (Int.not_even_iff_odd.mpr hm) this
  rcases le_total e f with hle | hle
  · exact key hm hn h hle
  · exact (key hn hm h.symm hle).symm

/-- The square of a speed that balances the energy exactly is itself a double. -/
theorem sq_mem {g r v : ℝ} (hg : g ∈ binary64) (hr : r ∈ binary64) (hv : v ∈ binary64) (hr0 : r ≠ 0)
    (hvv : (2:ℝ) ^ (-1021 : ℤ) ≤ v ^ 2) (h : r * v ^ 2 = 2 * g) : v ^ 2 ∈ binary64 := by
  have hv0 : v ≠ 0 := by
    rintro rfl
    have := two_zpow_pos (-1021)
    rw [zero_pow two_ne_zero] at hvv; linarith
  have hg0 : g ≠ 0 := by
    rintro rfl
    rw [mul_zero] at h
    exact (mul_ne_zero hr0 (pow_ne_zero 2 hv0)) h
  obtain ⟨n, c, hno, hn, -, rfl⟩ := odd_form hg hg0
  obtain ⟨m, a, hmo, hm, -, rfl⟩ := odd_form hr hr0
  obtain ⟨k, b, hko, hk, hb, rfl⟩ := odd_form hv hv0
  have e2 : ((k : ℝ) * (2:ℝ) ^ b) ^ 2 = ((k ^ 2 : ℤ) : ℝ) * (2:ℝ) ^ (b + b) := by
    rw [two_zpow_add]; push_cast; ring
  have h1 : ((m * k ^ 2 : ℤ) : ℝ) * (2:ℝ) ^ (a + (b + b)) = (n : ℝ) * (2:ℝ) ^ (c + 1) := by
    rw [e2] at h
    rw [two_zpow_add a, two_zpow_add c, zpow_one]; push_cast at h ⊢; linarith
  have h2 := odd_unique (hmo.mul (hko.pow)) hno h1
  have h3 : k ^ 2 < 2 ^ 53 := by
    have hm1 : 1 ≤ |m| := Int.one_le_abs (by rintro rfl; simp at hr0)
    have h4 : |n| = |m| * k ^ 2 := by rw [← h2, abs_mul, abs_of_nonneg (sq_nonneg k)]
    nlinarith [sq_nonneg k]
  rw [e2] at hvv ⊢
  refine ⟨k ^ 2, b + b, by rw [abs_of_nonneg (sq_nonneg k)]; exact h3, ?_, rfl⟩
  by_contra hc
  push Not at hc
  have h5 : (2:ℝ) ^ (b + b) ≤ (2:ℝ) ^ (-1075 : ℤ) := zpow_le_zpow_right₀ (by norm_num) (by omega)
  have h6 : ((k ^ 2 : ℤ) : ℝ) < 2 ^ 53 := by exact_mod_cast h3
  have h7 : (2:ℝ) ^ (-1021 : ℤ) = 2 ^ 54 * (2:ℝ) ^ (-1075 : ℤ) := by
    rw [show (-1021:ℤ) = 54 + (-1075) by norm_num, two_zpow_add]; norm_cast
  have hp := two_zpow_pos (-1075)
  have h8 : (0:ℝ) ≤ ((k ^ 2 : ℤ) : ℝ) := by exact_mod_cast sq_nonneg k
  have h9 : ((k ^ 2 : ℤ) : ℝ) * (2:ℝ) ^ (b + b) ≤ 2 ^ 53 * (2:ℝ) ^ (-1075 : ℤ) := by gcongr
  rw [h7] at hvv
  linarith

end AMAT.binary64

namespace AMAT.Spec

open AMAT

/-- The radius of a planet and the altitudes that decide about flights are doubles, and the altitudes are less than the
radius. -/
structure DoubleLimits (P : Planet) : Prop where
  pos : 0 < P.RP
  RP : P.RP ∈ binary64
  hSkip : P.hSkip ∈ binary64 ∧ 0 ≤ P.hSkip ∧ P.hSkip < P.RP
  hTrap : P.hTrap ∈ binary64 ∧ 0 ≤ P.hTrap ∧ P.hTrap < P.RP
  hThres : P.hThres ∈ binary64 ∧ 0 ≤ P.hThres ∧ P.hThres < P.RP

end AMAT.Spec

namespace AMAT.Props

open AMAT

theorem sub_neg_mem {x y : ℝ} (hx : x ∈ binary64) (hy : y ∈ binary64) (h : x < y) : x - y ≤ -(2:ℝ) ^ (-1074 : ℤ) := by
  obtain ⟨k, rfl⟩ := binary64.multiple hx
  obtain ⟨l, rfl⟩ := binary64.multiple hy
  have hp := binary64.two_zpow_pos (-1074)
  have h1 : (k : ℝ) < l := lt_of_mul_lt_mul_right h hp.le
  have h2 : k + 1 ≤ l := by exact_mod_cast h1
  have h3 : (k : ℝ) + 1 ≤ l := by exact_mod_cast h2
  nlinarith only [hp, h3]

theorem rnd_sub_neg {rnd : ℝ → ℝ} (hr : RoundsTo binary64 rnd) {x y : ℝ} (hx : x ∈ binary64) (hy : y ∈ binary64)
    (h : x < y) : rnd (x - y) < 0 := by
  have h1 := hr.le_of_le (binary64.neg_mem (binary64.pow_mem (e := -1074) le_rfl)) (sub_neg_mem hx hy h)
  have hp := binary64.two_zpow_pos (-1074)
  linarith

theorem altR_side {rnd : ℝ → ℝ} (hr : RoundsTo binary64 rnd) {r R t : ℝ} (hR : R ∈ binary64) (hR0 : 0 < R)
    (hm : r ∈ binary64) (h0 : 0 ≤ t) (h1 : t < R) :
    (rnd (r - R) < t ↔ r - R < t) ∧ (t < rnd (r - R) ↔ t < r - R) := by
  rcases lt_or_ge r (R / 2) with h | h
  · have := rnd_sub_neg hr hm hR (by linarith : r < R)
    exact ⟨⟨fun _ => by linarith, fun _ => by linarith⟩, ⟨fun _ => by linarith, fun _ => by linarith⟩⟩
  rcases le_or_gt r (2 * R) with h' | h'
  · rw [hr.eq_self (binary64.sub_mem hm hR (by linarith) h')]
    exact ⟨Iff.rfl, Iff.rfl⟩
  · have := hr.ge_of_ge (x := r - R) hR (by linarith)
    exact ⟨⟨fun _ => by linarith, fun _ => by linarith⟩, ⟨fun _ => by linarith, fun _ => by linarith⟩⟩

/-- **C133**, the limits of the eight bodies are such doubles. -/
theorem C133_limits (name : String) (P : Planet) (hP : Planet.init name = .ok P) : Spec.DoubleLimits P ∧ P.GM ∈ binary64 := by
  have hi : ∀ n : ℤ, |n| < 2 ^ 53 → (n : ℝ) ∈ binary64 := fun n hn => ⟨n, 0, hn, by norm_num, by simp⟩
  have hg : ∀ n : ℤ, |n| < 2 ^ 53 → (n : ℝ) * 2 ^ 7 ∈ binary64 := fun n hn => ⟨n, 7, hn, by norm_num, by norm_cast⟩
  have fin : ∀ (R s t h g : ℤ) , |g| < 2 ^ 53 → P.RP = R → P.hSkip = s → P.hTrap = t → P.hThres = h →
      P.GM = g * 2 ^ 7 →
      0 < R → R < 2 ^ 53 → 0 ≤ s → s < R → 0 ≤ t → t < R → 0 ≤ h → h < R → Spec.DoubleLimits P ∧ P.GM ∈ binary64 := by
    intro R s t h g hgm e1 e2 e3 e4 e5 i1 i2 i3 i4 i5 i6 i7 i8
    refine ⟨⟨by rw [e1]; exact_mod_cast i1, by rw [e1]; exact hi R (abs_lt.mpr ⟨by omega, by omega⟩), ?_, ?_, ?_⟩,
      by rw [e5]; exact hg g hgm⟩
    · rw [e1, e2]; exact ⟨hi s (abs_lt.mpr ⟨by omega, by omega⟩), by exact_mod_cast i3, by exact_mod_cast i4⟩
    · rw [e1, e3]; exact ⟨hi t (abs_lt.mpr ⟨by omega, by omega⟩), by exact_mod_cast i5, by exact_mod_cast i6⟩
    · rw [e1, e4]; exact ⟨hi h (abs_lt.mpr ⟨by omega, by omega⟩), by exact_mod_cast i7, by exact_mod_cast i8⟩
  unfold Planet.init at hP
  split_ifs at hP <;> simp only [Except.ok.injEq] at hP <;> subst hP
  · refine fin 6051800 180000 10000 180000 2537967968750 ?_ ?_ ?_ ?_ ?_ ?_ ?_ ?_ ?_ ?_ ?_ ?_ ?_ ?_ <;> norm_num [Planet.withScales]
  · refine fin 6371000 120000 10000 120000 3114065625000 ?_ ?_ ?_ ?_ ?_ ?_ ?_ ?_ ?_ ?_ ?_ ?_ ?_ ?_ <;> norm_num [Planet.withScales]
  · refine fin 3389500 120000 10000 120000 334596640625 ?_ ?_ ?_ ?_ ?_ ?_ ?_ ?_ ?_ ?_ ?_ ?_ ?_ ?_ <;> norm_num [Planet.withScales]
  · refine fin 69911000 1000000 50000 1000000 989738546875000 ?_ ?_ ?_ ?_ ?_ ?_ ?_ ?_ ?_ ?_ ?_ ?_ ?_ ?_ <;> norm_num [Planet.withScales]
  · refine fin 58232000 1000000 50000 1000000 296337398437500 ?_ ?_ ?_ ?_ ?_ ?_ ?_ ?_ ?_ ?_ ?_ ?_ ?_ ?_ <;> norm_num [Planet.withScales]
  · refine fin 2575000 1000000 30000 1000000 70140625000 ?_ ?_ ?_ ?_ ?_ ?_ ?_ ?_ ?_ ?_ ?_ ?_ ?_ ?_ <;> norm_num [Planet.withScales]
  · refine fin 25559000 1500000 10000 1500000 45265148437500 ?_ ?_ ?_ ?_ ?_ ?_ ?_ ?_ ?_ ?_ ?_ ?_ ?_ ?_ <;> norm_num [Planet.withScales]
  · refine fin 24622000 1000000 10000 1000000 53410389843750 ?_ ?_ ?_ ?_ ?_ ?_ ?_ ?_ ?_ ?_ ?_ ?_ ?_ ?_ <;> norm_num [Planet.withScales]

/-- **C133**, classification.  For radii that are doubles the flight is classified and truncated exactly as the radii say:
no rounding moves the verdict or the index. -/
theorem C133_classification {rnd : ℝ → ℝ} (hr : RoundsTo binary64 rnd) (P : Planet) (hP : Spec.DoubleLimits P) (r : List ℝ)
    (hm : ∀ x ∈ r, x ∈ binary64) : P.classifyTrajectoryR rnd r = P.classifyTrajectory r := by
  have e : P.classifyTrajectoryR rnd r = P.classifyTrajectory (r.map fun x => P.RP + rnd (x - P.RP)) := by
    have : (r.map fun x => P.RP + rnd (x - P.RP)).map P.computeH = r.map (P.computeHR rnd) := by
      rw [List.map_map]
      exact List.map_congr_left fun x _ => by simp [Planet.computeH, Planet.computeHR]
    simp only [Planet.classifyTrajectory, Planet.classifyTrajectoryR, this]
  rw [e]
  conv_rhs => rw [← List.map_id r]
  refine classify_congr P r _ _ fun x hx => ?_
  have e2 : P.computeH (P.RP + rnd (x - P.RP)) = rnd (x - P.RP) := by simp [Planet.computeH]
  have e3 : P.computeH (id x) = x - P.RP := rfl
  rw [e2, e3]
  have k0 := altR_side hr hP.RP hP.pos (hm x hx) le_rfl hP.pos
  have k1 := altR_side hr hP.RP hP.pos (hm x hx) hP.hSkip.2.1 hP.hSkip.2.2
  have k2 := altR_side hr hP.RP hP.pos (hm x hx) hP.hTrap.2.1 hP.hTrap.2.2
  refine ⟨?_, k1.2, k1.1, k2.1, ?_⟩
  · rw [← not_lt, ← not_lt, not_iff_not]; exact k0.1
  · rw [← not_lt, ← not_lt, not_iff_not]; exact k2.2

/-- **C133**, density.  The density at a radius that is a double is the value of the table at the exact altitude inside the
atmosphere, and switches to zero above it and to the surface value below the surface exactly where it should. -/
theorem C133_density {rnd : ℝ → ℝ} (hr : RoundsTo binary64 rnd) (P : Planet) (hP : Spec.DoubleLimits P) (atm : Atmosphere)
    (r theta phi : ℝ) (hm : r ∈ binary64) :
    (P.RP ≤ r → r ≤ P.RP + P.hThres → P.rhoR rnd atm r theta phi = atm.densityInt (r - P.RP)) ∧
    (P.RP + P.hThres < r → P.rhoR rnd atm r theta phi = 0) ∧ (r < P.RP → P.rhoR rnd atm r theta phi = P.rho0) := by
  have k0 := altR_side hr hP.RP hP.pos hm le_rfl hP.pos
  have k1 := altR_side hr hP.RP hP.pos hm hP.hThres.2.1 hP.hThres.2.2
  have hpos := hP.pos
  obtain ⟨-, ht0, ht1⟩ := hP.hThres
  refine ⟨fun h1 h2 => ?_, fun h1 => ?_, fun h1 => ?_⟩
  · have e := hr.eq_self (binary64.sub_mem hm hP.RP (by linarith) (by linarith))
    simp only [Planet.rhoR, Planet.density, e]
    rw [if_pos ⟨by linarith, by linarith⟩]
  · have := k1.2.mpr (by linarith)
    simp only [Planet.rhoR, Planet.density]
    rw [if_neg (fun h => absurd h.2 (not_le.mpr this)), if_pos this]
  · have := k0.1.mpr (by linarith)
    simp only [Planet.rhoR, Planet.density]
    rw [if_neg (fun h => absurd h.1 (not_le.mpr this)), if_neg (by linarith)]

theorem neg_roundsTo {rnd : ℝ → ℝ} (hr : RoundsTo binary64 rnd) : RoundsTo binary64 (fun x => -rnd (-x)) := by
  refine ⟨fun x => binary64.neg_mem (hr.mem _), fun x y hy => ?_⟩
  have := hr.nearest (-x) (-y) (binary64.neg_mem hy)
  rw [show -x - rnd (-x) = -(x - -rnd (-x)) by ring, show -x - -y = -(x - y) by ring, abs_neg, abs_neg] at this
  exact this

theorem half_mem64 {x : ℝ} (hx : x ∈ binary64) (h : (2:ℝ) ^ (-1010 : ℤ) ≤ x) : x / 2 ∈ binary64 := by
  obtain ⟨k, hk⟩ := binary64.multiple_of (j := -1010) hx (h.trans (le_abs_self x))
  obtain ⟨m, e, hm, he, rfl⟩ := hx
  rcases eq_or_lt_of_le he with rfl | he'
  · exfalso
    have h1 : (m : ℝ) < 2 ^ 53 := by exact_mod_cast (abs_lt.mp hm).2
    have hp := binary64.two_zpow_pos (-1074)
    have h2 : (2:ℝ) ^ (-1010 : ℤ) = 2 ^ 64 * (2:ℝ) ^ (-1074 : ℤ) := by
      rw [show (-1010:ℤ) = 64 + (-1074) by norm_num, binary64.two_zpow_add]; norm_cast
    rw [h2] at h
    have := le_of_mul_le_mul_right h hp
    linarith
  · refine ⟨m, e - 1, hm, by omega, ?_⟩
    rw [show e - 1 = e + (-1) by ring, binary64.two_zpow_add, zpow_neg_one]; ring

/-- The computed energy is not negative if the energy is not. -/
theorem energyR_nonneg {rnd : ℝ → ℝ} (hr : RoundsTo binary64 rnd) (P : Planet) (hG : P.GM ∈ binary64) {r v : ℝ}
    (hrm : r ∈ binary64) (hvm : v ∈ binary64) (hr0 : 0 < r) (hx : (2:ℝ) ^ (-1000 : ℤ) ≤ P.GM / r)
    (h : P.GM / r ≤ v ^ 2 / 2) : 0 ≤ P.energyR rnd r v := by
  set x := P.GM / r with hxd
  have hneg : RoundsTo binary64 (fun x => -rnd (-x)) := neg_roundsTo hr
  have e1 : rnd (-1.0 * P.GM) = -P.GM := by
    rw [show (-1.0 : ℝ) * P.GM = -P.GM by norm_num]; exact hr.eq_self (binary64.neg_mem hG)
  set q := -rnd (-x) with hq
  have hqm : q ∈ binary64 := hneg.mem x
  set p := rnd (v ^ 2) with hp
  have hpm : p ∈ binary64 := hr.mem _
  have h999 : (2:ℝ) ^ (-999 : ℤ) = 2 * (2:ℝ) ^ (-1000 : ℤ) := by
    rw [show (-999:ℤ) = 1 + (-1000) by norm_num, binary64.two_zpow_add, zpow_one]
  have hpl : (2:ℝ) ^ (-999 : ℤ) ≤ p := hr.ge_of_ge (binary64.pow_mem (by norm_num)) (by linarith)
  have hpl' : (2:ℝ) ^ (-1010 : ℤ) ≤ p := le_trans (zpow_le_zpow_right₀ (by norm_num) (by norm_num)) hpl
  have hp2 := half_mem64 hpm hpl'
  have e2 : rnd (0.5 * p) = p / 2 := by
    rw [show (0.5:ℝ) * p = p / 2 by norm_num; ring]; exact hr.eq_self hp2
  have e3 : P.energyR rnd r v = rnd (p / 2 - q) := by
    simp only [Planet.energyR, e1, ← hp, e2]
    rw [show -P.GM / r = -x by rw [hxd]; ring, hq]
    congr 1; ring
  rw [e3]
  refine hr.ge_of_ge ⟨0, 0, by norm_num, by norm_num, by simp⟩ ?_
  by_contra hc
  push Not at hc
  have n1 := hr.nearest (v ^ 2) (2 * q) (binary64.dbl hqm)
  have n2 := hneg.nearest x (p / 2) hp2
  simp only [← hp] at n1
  simp only [← hq] at n2
  have c1 : v ^ 2 < 2 * q := by
    by_contra hcc
    push Not at hcc
    rw [abs_of_nonneg (by linarith), abs_of_nonneg (by linarith)] at n1
    linarith
  have c2 : 2 * v ^ 2 ≤ p + 2 * q := by
    rw [abs_of_neg (by linarith : v ^ 2 - 2 * q < 0)] at n1
    have := (le_abs_self _).trans n1
    linarith
  rw [abs_of_neg (by linarith : x - q < 0)] at n2
  have c3 : p / 2 < x := by
    by_contra hcc
    push Not at hcc
    rw [abs_of_nonpos (by linarith)] at n2
    linarith
  rw [abs_of_pos (by linarith)] at n2
  have c4 : v ^ 2 = 2 * x := by linarith
  have c5 : v ^ 2 ∈ binary64 := by
    refine binary64.sq_mem hG hrm hvm hr0.ne' ?_ ?_
    · have : (2:ℝ) ^ (-1021 : ℤ) ≤ (2:ℝ) ^ (-1000 : ℤ) := zpow_le_zpow_right₀ (by norm_num) (by norm_num)
      have := binary64.two_zpow_pos (-1000)
      linarith
    · rw [c4, hxd]; field_simp
  have c6 : p = v ^ 2 := hr.eq_self c5
  linarith

/-- The computed energy is negative if the energy is by more than rounding. -/
theorem energyR_neg {rnd : ℝ → ℝ} (hr : RoundsTo binary64 rnd) (P : Planet) (hG : P.GM ∈ binary64) {r v : ℝ}
    (hx : (2:ℝ) ^ (-1000 : ℤ) ≤ P.GM / r)
    (h : v ^ 2 / 2 ≤ (1 - 2⁻¹ ^ 51) * (P.GM / r)) : P.energyR rnd r v < 0 := by
  set x := P.GM / r with hxd
  have hneg : RoundsTo binary64 (fun x => -rnd (-x)) := neg_roundsTo hr
  have e1 : rnd (-1.0 * P.GM) = -P.GM := by
    rw [show (-1.0 : ℝ) * P.GM = -P.GM by norm_num]; exact hr.eq_self (binary64.neg_mem hG)
  set q := -rnd (-x) with hq
  have hqm : q ∈ binary64 := hneg.mem x
  set p := rnd (v ^ 2) with hp
  set s := rnd (0.5 * p) with hs
  have e3 : P.energyR rnd r v = rnd (s - q) := by
    simp only [Planet.energyR, e1, ← hp, ← hs]
    rw [show -P.GM / r = -x by rw [hxd]; ring, hq]
    congr 1; ring
  rw [e3]
  refine rnd_sub_neg hr (hr.mem _) hqm ?_
  have hx0 : 0 < x := lt_of_lt_of_le (binary64.two_zpow_pos _) hx
  have hql : (1 - 2⁻¹ ^ 53) * x ≤ q := by
    have := binary64.rel_error hneg (x := x) (by
      rw [abs_of_pos hx0]
      exact le_trans (zpow_le_zpow_right₀ (by norm_num) (by norm_num)) hx)
    rw [abs_of_pos hx0] at this
    have := (abs_le.mp this).1
    simp only [← hq] at this
    linarith
  have hql2 : (2:ℝ) ^ (-1000 : ℤ) ≤ q := hneg.ge_of_ge (binary64.pow_mem (by norm_num)) hx
  rcases lt_or_ge (v ^ 2) ((2:ℝ) ^ (-1005 : ℤ)) with hv | hv
  · have h1 : p ≤ (2:ℝ) ^ (-1005 : ℤ) := hr.le_of_le (binary64.pow_mem (by norm_num)) hv.le
    have h0 := binary64.two_zpow_pos (-1005)
    have h2 : s ≤ (2:ℝ) ^ (-1005 : ℤ) := hr.le_of_le (binary64.pow_mem (by norm_num)) (by
      rw [show (0.5:ℝ) * p = p / 2 by norm_num; ring]; linarith)
    have h3 : (2:ℝ) ^ (-1005 : ℤ) < (2:ℝ) ^ (-1000 : ℤ) := zpow_lt_zpow_right₀ (by norm_num) (by norm_num)
    linarith
  · have hv0 : 0 < v ^ 2 := lt_of_lt_of_le (binary64.two_zpow_pos _) hv
    have h1 : p ≤ (1 + 2⁻¹ ^ 53) * v ^ 2 := by
      have := binary64.rel_error hr (x := v ^ 2) (by
        rw [abs_of_pos hv0]
        exact le_trans (zpow_le_zpow_right₀ (by norm_num) (by norm_num)) hv)
      rw [abs_of_pos hv0] at this
      have := (abs_le.mp this).2
      simp only [← hp] at this
      linarith
    have hpl : (2:ℝ) ^ (-1005 : ℤ) ≤ p := hr.ge_of_ge (binary64.pow_mem (by norm_num)) hv
    have hpl' : (2:ℝ) ^ (-1010 : ℤ) ≤ p := le_trans (zpow_le_zpow_right₀ (by norm_num) (by norm_num)) hpl
    have h2 : s = p / 2 := by
      rw [hs, show (0.5:ℝ) * p = p / 2 by norm_num; ring]; exact hr.eq_self (half_mem64 (hr.mem _) hpl')
    have h3 : (1 + 2⁻¹ ^ 53) * (v ^ 2 / 2) ≤ (1 + 2⁻¹ ^ 53) * ((1 - 2⁻¹ ^ 51) * x) := by gcongr
    have h4 : ((1 + 2⁻¹ ^ 53) * (1 - 2⁻¹ ^ 51) : ℝ) < 1 - 2⁻¹ ^ 53 := by norm_num
    have h5 := mul_lt_mul_of_pos_right h4 hx0
    rw [h2]
    linarith

/-- **C133**, capture.  On a solution of doubles `isCaptured` looks at the same point as in exact arithmetic.  It never
reports capture with an energy of zero or more there, and reports capture if the kinetic energy is at most 1 - 2⁻⁵¹ of the
energy it takes to escape. -/
theorem C133_capture {rnd : ℝ → ℝ} (hr : RoundsTo binary64 rnd) (P : Planet) (hP : Spec.DoubleLimits P) (hG : P.GM ∈ binary64)
    (r v : List ℝ) (hrm : ∀ x ∈ r, x ∈ binary64) (hvm : ∀ x ∈ v, x ∈ binary64) (hlen : v.length = r.length)
    (hrp : ∀ x ∈ r, 0 < x ∧ (2:ℝ) ^ (-1000 : ℤ) ≤ P.GM / x) (idx : ℕ) (flag : ℤ)
    (hc : P.classifyTrajectory r = .ok (idx, flag)) (hi : 1 ≤ idx) :
    ∃ (ans : ℤ) (x w : ℝ), P.capturedR rnd r v = .ok ans ∧ r[idx - 1]? = some x ∧ v[idx - 1]? = some w ∧
      (ans = -1 ∨ ans = 1) ∧ (ans = -1 → w ^ 2 / 2 < P.GM / x) ∧
      (w ^ 2 / 2 ≤ (1 - 2⁻¹ ^ 51) * (P.GM / x) → ans = -1) := by
  have hle := classify_index_le hc
  have h1 : idx - 1 < r.length := by omega
  have h2 : idx - 1 < v.length := by omega
  set x := r[idx - 1] with hx
  set w := v[idx - 1] with hw
  have hxr : x ∈ r := List.getElem_mem h1
  have hwv : w ∈ v := List.getElem_mem h2
  refine ⟨if P.energyR rnd x w < 0 then -1 else 1, x, w, ?_, by simp [hx], by simp [hw], ?_, ?_, ?_⟩
  · have h3 : (List.zipWith (P.energyR rnd) (r.take idx) (v.take idx))[idx - 1]? = some (P.energyR rnd x w) := by
      rw [List.getElem?_zipWith, List.getElem?_take_of_lt (by omega), List.getElem?_take_of_lt (by omega)]
      simp [hx, hw, h1, h2]
    simp only [Planet.capturedR, C133_classification hr P hP r hrm, hc]
    simp only [bind, Except.bind, pyIndex, h3, pure, Except.pure]
  · split_ifs <;> simp
  · intro ha
    by_contra hcon
    push Not at hcon
    have := energyR_nonneg hr P hG (hrm x hxr) (hvm w hwv) (hrp x hxr).1 (hrp x hxr).2 hcon
    rw [if_neg (not_lt.mpr this)] at ha
    norm_num at ha
  · intro h
    rw [if_pos (energyR_neg hr P hG (hrp x hxr).2 h)]

theorem classify_single (P : Planet) (x : ℝ) (h1 : P.hTrap ≤ x - P.RP) (h2 : x - P.RP < P.hSkip) :
    P.classifyTrajectory [x] = .ok (1, 0) := by
  simp only [Planet.classifyTrajectory, Planet.computeH, List.map_cons, List.map_nil, pyMax, pyMin, bind, Except.bind,
    List.foldl_nil, pure, Except.pure]
  rw [if_neg (by intro h; linarith [h.2]), if_pos ⟨h1, h2⟩]
  simp

/-- **C133**, what cannot be had: capture can be missed.  50 km above Mars, at a speed a little below the speed of escape
(by less than 2⁻⁵³ of it), the energy is negative and computed as zero, however ties are rounded. -/
theorem C133_capture_missed (P : Planet) (hP : Planet.init "MARS" = .ok P) {rnd : ℝ → ℝ} (hr : RoundsTo binary64 rnd) :
    ∃ r ∈ binary64, ∃ v ∈ binary64, v ^ 2 / 2 < P.GM / r ∧ P.classifyTrajectory [r] = .ok (1, 0) ∧
      P.capturedR rnd [r] [v] = .ok 1 := by
  have hGM : P.GM = 42828370000000 := by simp [Planet.init] at hP; subst hP; norm_num [Planet.withScales]
  have hRP : P.RP = 3389500 := by simp [Planet.init] at hP; subst hP; norm_num [Planet.withScales]
  have hS : P.hSkip = 120000 := by simp [Planet.init] at hP; subst hP; norm_num [Planet.withScales]
  have hT : P.hTrap = 10000 := by simp [Planet.init] at hP; subst hP; norm_num [Planet.withScales]
  obtain ⟨hL, hG⟩ := C133_limits _ P hP
  have hrm : (3439509 : ℝ) ∈ binary64 := ⟨3439509, 0, by norm_num, by norm_num, by norm_num⟩
  have hvm : (2743483651767589 / 2 ^ 39 : ℝ) ∈ binary64 := ⟨2743483651767589, -39, by norm_num, by norm_num, by norm_num⟩
  have hc : P.classifyTrajectory [(3439509:ℝ)] = .ok (1, 0) :=
    classify_single P _ (by rw [hT, hRP]; norm_num) (by rw [hS, hRP]; norm_num)
  refine ⟨3439509, hrm, 2743483651767589 / 2 ^ 39, hvm, by rw [hGM]; norm_num, hc, ?_⟩
  have e1 : rnd (-1.0 * P.GM) = -P.GM := by
    rw [show (-1.0 : ℝ) * P.GM = -P.GM by norm_num]; exact hr.eq_self (binary64.neg_mem hG)
  have e2 : rnd (-P.GM / 3439509) = -(6685054774205690 / 2 ^ 29) := by
    have := binary64.round_eq (neg_roundsTo hr) 6685054774205690 (-29) (x := 42828370000000 / 3439509) (by norm_num)
      (by norm_num) (by norm_num) (by norm_num [abs_lt])
    rw [hGM, neg_div, ← neg_eq_iff_eq_neg, this]; norm_num
  have e3 : rnd ((2743483651767589 / 2 ^ 39) ^ 2) = 6685054774205690 / 2 ^ 28 := by
    rw [binary64.round_eq hr 6685054774205690 (-28) (by norm_num) (by norm_num) (by norm_num) (by norm_num [abs_lt])]
    norm_num
  have e4 : rnd (0.5 * (6685054774205690 / 2 ^ 28)) = 6685054774205690 / 2 ^ 29 := by
    rw [show (0.5 * (6685054774205690 / 2 ^ 28) : ℝ) = 6685054774205690 / 2 ^ 29 by norm_num]
    exact hr.eq_self ⟨6685054774205690, -29, by norm_num, by norm_num, by norm_num⟩
  have e5 : rnd 0 = 0 := hr.eq_self ⟨0, 0, by norm_num, by norm_num, by simp⟩
  have e6 : P.energyR rnd 3439509 (2743483651767589 / 2 ^ 39) = 0 := by
    simp only [Planet.energyR, e1, e2, e3, e4]
    rw [neg_add_cancel, e5]
  simp only [Planet.capturedR, C133_classification hr P hL [(3439509:ℝ)] (by simpa using hrm), hc]
  simp [bind, Except.bind, pyIndex, e6, pure, Except.pure]

/-- Case for `C133_classification`: flights over Mars that leave the atmosphere by the least amount a double can say, and
that end exactly at its edge. -/
example : ∃ (P : Planet) (rnd : ℝ → ℝ), Planet.init "MARS" = .ok P ∧ RoundsTo binary64 rnd ∧
    P.classifyTrajectoryR rnd [3449500, 3509500 + 1 / 2 ^ 31] = .ok (1, 1) ∧
    P.classifyTrajectoryR rnd [3449500, 3509500] = .ok (2, 0) := by
  obtain ⟨P, hP⟩ := (C01_planet_names "MARS").1.mpr (by simp [Spec.bodies])
  obtain ⟨rnd, hr⟩ := exists_roundsTo
  have hRP : P.RP = 3389500 := by simp [Planet.init] at hP; subst hP; norm_num [Planet.withScales]
  have hS : P.hSkip = 120000 := by simp [Planet.init] at hP; subst hP; norm_num [Planet.withScales]
  have hT : P.hTrap = 10000 := by simp [Planet.init] at hP; subst hP; norm_num [Planet.withScales]
  have m1 : (3449500 : ℝ) ∈ binary64 := ⟨3449500, 0, by norm_num, by norm_num, by norm_num⟩
  have m2 : (3509500 + 1 / 2 ^ 31 : ℝ) ∈ binary64 :=
    ⟨7536593862656001, -31, by norm_num, by norm_num, by norm_num⟩
  have m3 : (3509500 : ℝ) ∈ binary64 := ⟨3509500, 0, by norm_num, by norm_num, by norm_num⟩
  refine ⟨P, rnd, hP, hr, ?_, ?_⟩
  · rw [C133_classification hr P (C133_limits _ P hP).1 _ (by
      intro x hx; rcases List.mem_pair.mp hx with rfl | rfl <;> assumption)]
    norm_num [Planet.classifyTrajectory, Planet.computeH, pyMax, pyMin, bind, Except.bind, hRP, hS, hT, pure, Except.pure,
      argmaxBool, List.findIdx, List.findIdx.go]
  · rw [C133_classification hr P (C133_limits _ P hP).1 _ (by
      intro x hx; rcases List.mem_pair.mp hx with rfl | rfl <;> assumption)]
    norm_num [Planet.classifyTrajectory, Planet.computeH, pyMax, pyMin, bind, Except.bind, hRP, hS, hT, pure, Except.pure]

/-- Case for `C133_density`: Mars, at and next to the edge of the atmosphere. -/
example (P : Planet) (hP : Planet.init "MARS" = .ok P) {rnd : ℝ → ℝ} (hr : RoundsTo binary64 rnd) (atm : Atmosphere) :
    P.rhoR rnd atm 3509500 0 0 = atm.densityInt 120000 ∧ P.rhoR rnd atm (3509500 + 1 / 2 ^ 31) 0 0 = 0 := by
  have hRP : P.RP = 3389500 := by simp [Planet.init] at hP; subst hP; norm_num [Planet.withScales]
  have hS : P.hThres = 120000 := by simp [Planet.init] at hP; subst hP; norm_num [Planet.withScales]
  have m2 : (3509500 + 1 / 2 ^ 31 : ℝ) ∈ binary64 :=
    ⟨7536593862656001, -31, by norm_num, by norm_num, by norm_num⟩
  have m3 : (3509500 : ℝ) ∈ binary64 := ⟨3509500, 0, by norm_num, by norm_num, by norm_num⟩
  have hL := (C133_limits _ P hP).1
  refine ⟨?_, (C133_density hr P hL atm _ 0 0 m2).2.1 (by rw [hRP, hS]; norm_num)⟩
  rw [(C133_density hr P hL atm _ 0 0 m3).1 (by rw [hRP]; norm_num) (by rw [hRP, hS]; norm_num), hRP]
  norm_num

/-- Case for `C133_capture`: a vehicle 50 km above Mars at 4 km/s is captured, at 5 km/s it is not. -/
example (P : Planet) (hP : Planet.init "MARS" = .ok P) {rnd : ℝ → ℝ} (hr : RoundsTo binary64 rnd) :
    P.capturedR rnd [3439500] [4000] = .ok (-1) ∧ P.capturedR rnd [3439500] [5000] = .ok 1 := by
  have hGM : P.GM = 42828370000000 := by simp [Planet.init] at hP; subst hP; norm_num [Planet.withScales]
  have hRP : P.RP = 3389500 := by simp [Planet.init] at hP; subst hP; norm_num [Planet.withScales]
  have hS : P.hSkip = 120000 := by simp [Planet.init] at hP; subst hP; norm_num [Planet.withScales]
  have hT : P.hTrap = 10000 := by simp [Planet.init] at hP; subst hP; norm_num [Planet.withScales]
  obtain ⟨hL, hG⟩ := C133_limits _ P hP
  have hi : ∀ n : ℤ, |n| < 2 ^ 53 → (n : ℝ) ∈ binary64 := fun n hn => ⟨n, 0, hn, by norm_num, by simp⟩
  have m1 : (3439500 : ℝ) ∈ binary64 := by exact_mod_cast hi 3439500 (by norm_num)
  have m2 : (4000 : ℝ) ∈ binary64 := by exact_mod_cast hi 4000 (by norm_num)
  have m3 : (5000 : ℝ) ∈ binary64 := by exact_mod_cast hi 5000 (by norm_num)
  have hc : P.classifyTrajectory [(3439500:ℝ)] = .ok (1, 0) :=
    classify_single P _ (by rw [hT, hRP]; norm_num) (by rw [hS, hRP]; norm_num)
  have hb : ∀ x ∈ [(3439500:ℝ)], 0 < x ∧ (2:ℝ) ^ (-1000 : ℤ) ≤ P.GM / x := by
    intro x hx
    rw [List.mem_singleton.mp hx, hGM]
    refine ⟨by norm_num, le_trans (zpow_le_zpow_right₀ (by norm_num) (by norm_num : (-1000:ℤ) ≤ 0)) (by norm_num)⟩
  constructor
  · obtain ⟨ans, x, w, h1, h2, h3, -, -, h6⟩ := C133_capture hr P hL hG [3439500] [4000] (by simpa using m1)
      (by simpa using m2) rfl hb 1 0 hc le_rfl
    simp only [List.getElem?_cons_zero, Option.some.injEq, Nat.sub_self] at h2 h3
    rw [h1, h6 (by rw [← h2, ← h3, hGM]; norm_num)]
  · obtain ⟨ans, x, w, h1, h2, h3, h4, h5, -⟩ := C133_capture hr P hL hG [3439500] [5000] (by simpa using m1)
      (by simpa using m3) rfl hb 1 0 hc le_rfl
    simp only [List.getElem?_cons_zero, Option.some.injEq, Nat.sub_self] at h2 h3
    rcases h4 with h4 | h4
    · have := h5 h4
      rw [← h2, ← h3, hGM] at this
      norm_num at this
    · rw [h1, h4]

end AMAT.Props
