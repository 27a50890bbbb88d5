import Verif.Model.Visibility
import Verif.Spec.Sight
import Verif.Lemmas.Approach
import Verif.Lemmas.Frames

/-
Lines of sight.
-/

noncomputable section

open Classical

namespace AMAT

open Real

theorem V3.norm_pos_iff {a : V3} : 0 < V3.norm a ↔ a ≠ 0 :=
  ⟨fun h h0 => by rw [V3.norm_eq_zero.mpr h0] at h; exact lt_irrefl _ h, V3.norm_pos⟩

/-- The elevation computed from two non-zero vectors. -/
theorem sight_spec {u d : V3} (hu : u ≠ 0) (hd : d ≠ 0) :
    let S := sight (npUnit u) (npUnit d)
    0 ≤ S.elev ∧ S.elev ≤ 90 ∧ sin (S.elev * π / 180) = max 0 (V3.dot u d / (V3.norm u * V3.norm d)) ∧
      (S.visible = true ↔ 0 < V3.dot u d) := by
  have nu := V3.norm_pos hu; have nd := V3.norm_pos hd
  set c := V3.dot ((1 / V3.norm u) • u) ((1 / V3.norm d) • d) with hc
  have hce : c = V3.dot u d / (V3.norm u * V3.norm d) := by
    rw [hc, V3.dot_smul_left, V3.dot_smul_right]; field_simp
  have hb := V3.dot_unit_le (V3.unit_dot_self hu) (V3.unit_dot_self hd)
  rw [← hc] at hb
  have hpi := pi_pos
  have hS : sight (npUnit u) (npUnit d) =
      ⟨some (arccos c * 180 / π), max 0 (90 - arccos c * 180 / π), decide (max 0 (90 - arccos c * 180 / π) > 0)⟩ := by
    unfold sight
    rw [npUnit_some hu, npUnit_some hd]
    simp only [bind, Option.bind, pure]
    have : npArccos (V3.dot ((1 / V3.norm u) • u) ((1 / V3.norm d) • d)) = some (arccos c) := by
      rw [← hc]; exact npArccos_some hb
    simp only [this, Option.map, pyMax0]
  rw [hS]
  have e1 : 90 - arccos c * 180 / π = arcsin c * 180 / π := by
    rw [arccos_eq_pi_div_two_sub_arcsin]; field_simp; ring
  rw [e1]
  have hpos : 0 < arcsin c * 180 / π ↔ 0 < V3.dot u d := by
    have h0 : 0 < V3.dot u d ↔ 0 < arcsin c := by
      rw [arcsin_pos, hce, div_pos_iff_of_pos_right (by positivity)]
    rw [h0]
    constructor
    · intro h
      by_contra h'
      push Not at h'
      have : arcsin c * 180 / π ≤ 0 := div_nonpos_of_nonpos_of_nonneg (by linarith) hpi.le
      linarith
    · intro h; positivity
  refine ⟨le_max_left _ _, ?_, ?_, ?_⟩
  · refine max_le (by norm_num) ?_
    rw [div_le_iff₀ hpi]
    have := arcsin_le_pi_div_two c
    linarith
  · simp only
    rw [← hce]
    rcases le_total 0 c with h | h
    · rw [max_eq_right (show (0:ℝ) ≤ arcsin c * 180 / π by have := arcsin_nonneg.mpr h; positivity), max_eq_right h]
      rw [show arcsin c * 180 / π * π / 180 = arcsin c by field_simp, sin_arcsin hb.1 hb.2]
    · have : arcsin c * 180 / π ≤ 0 :=
        div_nonpos_of_nonpos_of_nonneg (by have := arcsin_nonpos.mpr h; linarith) hpi.le
      rw [max_eq_left this, max_eq_left h]; simp
  · simp only [decide_eq_true_eq, gt_iff_lt, lt_max_iff, lt_irrefl, false_or]
    exact hpos

theorem sight_none (u : Option V3) : sight u none = ⟨none, 0, false⟩ := by
  unfold sight; cases u <;> simp [bind, Option.bind, pyMax0]

theorem landerPos_eq (P : Planet) (lat lon : ℝ) :
    landerPos P lat lon = P.RP • Spec.up (lon * π / 180) (lat * π / 180) := by
  unfold landerPos Spec.up
  ext <;> simp <;> ring

theorem norm_lt_of_sq {a : V3} {c : ℝ} (hc : 0 < c) (h : V3.dot a a < c ^ 2) : V3.norm a < c := by
  unfold V3.norm; rw [sqrt_lt' hc]; exact h

theorem sq_lt_of_norm {a : V3} {c : ℝ} (h : V3.norm a < c) : V3.dot a a < c ^ 2 := by
  rw [← V3.norm_sq]
  exact pow_lt_pow_left₀ h (V3.norm_nonneg a) two_ne_zero

theorem dot_lt_of_norm_lt {a b : V3} (h : V3.norm a < V3.norm b) : V3.dot a a < V3.dot b b := by
  rw [← V3.norm_sq b]; exact sq_lt_of_norm h

theorem norm_lt_of_dot_lt {a b : V3} (h : V3.dot a a < V3.dot b b) : V3.norm a < V3.norm b := by
  unfold V3.norm; exact sqrt_lt_sqrt (V3.dot_self_nonneg a) h

theorem dot_self_pos {a : V3} (h : a ≠ 0) : 0 < V3.dot a a := by
  rw [← V3.norm_sq]; have := V3.norm_pos h; positivity

/-- The segment is blocked whenever the half-line test fires. -/
theorem blocked_of_test {RP : ℝ} (hRP : 0 < RP) {a T : V3} (hT : T ≠ 0)
    (h1 : V3.norm (V3.cross a T) < V3.norm T) (h2 : V3.dot a T < 0) :
    Spec.Blocked RP (RP • a) T := by
  have hTT := dot_self_pos hT
  have haa := V3.dot_self_nonneg a
  have h1 := dot_lt_of_norm_lt h1
  rw [V3.dot_cross_self] at h1
  set p := V3.dot a a with hp
  set q := V3.dot a T with hq
  set t := V3.dot T T with ht
  have hD : 0 < t - 2 * RP * q + RP ^ 2 * p := by nlinarith [mul_pos hRP (neg_pos.mpr h2), mul_nonneg (sq_nonneg RP) haa]
  set D := t - 2 * RP * q + RP ^ 2 * p with hDd
  refine ⟨(RP ^ 2 * p - RP * q) / D, ?_, ?_, ?_⟩
  · apply div_nonneg _ hD.le
    nlinarith [mul_pos hRP (neg_pos.mpr h2), mul_nonneg (sq_nonneg RP) haa]
  · rw [div_le_one hD]
    nlinarith [mul_pos hRP (neg_pos.mpr h2), mul_nonneg (sq_nonneg RP) haa]
  · apply norm_lt_of_sq hRP
    have key : ∀ s : ℝ, V3.dot (RP • a + s • (T - RP • a)) (RP • a + s • (T - RP • a)) =
        RP ^ 2 * p + 2 * s * (RP * q - RP ^ 2 * p) + s ^ 2 * D := by
      intro s
      rw [hDd, hp, hq, ht]
      simp only [V3.dot, V3.add_x, V3.add_y, V3.add_z, V3.sub_x, V3.sub_y, V3.sub_z, V3.smul_x, V3.smul_y, V3.smul_z]; ring
    rw [key]
    have : RP ^ 2 * p + 2 * ((RP ^ 2 * p - RP * q) / D) * (RP * q - RP ^ 2 * p) + ((RP ^ 2 * p - RP * q) / D) ^ 2 * D =
        RP ^ 2 * (p * t - q ^ 2) / D := by
      field_simp; rw [hDd]; ring
    rw [this, div_lt_iff₀ hD]
    have : RP ^ 2 * (p * t - q ^ 2) < RP ^ 2 * t := by
      apply mul_lt_mul_of_pos_left h1; positivity
    have : RP ^ 2 * t ≤ RP ^ 2 * D := by
      apply mul_le_mul_of_nonneg_left _ (sq_nonneg RP)
      nlinarith [mul_pos hRP (neg_pos.mpr h2), mul_nonneg (sq_nonneg RP) haa]
    linarith

/-- Outside the body, the half line is blocked exactly when the test fires. -/
theorem blockedAtInfinity_iff {RP : ℝ} (hRP : 0 < RP) {a T : V3} (hT : T ≠ 0) (ha : 1 ≤ V3.norm a) :
    Spec.BlockedAtInfinity RP (RP • a) T ↔ V3.norm (V3.cross a T) < V3.norm T ∧ V3.dot a T < 0 := by
  have hTT := dot_self_pos hT
  have haa : 1 ≤ V3.dot a a := by rw [← V3.norm_sq]; nlinarith
  have key : ∀ s : ℝ, V3.dot (RP • a + s • T) (RP • a + s • T) =
      RP ^ 2 * V3.dot a a + 2 * s * RP * V3.dot a T + s ^ 2 * V3.dot T T := by
    intro s
    simp only [V3.dot, V3.add_x, V3.add_y, V3.add_z, V3.smul_x, V3.smul_y, V3.smul_z]; ring
  have hC : V3.norm (V3.cross a T) < V3.norm T ↔ V3.dot a a * V3.dot T T - V3.dot a T ^ 2 < V3.dot T T := by
    rw [← V3.dot_cross_self]
    exact ⟨dot_lt_of_norm_lt, norm_lt_of_dot_lt⟩
  rw [hC]
  generalize V3.dot a a = p at *
  generalize V3.dot a T = q at *
  generalize V3.dot T T = t at *
  constructor
  · rintro ⟨s, hs, hlt⟩
    have h := sq_lt_of_norm hlt
    rw [key] at h
    have hR2 : 0 < RP ^ 2 := by positivity
    have h3 : RP ^ 2 ≤ RP ^ 2 * p := le_mul_of_one_le_right hR2.le haa
    have h4 : 2 * s * RP * q + s ^ 2 * t < 0 := by linarith
    have hq : q < 0 := by
      by_contra hq
      push Not at hq
      have : 0 ≤ 2 * s * RP * q + s ^ 2 * t := by positivity
      linarith
    refine ⟨?_, hq⟩
    have h5 : (RP ^ 2 * p + 2 * s * RP * q + s ^ 2 * t) * t < RP ^ 2 * t := mul_lt_mul_of_pos_right h hTT
    have h6 : RP ^ 2 * (p * t - q ^ 2) < RP ^ 2 * t := by nlinarith [sq_nonneg (s * t + RP * q)]
    exact lt_of_mul_lt_mul_left h6 hR2.le
  · rintro ⟨h1, h2⟩
    refine ⟨-(RP * q) / t, ?_, ?_⟩
    · apply div_nonneg _ hTT.le
      nlinarith
    · apply norm_lt_of_sq hRP
      rw [key]
      have : RP ^ 2 * p + 2 * (-(RP * q) / t) * RP * q + (-(RP * q) / t) ^ 2 * t = RP ^ 2 * (p * t - q ^ 2) / t := by
        field_simp; ring
      rw [this, div_lt_iff₀ hTT]
      apply mul_lt_mul_of_pos_left h1; positivity

/-- A blocked segment that the test does not report lies in the parallax sliver. -/
theorem blocked_sliver {RP : ℝ} (hRP : 0 < RP) {a T : V3} (ha : 1 ≤ V3.norm a)
    (hb : Spec.Blocked RP (RP • a) T) :
    V3.norm (V3.cross a T) < V3.norm T + RP * V3.norm a ∧ V3.dot a T < RP * V3.norm a ^ 2 := by
  obtain ⟨s, hs0, hs1, hlt⟩ := hb
  have haa : 1 ≤ V3.dot a a := by rw [← V3.norm_sq]; nlinarith
  have hR2 : 0 < RP ^ 2 := by positivity
  have h := sq_lt_of_norm hlt
  constructor
  · have hcr : RP • V3.cross a T = V3.cross (RP • a + s • (T - RP • a)) (T - RP • a) := by
      ext <;> simp only [V3.cross, V3.add_x, V3.add_y, V3.add_z, V3.sub_x, V3.sub_y, V3.sub_z, V3.smul_x, V3.smul_y,
        V3.smul_z] <;> ring
    have hle : ∀ x y : V3, V3.norm (V3.cross x y) ≤ V3.norm x * V3.norm y := by
      intro x y
      have h1 : V3.norm (V3.cross x y) ^ 2 ≤ (V3.norm x * V3.norm y) ^ 2 := by
        rw [mul_pow, V3.norm_sq, V3.norm_sq, V3.norm_sq, V3.dot_cross_self]; nlinarith [sq_nonneg (V3.dot x y)]
      exact (abs_le_of_sq_le_sq' h1 (mul_nonneg (V3.norm_nonneg _) (V3.norm_nonneg _))).2
    have h1 := hle (RP • a + s • (T - RP • a)) (T - RP • a)
    rw [← hcr, V3.norm_smul, abs_of_pos hRP] at h1
    have htri : V3.norm (T - RP • a) ≤ V3.norm T + RP * V3.norm a := by
      have hc := (abs_le.mp (V3.abs_dot_le T a)).1
      have : V3.norm (T - RP • a) ^ 2 ≤ (V3.norm T + RP * V3.norm a) ^ 2 := by
        rw [V3.norm_sq]
        have e : V3.dot (T - RP • a) (T - RP • a) = V3.dot T T - 2 * RP * V3.dot T a + RP ^ 2 * V3.dot a a := by
          simp only [V3.dot, V3.sub_x, V3.sub_y, V3.sub_z, V3.smul_x, V3.smul_y, V3.smul_z]; ring
        rw [e, ← V3.norm_sq, ← V3.norm_sq]
        nlinarith
      exact (abs_le_of_sq_le_sq' this (by have := V3.norm_nonneg T; have := V3.norm_nonneg a; positivity)).2
    by_cases hz : V3.norm (T - RP • a) = 0
    · rw [hz, mul_zero] at h1
      have hx : V3.norm (V3.cross a T) ≤ 0 := by
        by_contra hx; push Not at hx; nlinarith
      have := V3.norm_nonneg T
      nlinarith
    · have hpos : 0 < V3.norm (T - RP • a) := lt_of_le_of_ne (V3.norm_nonneg _) (Ne.symm hz)
      have h2 : RP * V3.norm (V3.cross a T) < RP * V3.norm (T - RP • a) :=
        lt_of_le_of_lt h1 (mul_lt_mul_of_pos_right hlt hpos)
      have := lt_of_mul_lt_mul_left h2 hRP.le
      linarith
  · rw [V3.norm_sq]
    have key : V3.dot (RP • a + s • (T - RP • a)) (RP • a + s • (T - RP • a)) =
        RP ^ 2 * V3.dot a a + 2 * s * RP * (V3.dot a T - RP * V3.dot a a) + s ^ 2 * V3.dot (T - RP • a) (T - RP • a) := by
      simp only [V3.dot, V3.add_x, V3.add_y, V3.add_z, V3.sub_x, V3.sub_y, V3.sub_z, V3.smul_x, V3.smul_y, V3.smul_z]; ring
    rw [key] at h
    by_contra hq
    push Not at hq
    have h3 : RP ^ 2 ≤ RP ^ 2 * V3.dot a a := le_mul_of_one_le_right hR2.le haa
    have := V3.dot_self_nonneg (T - RP • a)
    have h4 : 0 ≤ 2 * s * RP * (V3.dot a T - RP * V3.dot a a) := mul_nonneg (by positivity) (by linarith)
    have h5 : 0 ≤ s ^ 2 * V3.dot (T - RP • a) (T - RP • a) := by positivity
    linarith

end AMAT
