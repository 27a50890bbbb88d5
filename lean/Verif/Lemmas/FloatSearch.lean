import Mathlib.Data.Set.Card
import Mathlib.Data.Set.Finite.Lattice
import Mathlib.Order.Interval.Set.UnorderedInterval
import Mathlib.Order.Interval.Finset.Defs
import Mathlib.Data.Int.Interval
import Mathlib.Algebra.Order.Floor.Ring
import Mathlib.Tactic.Linarith
import Mathlib.Tactic.NormNum
import Verif.Model.FloatSearch
import Verif.Lemmas.Bisect

/-
Rounding to nearest, double-precision numbers, and the rounded bisection loop.
-/

noncomputable section

namespace AMAT

open Set

namespace RoundsTo

variable {F : Set ℝ} {rnd : ℝ → ℝ}

theorem eq_self (h : RoundsTo F rnd) {x : ℝ} (hx : x ∈ F) : rnd x = x := by
  have := h.nearest x x hx
  simp only [sub_self, abs_zero, abs_nonpos_iff] at this
  linarith

theorem mono (h : RoundsTo F rnd) : Monotone rnd := by
  intro x y hxy
  by_contra hc
  push Not at hc
  rcases eq_or_lt_of_le hxy with rfl | hlt
  · exact lt_irrefl _ hc
  have h1 := h.nearest x _ (h.mem y)
  have h2 := h.nearest y _ (h.mem x)
  have h1' := sq_le_sq.mpr h1
  have h2' := sq_le_sq.mpr h2
  nlinarith

theorem le_of_le (h : RoundsTo F rnd) {x y : ℝ} (hy : y ∈ F) (hxy : x ≤ y) : rnd x ≤ y :=
  (h.mono hxy).trans (h.eq_self hy).le

theorem ge_of_ge (h : RoundsTo F rnd) {x y : ℝ} (hy : y ∈ F) (hxy : y ≤ x) : y ≤ rnd x :=
  (h.eq_self hy).ge.trans (h.mono hxy)

/-- The midpoint of two representable numbers with a representable number strictly between them does not round to
either end. -/
theorem mid_strict (h : RoundsTo F rnd) {a b z : ℝ} (hz : z ∈ F) (h1 : a < z) (h2 : z < b)
    {x : ℝ} (hx : 2 * x = a + b) : a < rnd x ∧ rnd x < b := by
  have hn := h.nearest x z hz
  have h3 : |x - z| < b - x := by rw [abs_lt]; constructor <;> linarith
  have h4 := abs_lt.mp (lt_of_le_of_lt hn h3)
  constructor <;> linarith [h4.1, h4.2]

end RoundsTo

/-- What the search needs of the representable numbers besides rounding to nearest: doubling is exact, and halving a
rounded sum is exact unless the sum itself is. -/
structure Halves (F : Set ℝ) (rnd : ℝ → ℝ) : Prop where
  dbl : ∀ x ∈ F, 2 * x ∈ F
  half : ∀ x ∈ F, ∀ y ∈ F, rnd (x + y) / 2 ∈ F ∨ x + y ∈ F

/-- The midpoint as the code computes it. -/
def midR (rnd : ℝ → ℝ) (lo hi : ℝ) : ℝ := rnd (0.5 * rnd (lo + hi))

theorem half_lit (x : ℝ) : (0.5 : ℝ) * x = x / 2 := by norm_num; ring

theorem midR_comm (rnd : ℝ → ℝ) (lo hi : ℝ) : midR rnd lo hi = midR rnd hi lo := by
  unfold midR; rw [add_comm]

theorem midR_mem {F rnd} (h : RoundsTo F rnd) (lo hi : ℝ) : midR rnd lo hi ∈ F := h.mem _

theorem midR_between {F rnd} (h : RoundsTo F rnd) (hh : Halves F rnd) {lo hi : ℝ} (hlo : lo ∈ F) (hhi : hi ∈ F)
    (hle : lo ≤ hi) : lo ≤ midR rnd lo hi ∧ midR rnd lo hi ≤ hi := by
  unfold midR
  have h1 := h.ge_of_ge (x := lo + hi) (hh.dbl lo hlo) (by linarith)
  have h2 := h.le_of_le (x := lo + hi) (hh.dbl hi hhi) (by linarith)
  exact ⟨h.ge_of_ge hlo (by rw [half_lit]; linarith), h.le_of_le hhi (by rw [half_lit]; linarith)⟩

theorem midR_strict {F rnd} (h : RoundsTo F rnd) (hh : Halves F rnd) {lo hi z : ℝ} (hlo : lo ∈ F) (hhi : hi ∈ F)
    (hz : z ∈ F) (h1 : lo < z) (h2 : z < hi) : lo < midR rnd lo hi ∧ midR rnd lo hi < hi := by
  unfold midR
  rcases hh.half lo hlo hi hhi with hF | hF
  · rw [half_lit, h.eq_self hF]
    have := h.mid_strict (a := 2 * lo) (b := 2 * hi) (hh.dbl z hz) (by linarith) (by linarith)
      (x := lo + hi) (by ring)
    constructor <;> linarith [this.1, this.2]
  · rw [half_lit, h.eq_self hF]
    exact h.mid_strict hz h1 h2 (by ring)

theorem midR_uIcc {F rnd} (h : RoundsTo F rnd) (hh : Halves F rnd) {lo hi : ℝ} (hlo : lo ∈ F) (hhi : hi ∈ F) :
    midR rnd lo hi ∈ uIcc lo hi := by
  rw [mem_uIcc]
  rcases le_total lo hi with hle | hle
  · exact Or.inl (midR_between h hh hlo hhi hle)
  · rw [midR_comm]; exact Or.inr (midR_between h hh hhi hlo hle)

theorem midR_ne {F rnd} (h : RoundsTo F rnd) (hh : Halves F rnd) {lo hi z : ℝ} (hlo : lo ∈ F) (hhi : hi ∈ F)
    (hz : z ∈ F) (hzu : z ∈ uIcc lo hi) (h1 : z ≠ lo) (h2 : z ≠ hi) : midR rnd lo hi ≠ lo ∧ midR rnd lo hi ≠ hi := by
  rw [mem_uIcc] at hzu
  rcases hzu with ⟨a, b⟩ | ⟨a, b⟩
  · have := midR_strict h hh hlo hhi hz (lt_of_le_of_ne a (Ne.symm h1)) (lt_of_le_of_ne b h2)
    exact ⟨this.1.ne', this.2.ne⟩
  · have := midR_strict h hh hhi hlo hz (lt_of_le_of_ne a (Ne.symm h2)) (lt_of_le_of_ne b h1)
    rw [midR_comm]
    exact ⟨this.2.ne, this.1.ne'⟩

/-- The rounded loop ends as soon as the tolerance is not finer than the representable numbers of the bracket. -/
theorem bisectLoopR_spec {F : Set ℝ} {rnd : ℝ → ℝ} (h : RoundsTo F rnd) (hh : Halves F rnd) (H : Test) (tol : ℝ)
    (f : ℝ → ℤ) (hf : ∀ g, IsSign (f g)) :
    ∀ (n : ℕ) (V : Vehicle) (lo hi : ℝ) (limit : Option ℝ), lo ∈ F → hi ∈ F →
      (uIcc lo hi ∩ F).Finite → (uIcc lo hi ∩ F).ncard ≤ n →
      (∀ x ∈ uIcc lo hi ∩ F, ∀ y ∈ uIcc lo hi ∩ F, |rnd (y - x)| > tol →
        ∃ z ∈ F, z ∈ uIcc x y ∧ z ≠ x ∧ z ≠ y) →
      (∀ g ∈ uIcc lo hi ∩ F, H (V.setGamma g) = .ok (f g)) → f lo ≠ f hi →
      ∃ lo' ∈ F, ∃ hi' ∈ F, ∃ y, (∀ k, n + 1 ≤ k → bisectLoopR rnd H tol k V lo hi limit =
          some (if |rnd (hi - lo)| > tol then V.setGamma y else V,
            .ok (if |rnd (hi - lo)| > tol then some hi' else limit))) ∧
        (¬ |rnd (hi - lo)| > tol → lo' = lo ∧ hi' = hi) ∧
        uIcc lo' hi' ⊆ uIcc lo hi ∧ |rnd (hi' - lo')| ≤ tol ∧ f lo' = f lo ∧ f hi' = f hi := by
  intro n
  induction n with
  | zero =>
      intro V lo hi limit hlo hhi hfin hcard
      have : (uIcc lo hi ∩ F) = ∅ := (Set.ncard_eq_zero hfin).mp (by omega)
      have hmem : lo ∈ uIcc lo hi ∩ F := ⟨left_mem_uIcc, hlo⟩
      rw [this] at hmem
      exact absurd hmem (by simp)
  | succ n ih =>
      intro V lo hi limit hlo hhi hfin hcard hres hH hne
      by_cases hc : |rnd (hi - lo)| > tol
      swap
      · refine ⟨lo, hlo, hi, hhi, 0, ?_, fun _ => ⟨rfl, rfl⟩, subset_rfl, by simpa using hc, rfl, rfl⟩
        intro k hk
        obtain ⟨k, rfl⟩ : ∃ m, k = m + 1 := ⟨k - 1, by omega⟩
        unfold bisectLoopR
        simp only [if_neg hc]
      have hmid : rnd (0.5 * rnd (lo + hi)) = midR rnd lo hi := rfl
      set mid := midR rnd lo hi with hm0
      have hmF : mid ∈ F := midR_mem h lo hi
      have hm : mid ∈ uIcc lo hi := midR_uIcc h hh hlo hhi
      obtain ⟨z, hzF, hzu, hz1, hz2⟩ := hres lo ⟨left_mem_uIcc, hlo⟩ hi ⟨right_mem_uIcc, hhi⟩ hc
      obtain ⟨hml, hmh⟩ := midR_ne h hh hlo hhi hzF hzu hz1 hz2
      have h1 := hH lo ⟨left_mem_uIcc, hlo⟩
      have h2 := hH mid ⟨hm, hmF⟩
      have h3 := hH hi ⟨right_mem_uIcc, hhi⟩
      have sub1 : uIcc lo mid ⊆ uIcc lo hi := uIcc_subset_uIcc_left hm
      have sub2 : uIcc mid hi ⊆ uIcc lo hi := uIcc_subset_uIcc_right hm
      have hi1 : hi ∉ uIcc lo mid := by
        intro hx
        rw [mem_uIcc] at hx hm
        rcases hx with ⟨a, b⟩ | ⟨a, b⟩ <;> rcases hm with ⟨c, d⟩ | ⟨c, d⟩
        · exact hmh (le_antisymm d b)
        · exact hmh (le_antisymm (d.trans a) b)
        · exact hmh (le_antisymm d (by linarith))
        · exact hmh (le_antisymm a c)
      have lo1 : lo ∉ uIcc mid hi := by
        intro hx
        rw [mem_uIcc] at hx hm
        rcases hx with ⟨a, b⟩ | ⟨a, b⟩ <;> rcases hm with ⟨c, d⟩ | ⟨c, d⟩
        · exact hml (le_antisymm a c)
        · exact hml (le_antisymm a (by linarith))
        · exact hml (le_antisymm (by linarith) c)
        · exact hml (le_antisymm d b)
      have card1 : (uIcc lo mid ∩ F).ncard ≤ n := by
        have : (uIcc lo mid ∩ F).ncard < (uIcc lo hi ∩ F).ncard := by
          apply Set.ncard_lt_ncard _ hfin
          refine ⟨inter_subset_inter_left _ sub1, fun hs => hi1 (hs ⟨right_mem_uIcc, hhi⟩).1⟩
        omega
      have card2 : (uIcc mid hi ∩ F).ncard ≤ n := by
        have : (uIcc mid hi ∩ F).ncard < (uIcc lo hi ∩ F).ncard := by
          apply Set.ncard_lt_ncard _ hfin
          refine ⟨inter_subset_inter_left _ sub2, fun hs => lo1 (hs ⟨left_mem_uIcc, hlo⟩).1⟩
        omega
      by_cases ha : f lo * f mid < 0
      · have hne' := (sign_mul_neg (hf lo) (hf mid)).mp ha
        have hmh' : f mid = f hi := sign_eq (hf lo) (hf mid) (hf hi) hne' hne
        obtain ⟨lo', l1, hi', l2, y, e, e2, e3, e4, e5, e6⟩ := ih (V.setGamma hi) lo mid (some mid) hlo hmF
          (hfin.subset (inter_subset_inter_left _ sub1)) card1
          (fun x hx y hy => hres x ⟨sub1 hx.1, hx.2⟩ y ⟨sub1 hy.1, hy.2⟩)
          (fun g hg => by rw [setGamma_setGamma]; exact hH g ⟨sub1 hg.1, hg.2⟩) hne'
        refine ⟨lo', l1, hi', l2, if |rnd (mid - lo)| > tol then y else hi, ?_, fun h => absurd hc h, e3.trans sub1,
          e4, e5, e6.trans hmh'⟩
        intro k hk
        obtain ⟨k, rfl⟩ : ∃ m, k = m + 1 := ⟨k - 1, by omega⟩
        have e := e k (by omega)
        unfold bisectLoopR
        simp only [if_pos hc, hmid, h1, setGamma_setGamma, h2, h3, if_pos ha, e]
        by_cases hd : |rnd (mid - lo)| > tol
        · simp only [if_pos hd]
        · simp only [if_neg hd, (e2 hd).2]
      · have heq : f lo = f mid := by
          by_contra h; exact ha ((sign_mul_neg (hf lo) (hf mid)).mpr h)
        have hne' : f mid ≠ f hi := heq ▸ hne
        have hb := (sign_mul_neg (hf mid) (hf hi)).mpr hne'
        obtain ⟨lo', l1, hi', l2, y, e, e2, e3, e4, e5, e6⟩ := ih (V.setGamma hi) mid hi (some hi) hmF hhi
          (hfin.subset (inter_subset_inter_left _ sub2)) card2
          (fun x hx y hy => hres x ⟨sub2 hx.1, hx.2⟩ y ⟨sub2 hy.1, hy.2⟩)
          (fun g hg => by rw [setGamma_setGamma]; exact hH g ⟨sub2 hg.1, hg.2⟩) hne'
        refine ⟨lo', l1, hi', l2, if |rnd (hi - mid)| > tol then y else hi, ?_, fun h => absurd hc h, e3.trans sub2,
          e4, e5.trans heq.symm, e6⟩
        intro k hk
        obtain ⟨k, rfl⟩ : ∃ m, k = m + 1 := ⟨k - 1, by omega⟩
        have e := e k (by omega)
        unfold bisectLoopR
        simp only [if_pos hc, hmid, h1, setGamma_setGamma, h2, h3, if_neg ha, if_pos hb, e]
        by_cases hd : |rnd (hi - mid)| > tol
        · simp only [if_pos hd]
        · simp only [if_neg hd, (e2 hd).2]

/-- If all representable numbers of the bracket are farther apart than the tolerance the loop never ends. -/
theorem bisectLoopR_diverges {F : Set ℝ} {rnd : ℝ → ℝ} (h : RoundsTo F rnd) (hh : Halves F rnd) (H : Test) (tol : ℝ)
    (f : ℝ → ℤ) (hf : ∀ g, IsSign (f g)) :
    ∀ (k : ℕ) (V : Vehicle) (lo hi : ℝ) (limit : Option ℝ), lo ∈ F → hi ∈ F →
      (∀ x ∈ uIcc lo hi ∩ F, ∀ y ∈ uIcc lo hi ∩ F, x ≠ y → |rnd (y - x)| > tol) →
      (∀ g ∈ uIcc lo hi ∩ F, H (V.setGamma g) = .ok (f g)) → f lo ≠ f hi →
      bisectLoopR rnd H tol k V lo hi limit = none := by
  intro k
  induction k with
  | zero => intros; rfl
  | succ k ih =>
      intro V lo hi limit hlo hhi hgap hH hne
      have hlh : lo ≠ hi := fun h => hne (by rw [h])
      have hc := hgap lo ⟨left_mem_uIcc, hlo⟩ hi ⟨right_mem_uIcc, hhi⟩ hlh
      have hmid : rnd (0.5 * rnd (lo + hi)) = midR rnd lo hi := rfl
      have hmF : midR rnd lo hi ∈ F := midR_mem h lo hi
      have hm : midR rnd lo hi ∈ uIcc lo hi := midR_uIcc h hh hlo hhi
      have h1 := hH lo ⟨left_mem_uIcc, hlo⟩
      have h2 := hH _ ⟨hm, hmF⟩
      have h3 := hH hi ⟨right_mem_uIcc, hhi⟩
      have sub1 : uIcc lo (midR rnd lo hi) ⊆ uIcc lo hi := uIcc_subset_uIcc_left hm
      have sub2 : uIcc (midR rnd lo hi) hi ⊆ uIcc lo hi := uIcc_subset_uIcc_right hm
      unfold bisectLoopR
      simp only [if_pos hc, hmid, h1, setGamma_setGamma, h2, h3]
      split_ifs with ha hb
      · exact ih _ _ _ _ hlo hmF (fun x hx y hy => hgap x ⟨sub1 hx.1, hx.2⟩ y ⟨sub1 hy.1, hy.2⟩)
          (fun g hg => by rw [setGamma_setGamma]; exact hH g ⟨sub1 hg.1, hg.2⟩)
          ((sign_mul_neg (hf _) (hf _)).mp ha)
      · exact ih _ _ _ _ hmF hhi (fun x hx y hy => hgap x ⟨sub2 hx.1, hx.2⟩ y ⟨sub2 hy.1, hy.2⟩)
          (fun g hg => by rw [setGamma_setGamma]; exact hH g ⟨sub2 hg.1, hg.2⟩)
          ((sign_mul_neg (hf _) (hf _)).mp hb)
      · exact ih _ _ _ _ hlo hhi hgap (fun g hg => by rw [setGamma_setGamma]; exact hH g hg) hne

/-! ### double precision -/

namespace binary64

theorem two_zpow_pos (e : ℤ) : (0 : ℝ) < (2 : ℝ) ^ e := zpow_pos (by norm_num) e

theorem two_zpow_add (a b : ℤ) : (2 : ℝ) ^ (a + b) = (2 : ℝ) ^ a * (2 : ℝ) ^ b := zpow_add₀ (by norm_num) a b

theorem dbl {x : ℝ} (hx : x ∈ binary64) : 2 * x ∈ binary64 := by
  obtain ⟨m, e, hm, he, rfl⟩ := hx
  exact ⟨m, e + 1, hm, by omega, by rw [two_zpow_add, zpow_one]; ring⟩

theorem neg_mem {x : ℝ} (hx : x ∈ binary64) : -x ∈ binary64 := by
  obtain ⟨m, e, hm, he, rfl⟩ := hx
  exact ⟨-m, e, by rwa [abs_neg], he, by push_cast; ring⟩

/-- Multiples of `2^e` of magnitude up to `2^(e+53)`. -/
theorem grid_mem {m e : ℤ} (hm : |m| ≤ 2 ^ 53) (he : -1074 ≤ e) : (m : ℝ) * (2 : ℝ) ^ e ∈ binary64 := by
  rcases lt_or_eq_of_le hm with h | h
  · exact ⟨m, e, h, he, rfl⟩
  · rcases abs_eq (by norm_num : (0:ℤ) ≤ 2 ^ 53) |>.mp h with rfl | rfl
    · exact ⟨2 ^ 52, e + 1, by norm_num, by omega, by rw [two_zpow_add, zpow_one]; push_cast; ring⟩
    · exact ⟨-2 ^ 52, e + 1, by norm_num, by omega, by rw [two_zpow_add, zpow_one]; push_cast; ring⟩

/-- Powers of two. -/
theorem pow_mem {e : ℤ} (he : -1074 ≤ e) : (2 : ℝ) ^ e ∈ binary64 := ⟨1, e, by norm_num, he, by simp⟩

/-- All double-precision numbers are multiples of `2^-1074`. -/
theorem multiple {x : ℝ} (hx : x ∈ binary64) : ∃ k : ℤ, x = (k : ℝ) * (2 : ℝ) ^ (-1074 : ℤ) := by
  obtain ⟨m, e, hm, he, rfl⟩ := hx
  obtain ⟨n, hn⟩ : ∃ n : ℕ, e = n + (-1074) := ⟨(e + 1074).toNat, by omega⟩
  refine ⟨m * 2 ^ n, ?_⟩
  rw [hn, two_zpow_add, zpow_natCast]
  push_cast
  ring

/-- A bracket contains finitely many double-precision numbers. -/
theorem finite (a b : ℝ) : (uIcc a b ∩ binary64).Finite := by
  set s : ℝ := (2 : ℝ) ^ (-1074 : ℤ) with hs
  have hsp : 0 < s := two_zpow_pos _
  refine ((Set.finite_Icc ⌊min a b / s⌋ ⌈max a b / s⌉).image (fun k : ℤ => (k : ℝ) * s)).subset ?_
  rintro x ⟨hx, hF⟩
  obtain ⟨k, rfl⟩ := multiple hF
  rw [← hs] at hx ⊢
  rw [uIcc, Set.mem_Icc] at hx
  have h1 : min a b / s ≤ k := by rw [div_le_iff₀ hsp]; exact hx.1
  have h2 : (k : ℝ) ≤ max a b / s := by rw [le_div_iff₀ hsp]; exact hx.2
  refine ⟨k, ⟨?_, ?_⟩, rfl⟩
  · exact_mod_cast (Int.floor_le _).trans h1
  · exact_mod_cast h2.trans (Int.le_ceil _)

/-- Halving a rounded sum is exact unless the sum is. -/
theorem halves {rnd : ℝ → ℝ} (h : RoundsTo binary64 rnd) : Halves binary64 rnd := by
  refine ⟨fun x hx => dbl hx, fun x hx y hy => ?_⟩
  obtain ⟨m, e, hm, he, hs⟩ := h.mem (x + y)
  by_cases he' : -1073 ≤ e
  · refine Or.inl ⟨m, e - 1, hm, by omega, ?_⟩
    rw [hs, sub_eq_add_neg, two_zpow_add]
    norm_num
    ring
  · have he2 : e = -1074 := by omega
    subst he2
    right
    obtain ⟨k, hk⟩ := multiple hx
    obtain ⟨l, hl⟩ := multiple hy
    have hsum : x + y = ((k + l : ℤ) : ℝ) * (2 : ℝ) ^ (-1074 : ℤ) := by rw [hk, hl]; push_cast; ring
    by_cases hb : |k + l| ≤ 2 ^ 53
    · rw [hsum]; exact grid_mem hb (by norm_num)
    · exfalso
      push Not at hb
      have hp := two_zpow_pos (-1074)
      have hm' := abs_lt.mp hm
      rcases lt_abs.mp hb with hb | hb
      · have h1 := h.ge_of_ge (x := x + y) (grid_mem (m := 2 ^ 53) (e := -1074) (by norm_num) (by norm_num))
          (by rw [hsum]; gcongr)
        rw [hs] at h1
        have := le_of_mul_le_mul_right h1 hp
        have : (2 ^ 53 : ℤ) ≤ m := by exact_mod_cast this
        omega
      · have h1 := h.le_of_le (x := x + y) (grid_mem (m := -2 ^ 53) (e := -1074) (by norm_num) (by norm_num))
          (by rw [hsum]; gcongr; linarith)
        rw [hs] at h1
        have := le_of_mul_le_mul_right h1 hp
        have : m ≤ (-2 ^ 53 : ℤ) := by exact_mod_cast this
        omega

/-- Between two double-precision numbers of magnitude up to `2^(e+53)` that are more than `2^e` apart there is
another one. -/
theorem exists_between {e : ℤ} (he : -1074 ≤ e) {x y : ℝ} (hx : |x| ≤ (2 : ℝ) ^ (e + 53))
    (hy : |y| ≤ (2 : ℝ) ^ (e + 53)) (hgap : x + (2 : ℝ) ^ e < y) : ∃ z ∈ binary64, x < z ∧ z < y := by
  set s : ℝ := (2 : ℝ) ^ e with hs
  have hsp : 0 < s := two_zpow_pos _
  have hpow : (2 : ℝ) ^ (e + 53) = 2 ^ 53 * s := by rw [two_zpow_add]; norm_num; ring
  rw [hpow] at hx hy
  have hx' := abs_le.mp hx
  have hy' := abs_le.mp hy
  have h1 : x < ((⌊x / s⌋ + 1 : ℤ) : ℝ) * s := by
    rw [← div_lt_iff₀ hsp]; push_cast; exact Int.lt_floor_add_one _
  have h2 : ((⌊x / s⌋ + 1 : ℤ) : ℝ) * s < y := by
    have : (⌊x / s⌋ : ℝ) * s ≤ x := by rw [← le_div_iff₀ hsp]; exact Int.floor_le _
    push_cast
    linarith
  refine ⟨_, grid_mem ?_ he, h1, h2⟩
  rw [abs_le]
  constructor
  · have : (-2 ^ 53 : ℝ) < ((⌊x / s⌋ + 1 : ℤ) : ℝ) := by
      by_contra hc
      push Not at hc
      nlinarith
    have : (-2 ^ 53 : ℤ) < (⌊x / s⌋ + 1 : ℤ) := by exact_mod_cast this
    omega
  · have : ((⌊x / s⌋ + 1 : ℤ) : ℝ) < 2 ^ 53 := by
      by_contra hc
      push Not at hc
      nlinarith
    have : (⌊x / s⌋ + 1 : ℤ) < 2 ^ 53 := by exact_mod_cast this
    omega

/-- Double-precision numbers of magnitude at least `2^j` are multiples of `2^(j-52)`. -/
theorem multiple_of {j : ℤ} {x : ℝ} (hx : x ∈ binary64) (hj : (2 : ℝ) ^ j ≤ |x|) :
    ∃ k : ℤ, x = (k : ℝ) * (2 : ℝ) ^ (j - 52) := by
  obtain ⟨m, e, hm, he, rfl⟩ := hx
  have hp := two_zpow_pos e
  have hlt : (2 : ℝ) ^ j < (2 : ℝ) ^ (53 + e) := by
    refine lt_of_le_of_lt hj ?_
    rw [abs_mul, abs_of_pos hp, two_zpow_add]
    have : |(m : ℝ)| < 2 ^ 53 := by exact_mod_cast hm
    have : |(m : ℝ)| * (2 : ℝ) ^ e < 2 ^ 53 * (2 : ℝ) ^ e := mul_lt_mul_of_pos_right this hp
    simpa using this
  have hje : j < 53 + e := (zpow_lt_zpow_iff_right₀ (by norm_num)).mp hlt
  obtain ⟨n, hn⟩ : ∃ n : ℕ, e = n + (j - 52) := ⟨(e - (j - 52)).toNat, by omega⟩
  refine ⟨m * 2 ^ n, ?_⟩
  rw [hn, two_zpow_add, zpow_natCast]
  push_cast
  ring

/-- Two different double-precision numbers of magnitude at least `2^j` are at least `2^(j-52)` apart. -/
theorem gap {j : ℤ} {x y : ℝ} (hx : x ∈ binary64) (hy : y ∈ binary64) (hjx : (2 : ℝ) ^ j ≤ |x|)
    (hjy : (2 : ℝ) ^ j ≤ |y|) (hne : x ≠ y) : (2 : ℝ) ^ (j - 52) ≤ |y - x| := by
  obtain ⟨k, rfl⟩ := multiple_of hx hjx
  obtain ⟨l, rfl⟩ := multiple_of hy hjy
  have hp := two_zpow_pos (j - 52)
  rw [← sub_mul, abs_mul, abs_of_pos hp]
  have hkl : l - k ≠ 0 := fun h => hne (by rw [sub_eq_zero.mp h])
  have : (1 : ℝ) ≤ |(l : ℝ) - k| := by exact_mod_cast Int.one_le_abs hkl
  nlinarith

end binary64

/-! ### a rounding function exists -/

/-- Rounding to the nearest double, ties to the lower one. -/
theorem exists_roundsTo : ∃ rnd, RoundsTo binary64 rnd := by
  have key : ∀ x : ℝ, ∃ r ∈ binary64, ∀ y ∈ binary64, |x - r| ≤ |x - y| := by
    intro x
    have hfin := binary64.finite (x - |x|) (x + |x|)
    have h0 : (0 : ℝ) ∈ uIcc (x - |x|) (x + |x|) ∩ binary64 := by
      refine ⟨?_, ⟨0, 0, by norm_num, by norm_num, by simp⟩⟩
      rw [mem_uIcc]
      left
      constructor <;> [linarith [le_abs_self x]; linarith [neg_abs_le x]]
    obtain ⟨r, hr, hmin⟩ := Set.exists_min_image _ (fun y => |x - y|) hfin ⟨0, h0⟩
    refine ⟨r, hr.2, fun y hy => ?_⟩
    by_cases hyu : y ∈ uIcc (x - |x|) (x + |x|)
    · exact hmin y ⟨hyu, hy⟩
    · have h1 := hmin 0 h0
      simp only [sub_zero] at h1
      refine h1.trans ?_
      by_contra hc
      push Not at hc
      have := abs_lt.mp hc
      apply hyu
      rw [mem_uIcc]
      left
      constructor <;> linarith
  choose rnd h1 h2 using key
  exact ⟨rnd, h1, h2⟩

end AMAT
