import Mathlib.Order.Interval.Set.UnorderedInterval
import Mathlib.Algebra.Order.Archimedean.Basic
import Mathlib.Tactic.Linarith
import Mathlib.Tactic.FieldSimp
import Mathlib.Tactic.NormNum
import Verif.Model.Corridor

/-
Loop invariant of the bisection search.
-/

noncomputable section

namespace AMAT

open Set

@[simp] theorem setGamma_setGamma (V : Vehicle) (x y : ℝ) : (V.setGamma x).setGamma y = V.setGamma y := rfl
@[simp] theorem setGamma_self (V : Vehicle) : V.setGamma V.init.gamma0Deg = V := rfl

/-- The two verdicts. -/
def IsSign (a : ℤ) : Prop := a = -1 ∨ a = 1

theorem sign_mul_neg {a b : ℤ} (ha : IsSign a) (hb : IsSign b) : a * b < 0 ↔ a ≠ b := by
  rcases ha with rfl | rfl <;> rcases hb with rfl | rfl <;> decide

theorem sign_eq {a b c : ℤ} (ha : IsSign a) (hb : IsSign b) (hc : IsSign c) (h1 : a ≠ b) (h2 : a ≠ c) : b = c := by
  rcases ha with rfl | rfl <;> rcases hb with rfl | rfl <;> rcases hc with rfl | rfl <;> simp_all

theorem mid_mem (lo hi : ℝ) : 0.5 * (lo + hi) ∈ uIcc lo hi := by
  rw [mem_uIcc]
  have l : (0.5:ℝ) = 1 / 2 := by norm_num
  rw [l]
  rcases le_total lo hi with h | h
  · left; constructor <;> linarith
  · right; constructor <;> linarith

theorem mid_left (lo hi : ℝ) : |0.5 * (lo + hi) - lo| = |hi - lo| / 2 := by
  have : 0.5 * (lo + hi) - lo = (hi - lo) / 2 := by norm_num; ring
  rw [this, abs_div, abs_of_pos (by norm_num : (0:ℝ) < 2)]

theorem mid_right (lo hi : ℝ) : |hi - 0.5 * (lo + hi)| = |hi - lo| / 2 := by
  have : hi - 0.5 * (lo + hi) = (hi - lo) / 2 := by norm_num; ring
  rw [this, abs_div, abs_of_pos (by norm_num : (0:ℝ) < 2)]

/-- Result of the loop: a sub-bracket of width at most the tolerance whose ends keep their verdicts. -/
theorem bisectLoop_spec (H : Test) (tol : ℝ) (f : ℝ → ℤ) (hf : ∀ g, IsSign (f g)) :
    ∀ (n k : ℕ) (V : Vehicle) (lo hi : ℝ) (limit : Option ℝ), n + 1 ≤ k → |hi - lo| ≤ tol * 2 ^ n → 
      (∀ g ∈ uIcc lo hi, H (V.setGamma g) = .ok (f g)) → f lo ≠ f hi →
      ∃ lo' hi' y, bisectLoop H tol k V lo hi limit =
          some (if |hi - lo| > tol then V.setGamma y else V, .ok (if |hi - lo| > tol then some hi' else limit)) ∧
        (¬ |hi - lo| > tol → lo' = lo ∧ hi' = hi) ∧
        uIcc lo' hi' ⊆ uIcc lo hi ∧ |hi' - lo'| ≤ tol ∧ f lo' = f lo ∧ f hi' = f hi := by
  intro n
  induction n with
  | zero =>
      intro k V lo hi limit hk hw hH hne
      obtain ⟨k, rfl⟩ : ∃ m, k = m + 1 := ⟨k - 1, by omega⟩
      have hw' : ¬ |hi - lo| > tol := by simpa using hw
      refine ⟨lo, hi, 0, ?_, fun _ => ⟨rfl, rfl⟩, subset_rfl, by simpa using hw', rfl, rfl⟩
      unfold bisectLoop
      simp only [if_neg hw']
  | succ n ih =>
      intro k V lo hi limit hk hw hH hne
      obtain ⟨k, rfl⟩ : ∃ m, k = m + 1 := ⟨k - 1, by omega⟩
      by_cases hc : |hi - lo| > tol
      swap
      · refine ⟨lo, hi, 0, ?_, fun _ => ⟨rfl, rfl⟩, subset_rfl, by simpa using hc, rfl, rfl⟩
        unfold bisectLoop
        simp only [if_neg hc]
      set mid := 0.5 * (lo + hi) with hmid
      have hm : mid ∈ uIcc lo hi := mid_mem lo hi
      have hw2 : |hi - lo| / 2 ≤ tol * 2 ^ n := by rw [pow_succ] at hw; linarith
      have h1 := hH lo left_mem_uIcc
      have h2 := hH mid hm
      have h3 := hH hi right_mem_uIcc
      have sub1 : uIcc lo mid ⊆ uIcc lo hi := uIcc_subset_uIcc_left hm
      have sub2 : uIcc mid hi ⊆ uIcc lo hi := uIcc_subset_uIcc_right hm
      by_cases ha : f lo * f mid < 0
      · have hne' := (sign_mul_neg (hf lo) (hf mid)).mp ha
        have hmh : f mid = f hi := sign_eq (hf lo) (hf mid) (hf hi) hne' hne
        obtain ⟨lo', hi', y, e, e2, e3, e4, e5, e6⟩ := ih k (V.setGamma hi) lo mid (some mid) (by omega)
          (by rw [mid_left]; exact hw2) (fun g hg => by rw [setGamma_setGamma]; exact hH g (sub1 hg)) hne'
        refine ⟨lo', hi', if |mid - lo| > tol then y else hi, ?_, fun h => absurd hc h, e3.trans sub1, e4, e5,
          e6.trans hmh⟩
        unfold bisectLoop
        simp only [if_pos hc, ← hmid, h1, setGamma_setGamma, h2, h3, if_pos ha, e]
        by_cases hd : |mid - lo| > tol
        · simp only [if_pos hd]
        · simp only [if_neg hd, (e2 hd).2]
      · have heq : f lo = f mid := by
          by_contra h; exact ha ((sign_mul_neg (hf lo) (hf mid)).mpr h)
        have hne' : f mid ≠ f hi := heq ▸ hne
        have hb := (sign_mul_neg (hf mid) (hf hi)).mpr hne'
        obtain ⟨lo', hi', y, e, e2, e3, e4, e5, e6⟩ := ih k (V.setGamma hi) mid hi (some hi) (by omega)
          (by rw [mid_right]; exact hw2) (fun g hg => by rw [setGamma_setGamma]; exact hH g (sub2 hg)) hne'
        refine ⟨lo', hi', if |hi - mid| > tol then y else hi, ?_, fun h => absurd hc h, e3.trans sub2, e4,
          e5.trans heq.symm, e6⟩
        unfold bisectLoop
        simp only [if_pos hc, ← hmid, h1, setGamma_setGamma, h2, h3, if_neg ha, if_pos hb, e]
        by_cases hd : |hi - mid| > tol
        · simp only [if_pos hd]
        · simp only [if_neg hd, (e2 hd).2]

/-- With a non-positive tolerance the loop never ends. -/
theorem bisectLoop_diverges (H : Test) (tol : ℝ) (htol : tol ≤ 0) (f : ℝ → ℤ) (hf : ∀ g, IsSign (f g)) :
    ∀ (k : ℕ) (V : Vehicle) (lo hi : ℝ) (limit : Option ℝ),
      (∀ g ∈ uIcc lo hi, H (V.setGamma g) = .ok (f g)) → f lo ≠ f hi → bisectLoop H tol k V lo hi limit = none := by
  intro k
  induction k with
  | zero => intros; rfl
  | succ k ih =>
      intro V lo hi limit hH hne
      have hlh : lo ≠ hi := fun h => hne (by rw [h])
      have hc : |hi - lo| > tol := lt_of_le_of_lt htol (abs_pos.mpr (sub_ne_zero.mpr hlh.symm))
      set mid := 0.5 * (lo + hi) with hmid
      have hm : mid ∈ uIcc lo hi := mid_mem lo hi
      have h1 := hH lo left_mem_uIcc
      have h2 := hH mid hm
      have h3 := hH hi right_mem_uIcc
      have sub1 : uIcc lo mid ⊆ uIcc lo hi := uIcc_subset_uIcc_left hm
      have sub2 : uIcc mid hi ⊆ uIcc lo hi := uIcc_subset_uIcc_right hm
      unfold bisectLoop
      simp only [if_pos hc, ← hmid, h1, setGamma_setGamma, h2, h3]
      split_ifs with ha hb
      · exact ih _ _ _ _ (fun g hg => by rw [setGamma_setGamma]; exact hH g (sub1 hg))
          ((sign_mul_neg (hf lo) (hf mid)).mp ha)
      · exact ih _ _ _ _ (fun g hg => by rw [setGamma_setGamma]; exact hH g (sub2 hg))
          ((sign_mul_neg (hf mid) (hf hi)).mp hb)
      · exact ih _ _ _ _ (fun g hg => by rw [setGamma_setGamma]; exact hH g hg) hne

/-- The whole search when the tests succeed and the verdict changes over a bracket wider than the tolerance. -/
theorem bisectBody_spec (H : Test) (f : ℝ → ℤ) (hf : ∀ g, IsSign (f g)) (V : Vehicle) (lo hi tol : ℝ)
    (htol : tol < |hi - lo|) (hH : ∀ g ∈ uIcc lo hi, H (V.setGamma g) = .ok (f g)) (hne : f lo ≠ f hi)
    (n : ℕ) (hn : |hi - lo| ≤ tol * 2 ^ n) (fuel : ℕ) (hfuel : n + 1 ≤ fuel) :
    ∃ lo' lim y, bisectBody H fuel V lo hi tol = some (V.setGamma y, .ok (some (lim, 1.0))) ∧
      uIcc lo' lim ⊆ uIcc lo hi ∧ |lim - lo'| ≤ tol ∧ f lo' = f lo ∧ f lim = f hi := by
  obtain ⟨lo', lim, y, e, _, e3, e4, e5, e6⟩ := bisectLoop_spec H tol f hf n fuel (V.setGamma hi) lo hi none
    hfuel hn (fun g hg => by rw [setGamma_setGamma]; exact hH g hg) hne
  refine ⟨lo', lim, y, ?_, e3, e4, e5, e6⟩
  unfold bisectBody
  have hneg : f lo * f hi < 0 := (sign_mul_neg (hf lo) (hf hi)).mpr hne
  rw [if_pos htol, if_pos htol] at e
  simp only [hH lo left_mem_uIcc, setGamma_setGamma, hH hi right_mem_uIcc, if_pos hneg, e]

/-- More fuel does not change a result. -/
theorem bisectLoop_mono (H : Test) (tol : ℝ) : ∀ (k m : ℕ) (V : Vehicle) (lo hi : ℝ) (limit : Option ℝ) (r),
    k ≤ m → bisectLoop H tol k V lo hi limit = some r → bisectLoop H tol m V lo hi limit = some r := by
  intro k
  induction k with
  | zero => intro m V lo hi limit r _ h; simp [bisectLoop] at h
  | succ k ih =>
      intro m V lo hi limit r hm h
      obtain ⟨m, rfl⟩ : ∃ j, m = j + 1 := ⟨m - 1, by omega⟩
      have hkm : k ≤ m := by omega
      unfold bisectLoop at h ⊢
      split_ifs at h ⊢ with hc
      · dsimp only at h ⊢
        cases h1 : H (V.setGamma lo) with
        | error e => rw [h1] at h; exact h
        | ok a1 =>
          rw [h1] at h
          dsimp only at h ⊢
          cases h2 : H ((V.setGamma lo).setGamma (0.5 * (lo + hi))) with
          | error e => rw [h2] at h; exact h
          | ok a2 =>
            rw [h2] at h
            dsimp only at h ⊢
            cases h3 : H (((V.setGamma lo).setGamma (0.5 * (lo + hi))).setGamma hi) with
            | error e => rw [h3] at h; exact h
            | ok a3 =>
              rw [h3] at h
              dsimp only at h ⊢
              split_ifs at h ⊢
              · exact ih _ _ _ _ _ _ hkm h
              · exact ih _ _ _ _ _ _ hkm h
              · exact ih _ _ _ _ _ _ hkm h
      · exact h

theorem bisectBody_mono (H : Test) {k m : ℕ} (hkm : k ≤ m) (V : Vehicle) (lo hi tol : ℝ) {r}
    (h : bisectBody H k V lo hi tol = some r) : bisectBody H m V lo hi tol = some r := by
  unfold bisectBody at h ⊢
  cases h1 : H (V.setGamma lo) with
  | error e => rw [h1] at h; exact h
  | ok a1 =>
    rw [h1] at h
    dsimp only at h ⊢
    cases h2 : H ((V.setGamma lo).setGamma hi) with
    | error e => rw [h2] at h; exact h
    | ok a2 =>
      rw [h2] at h
      dsimp only at h ⊢
      split_ifs at h ⊢
      · cases h3 : bisectLoop H tol k ((V.setGamma lo).setGamma hi) lo hi none with
        | none => rw [h3] at h; cases h
        | some x => rw [h3] at h; rw [bisectLoop_mono H tol k m _ _ _ _ _ hkm h3]; exact h
      · exact h

/-- Enough iterations exist for every positive tolerance. -/
theorem exists_halvings (w tol : ℝ) (htol : 0 < tol) : ∃ n : ℕ, w ≤ tol * 2 ^ n := by
  obtain ⟨n, hn⟩ := pow_unbounded_of_one_lt (w / tol) (by norm_num : (1:ℝ) < 2)
  exact ⟨n, by rw [div_lt_iff₀ htol] at hn; linarith⟩

end AMAT
