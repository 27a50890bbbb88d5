import Verif.Lemmas.Bisect
import Verif.Props.OrbitProps

/-
Properties C32-C37: corridor-bound searches.
-/

noncomputable section

namespace AMAT.Props

open Real Set

/-- The vehicle entering at flight-path angle `g` (degrees). -/
abbrev Spec.atAngle (V : Vehicle) (g : ℝ) : Vehicle := { V with init := { V.init with gamma0Deg := g } }

/-- The public searches that only save and restore the entry angle or additionally set `LD` to zero, each with the
question it asks about one entry angle: "does the trajectory with this bank angle reach the target apoapsis?" -/
inductive Spec.IsSearch (S : SearchEnv) :
    (ℕ → Vehicle → ℝ → ℝ → ℝ → Option (Vehicle × Py (ℝ × ℝ))) → (Vehicle → Py ℤ) → Prop
  | over : Spec.IsSearch S (Vehicle.findOverShootLimit S)
      (fun V => V.hitsTargetApoapsis S.mode S.I S.tSec S.dt 180 S.targetKm)
  | over2 : Spec.IsSearch S (Vehicle.findOverShootLimit2 S)
      (fun V => V.hitsTargetApoapsis2 S.mode S.I S.tSec S.dt 180 S.targetKm)
  | under : Spec.IsSearch S (Vehicle.findUnderShootLimit S)
      (fun V => V.hitsTargetApoapsis S.mode S.I S.tSec S.dt 0 S.targetKm)
  | under2 : Spec.IsSearch S (Vehicle.findUnderShootLimit2 S)
      (fun V => V.hitsTargetApoapsis2 S.mode S.I S.tSec S.dt 0 S.targetKm)
  | efpa : Spec.IsSearch S (Vehicle.findEFPALimitD S)
      (fun V => Vehicle.hitsTargetApoapsis { V with LD := 0 } S.mode S.I S.tSec S.dt 0 S.targetKm)
  | efpa2 : Spec.IsSearch S (Vehicle.findEFPALimitD2 S)
      (fun V => Vehicle.hitsTargetApoapsis2 { V with LD := 0 } S.mode S.I S.tSec S.dt 0 S.targetKm)

/-- Every search is "run the common body on a prepared vehicle, then restore", where the test of the body on the
prepared vehicle is the stated question, and the restoration undoes the preparation. -/
theorem search_shape {S : SearchEnv} {search : ℕ → Vehicle → ℝ → ℝ → ℝ → Option (Vehicle × Py (ℝ × ℝ))}
    {test : Vehicle → Py ℤ} (h : Spec.IsSearch S search test) (V : Vehicle) :
    ∃ (H : Test) (prep : Vehicle) (restore : Vehicle → Vehicle),
      (∀ fuel lo hi tol, search fuel V lo hi tol = saveRestore restore (bisectBody H fuel prep lo hi tol)) ∧
      (∀ g, H (prep.setGamma g) = test (Spec.atAngle V g)) ∧ (∀ y, restore (prep.setGamma y) = V) ∧
      (∀ g, (prep.setGamma g).init = (V.setGamma g).init) := by
  have l18 : (180.0:ℝ) = 180 := by norm_num
  cases h with
  | over => exact ⟨S.test 180.0, V, fun W => W.setGamma V.init.gamma0Deg, fun _ _ _ _ => rfl,
      fun g => by unfold SearchEnv.test; rw [l18]; rfl, fun _ => rfl, fun _ => rfl⟩
  | over2 => exact ⟨S.test2 180.0, V, fun W => W.setGamma V.init.gamma0Deg, fun _ _ _ _ => rfl,
      fun g => by unfold SearchEnv.test2; rw [l18]; rfl, fun _ => rfl, fun _ => rfl⟩
  | under => exact ⟨S.test 0.0, V, fun W => W.setGamma V.init.gamma0Deg, fun _ _ _ _ => rfl,
      fun g => by unfold SearchEnv.test; rw [Lits.l00]; rfl, fun _ => rfl, fun _ => rfl⟩
  | under2 => exact ⟨S.test2 0.0, V, fun W => W.setGamma V.init.gamma0Deg, fun _ _ _ _ => rfl,
      fun g => by unfold SearchEnv.test2; rw [Lits.l00]; rfl, fun _ => rfl, fun _ => rfl⟩
  | efpa => exact ⟨S.test 0.0, { V with LD := 0.0 }, fun W => { W.setGamma V.init.gamma0Deg with LD := V.LD },
      fun _ _ _ _ => rfl, fun g => by unfold SearchEnv.test; rw [Lits.l00]; rfl, fun _ => rfl, fun _ => rfl⟩
  | efpa2 => exact ⟨S.test2 0.0, { V with LD := 0.0 }, fun W => { W.setGamma V.init.gamma0Deg with LD := V.LD },
      fun _ _ _ _ => rfl, fun g => by unfold SearchEnv.test2; rw [Lits.l00]; rfl, fun _ => rfl, fun _ => rfl⟩

variable {S : SearchEnv} {search : ℕ → Vehicle → ℝ → ℝ → ℝ → Option (Vehicle × Py (ℝ × ℝ))} {test : Vehicle → Py ℤ}

/-! ### C32, C33 -/

/-- C32 (and C34, C35 on this path): whatever the verdict function `f` of the entry angle is, if it differs at the two
ends of a bracket wider than the positive tolerance, the search halts after at most `n` halvings (any `n` with
`width ≤ tol·2ⁿ`; more allowed iterations do not change the result), leaves the vehicle exactly as it was, and returns
a limit inside the bracket, with the verdict of the high guess, and within the tolerance of an angle of the bracket
with the opposite verdict. -/
theorem C32_search_brackets_bound (hs : Spec.IsSearch S search test) (V : Vehicle) (f : ℝ → ℤ)
    (hf : ∀ g, f g = -1 ∨ f g = 1) (lo hi tol : ℝ) (htol : 0 < tol) (hwide : tol < |hi - lo|)
    (hH : ∀ g ∈ uIcc lo hi, test (Spec.atAngle V g) = .ok (f g)) (hne : f lo ≠ f hi) :
    ∃ lim, lim ∈ uIcc lo hi ∧ f lim = f hi ∧ (∃ g ∈ uIcc lo hi, |lim - g| ≤ tol ∧ f g = f lo) ∧
      (∀ n fuel, |hi - lo| ≤ tol * 2 ^ n → n + 1 ≤ fuel → search fuel V lo hi tol = some (V, .ok (lim, 1))) ∧
      (∃ n : ℕ, |hi - lo| ≤ tol * 2 ^ n) := by
  obtain ⟨H, prep, restore, h1, h2, h3, h4⟩ := search_shape hs V
  have hH' : ∀ g ∈ uIcc lo hi, H (prep.setGamma g) = .ok (f g) := fun g hg => by rw [h2, hH g hg]
  obtain ⟨n0, hn0⟩ := exists_halvings |hi - lo| tol htol
  obtain ⟨lo', lim, y, e, e3, e4, e5, e6⟩ := bisectBody_spec H f hf prep lo hi tol hwide hH' hne n0 hn0 (n0 + 1) le_rfl
  refine ⟨lim, e3 right_mem_uIcc, e6, ⟨lo', e3 left_mem_uIcc, e4, e5⟩, ?_, ⟨n0, hn0⟩⟩
  intro n fuel hn hfuel
  obtain ⟨_, lim', y', e', _⟩ := bisectBody_spec H f hf prep lo hi tol hwide hH' hne n hn fuel hfuel
  have : bisectBody H fuel prep lo hi tol = some (prep.setGamma y, .ok (some (lim, 1.0))) := by
    rcases le_total fuel (n0 + 1) with h | h
    · have h5 := bisectBody_mono H h prep lo hi tol e'
      rw [e] at h5
      rw [e', ← h5]
    · exact bisectBody_mono H h prep lo hi tol e
  rw [h1, this]
  simp only [saveRestore, h3, Lits.l10]

/-- C32 (finding): with a tolerance that is zero or negative the search never ends. -/
theorem C32_nonpositive_tolerance_diverges (hs : Spec.IsSearch S search test) (V : Vehicle) (f : ℝ → ℤ)
    (hf : ∀ g, f g = -1 ∨ f g = 1) (lo hi tol : ℝ) (htol : tol ≤ 0)
    (hH : ∀ g ∈ uIcc lo hi, test (Spec.atAngle V g) = .ok (f g)) (hne : f lo ≠ f hi) :
    ∀ fuel, search fuel V lo hi tol = none := by
  intro fuel
  obtain ⟨H, prep, restore, h1, h2, h3, h4⟩ := search_shape hs V
  have hH' : ∀ g ∈ uIcc lo hi, H (prep.setGamma g) = .ok (f g) := fun g hg => by rw [h2, hH g hg]
  rw [h1]
  unfold bisectBody
  have hneg : f lo * f hi < 0 := (sign_mul_neg (hf lo) (hf hi)).mpr hne
  simp only [hH' lo left_mem_uIcc, setGamma_setGamma, hH' hi right_mem_uIcc, if_pos hneg]
  rw [bisectLoop_diverges H tol htol f hf fuel _ lo hi none
    (fun g hg => by rw [setGamma_setGamma]; exact hH' g hg) hne]
  rfl

/-- C33: if the verdict switches at a single critical angle `c` (constant on each side), the returned limit is within
the tolerance of it. -/
theorem C33_search_accurate (hs : Spec.IsSearch S search test) (V : Vehicle) (f : ℝ → ℤ)
    (hf : ∀ g, f g = -1 ∨ f g = 1) (lo hi tol c : ℝ) (htol : 0 < tol) (hwide : tol < |hi - lo|)
    (hH : ∀ g ∈ uIcc lo hi, test (Spec.atAngle V g) = .ok (f g)) (hne : f lo ≠ f hi)
    (hbelow : ∀ g g', g < c → g' < c → f g = f g') (habove : ∀ g g', c < g → c < g' → f g = f g') :
    ∃ lim n, (∀ fuel, n ≤ fuel → search fuel V lo hi tol = some (V, .ok (lim, 1))) ∧ |lim - c| ≤ tol := by
  obtain ⟨lim, _, h2, ⟨g, _, h4, h5⟩, h6, ⟨n, hn⟩⟩ :=
    C32_search_brackets_bound hs V f hf lo hi tol htol hwide hH hne
  refine ⟨lim, n + 1, fun fuel hfuel => h6 n fuel hn hfuel, ?_⟩
  have hd : f g ≠ f lim := by rw [h5, h2]; exact hne
  by_contra hc
  push Not at hc
  rcases abs_le.mp h4 with ⟨a1, a2⟩
  rcases lt_abs.mp hc with h | h
  · exact hd (habove _ _ (by linarith) (by linarith))
  · exact hd (hbelow _ _ (by linarith) (by linarith))

/-! ### C34 -/

/-- C34: without a verdict change the search returns `(0.0, 0.0)` and leaves the vehicle as it was. -/
theorem C34_no_change_returns_zero (hs : Spec.IsSearch S search test) (V : Vehicle) (a : ℤ) (lo hi tol : ℝ)
    (h1 : test (Spec.atAngle V lo) = .ok a) (h2 : test (Spec.atAngle V hi) = .ok a) (fuel : ℕ) :
    search fuel V lo hi tol = some (V, .ok (0, 0)) := by
  obtain ⟨H, prep, restore, e1, e2, e3, e4⟩ := search_shape hs V
  rw [e1]
  unfold bisectBody
  have : ¬ a * a < 0 := not_lt.mpr (mul_self_nonneg a)
  simp only [e2, h1, setGamma_setGamma, h2, if_neg this, saveRestore, e3, Lits.l00]

/-- C34, the part that holds: tests that succeed, tolerance positive, bracket wider than the tolerance: the search
returns `(limit, 1.0)` or `(0.0, 0.0)`.  Missing: the search raises for a bracket not wider than the tolerance
(`C34_narrow_bracket_raises`) and for every bracket at Jupiter and Saturn (`C34_raises_without_threshold`). -/
theorem C34_search_returns_partial (hs : Spec.IsSearch S search test) (V : Vehicle) (f : ℝ → ℤ)
    (hf : ∀ g, f g = -1 ∨ f g = 1) (lo hi tol : ℝ) (htol : 0 < tol) (hwide : tol < |hi - lo|)
    (hH : ∀ g ∈ uIcc lo hi, test (Spec.atAngle V g) = .ok (f g)) :
    ∃ lim n, ∀ fuel, n ≤ fuel →
      search fuel V lo hi tol = some (V, .ok (if f lo = f hi then (0, 0) else (lim, 1))) := by
  by_cases hne : f lo = f hi
  · refine ⟨0, 0, fun fuel _ => ?_⟩
    rw [if_pos hne]
    exact C34_no_change_returns_zero hs V (f lo) lo hi tol (hH _ left_mem_uIcc) (by rw [hH _ right_mem_uIcc, hne]) fuel
  · obtain ⟨lim, _, h2, _, h6, ⟨n, hn⟩⟩ := C32_search_brackets_bound hs V f hf lo hi tol htol hwide hH hne
    exact ⟨lim, n + 1, fun fuel hfuel => by rw [if_neg hne]; exact h6 n fuel hn hfuel⟩

/-- C34 (finding): if the verdict changes over a bracket that is *already* no wider than the tolerance, the search
raises `UnboundLocalError` (the result is only assigned inside the loop) instead of returning a limit. -/
theorem C34_narrow_bracket_raises (hs : Spec.IsSearch S search test) (V : Vehicle) (a b : ℤ) (lo hi tol : ℝ)
    (h1 : test (Spec.atAngle V lo) = .ok a) (h2 : test (Spec.atAngle V hi) = .ok b) (hab : a * b < 0)
    (hw : |hi - lo| ≤ tol) (fuel : ℕ) (hfuel : 1 ≤ fuel) :
    search fuel V lo hi tol = some (V, .error .unboundLocalError) := by
  obtain ⟨H, prep, restore, e1, e2, e3, e4⟩ := search_shape hs V
  obtain ⟨k, rfl⟩ : ∃ m, fuel = m + 1 := ⟨fuel - 1, by omega⟩
  rw [e1]
  unfold bisectBody bisectLoop
  simp only [e2, h1, setGamma_setGamma, h2, if_pos hab, if_neg (not_lt.mpr hw), saveRestore, e3]

/-- An exception in the first test is passed on, with the entry angle left at the low guess. -/
theorem search_first_error (hs : Spec.IsSearch S search test) (V : Vehicle) (err : PyErr) (lo hi tol : ℝ)
    (h1 : test (Spec.atAngle V lo) = .error err) (fuel : ℕ) :
    ∃ W, search fuel V lo hi tol = some (W, .error err) ∧ W.init.gamma0Deg = lo := by
  obtain ⟨H, prep, restore, e1, e2, e3, e4⟩ := search_shape hs V
  refine ⟨prep.setGamma lo, ?_, rfl⟩
  rw [e1]
  unfold bisectBody
  simp only [e2, h1, saveRestore]

/-- C34 (finding): for Jupiter and Saturn every search raises `AttributeError` as soon as the first propagation
succeeds, and leaves the vehicle with the low guess as its entry angle (also C35). -/
theorem C34_raises_without_threshold (name : String) (V : Vehicle) (hP : Planet.init name = .ok V.planet)
    (hn : name = "JUPITER" ∨ name = "SATURN") (lo hi tol : ℝ) (out : PropOut)
    (h : (Spec.atAngle V lo).propogateEntry S.mode S.I S.tSec S.dt 180 = .ok out) (fuel : ℕ) :
    ∃ W, Vehicle.findOverShootLimit S fuel V lo hi tol = some (W, .error .attributeError) ∧
      W.init.gamma0Deg = lo := by
  apply search_first_error Spec.IsSearch.over
  have hm := C31_missing_threshold name (Spec.atAngle V lo) hP S.mode S.I S.tSec S.dt 180 S.targetKm
  exact ((hm.2 (hm.1.mpr hn)) out).1 h

/-! ### C35 -/

/-- C35: whenever a (non drag-modulation) search, or the inner drag-modulation search, returns a value or fails only
because its result is unbound, the vehicle is exactly what it was before the call — for *every* test outcome, also
partial ones. -/
theorem C35_vehicle_restored_partial (hs : Spec.IsSearch S search test) (V W : Vehicle) (lo hi tol : ℝ) (fuel : ℕ)
    (x : ℝ × ℝ) (h : search fuel V lo hi tol = some (W, .ok x)) : W = V := by
  obtain ⟨H, prep, restore, e1, e2, e3, e4⟩ := search_shape hs V
  have key : ∀ (k : ℕ) (U : Vehicle) (lo hi : ℝ) (lim : Option ℝ) (W : Vehicle) (r : Py (Option ℝ)),
      bisectLoop H tol k U lo hi lim = some (W, r) → ∃ y, W = U.setGamma y := by
    intro k
    induction k with
    | zero => intro U lo hi lim W r h; simp [bisectLoop] at h
    | succ k ih =>
        intro U lo hi lim W r h
        unfold bisectLoop at h
        split_ifs at h with hc
        · dsimp only at h
          split at h
          · simp only [Option.some.injEq, Prod.mk.injEq] at h; exact ⟨lo, h.1.symm⟩
          · split at h
            · simp only [Option.some.injEq, Prod.mk.injEq] at h; exact ⟨_, h.1.symm⟩
            · split at h
              · simp only [Option.some.injEq, Prod.mk.injEq] at h; exact ⟨_, h.1.symm⟩
              · split_ifs at h
                · obtain ⟨y, rfl⟩ := ih _ _ _ _ _ _ h; exact ⟨y, rfl⟩
                · obtain ⟨y, rfl⟩ := ih _ _ _ _ _ _ h; exact ⟨y, rfl⟩
                · obtain ⟨y, rfl⟩ := ih _ _ _ _ _ _ h; exact ⟨y, rfl⟩
        · simp only [Option.some.injEq, Prod.mk.injEq] at h
          exact ⟨U.init.gamma0Deg, h.1.symm⟩
  have hb : ∀ W r, bisectBody H fuel prep lo hi tol = some (W, r) → ∃ y, W = prep.setGamma y := by
    intro W r h
    unfold bisectBody at h
    split at h
    · simp only [Option.some.injEq, Prod.mk.injEq] at h; exact ⟨_, h.1.symm⟩
    · dsimp only at h
      split at h
      · simp only [Option.some.injEq, Prod.mk.injEq] at h; exact ⟨_, h.1.symm⟩
      · split_ifs at h
        · split at h
          · cases h
          · next hl => 
            simp only [Option.some.injEq, Prod.mk.injEq] at h
            obtain ⟨y, hy⟩ := key _ _ _ _ _ _ _ hl
            exact ⟨y, by rw [← h.1, hy]; rfl⟩
          · next hl => 
            simp only [Option.some.injEq, Prod.mk.injEq] at h
            obtain ⟨y, hy⟩ := key _ _ _ _ _ _ _ hl
            exact ⟨y, by rw [← h.1, hy]; rfl⟩
          · next hl => 
            simp only [Option.some.injEq, Prod.mk.injEq] at h
            obtain ⟨y, hy⟩ := key _ _ _ _ _ _ _ hl
            exact ⟨y, by rw [← h.1, hy]; rfl⟩
        · simp only [Option.some.injEq, Prod.mk.injEq] at h; exact ⟨_, h.1.symm⟩
  rw [e1] at h
  unfold saveRestore at h
  split at h
  · cases h
  · simp at h
  · simp at h
  · next W' x' hl => 
    simp only [Option.some.injEq, Prod.mk.injEq] at h
    obtain ⟨y, hy⟩ := hb _ _ hl
    rw [← h.1, hy, e3]

/-- C35 (finding): an exception inside the first propagation leaves the vehicle with the guess as its entry angle. -/
theorem C35_exception_leaves_angle (hs : Spec.IsSearch S search test) (V : Vehicle) (err : PyErr) (lo hi tol : ℝ)
    (h1 : test (Spec.atAngle V lo) = .error err) (hlo : lo ≠ V.init.gamma0Deg) (fuel : ℕ) :
    ∃ W, search fuel V lo hi tol = some (W, .error err) ∧ W ≠ V := by
  obtain ⟨W, h2, h3⟩ := search_first_error hs V err lo hi tol h1 fuel
  exact ⟨W, h2, fun h => hlo (by rw [← h3, h])⟩

/-- C35 (finding): after the drag-modulation searches the ballistic coefficient is the one of the last configuration
flown and the drag coefficient the corresponding one, whatever they were before; the lift coefficient is not updated. -/
theorem C35_drag_searches_change_vehicle (V W : Vehicle) (beta1 betaRatio lo hi tol : ℝ) (fuel : ℕ) (x : ℝ × ℝ) :
    (Vehicle.findUnderShootLimitD S fuel V beta1 betaRatio lo hi tol = some (W, .ok x) →
      W = { V with beta := beta1 * betaRatio, CD := V.mass / (beta1 * betaRatio * V.A) }) ∧
    (Vehicle.findOverShootLimitD S fuel V beta1 lo hi tol = some (W, .ok x) →
      W = { V with beta := beta1, CD := V.mass / (beta1 * V.A) }) := by
  constructor
  · intro h
    exact C35_vehicle_restored_partial Spec.IsSearch.efpa (V.setBeta (beta1 * betaRatio)) W lo hi tol fuel x h
  · intro h
    exact C35_vehicle_restored_partial Spec.IsSearch.efpa (V.setBeta beta1) W lo hi tol fuel x h

/-! ### C36 -/

/-- C36: `computeTCW` returns overshoot limit minus undershoot limit of the *same* vehicle and leaves it unchanged. -/
theorem C36_width_is_difference (V : Vehicle) (fuel : ℕ) (loOs hiOs loUs hiUs tolOs tolUs : ℝ) (W : Vehicle) (w : ℝ)
    (h : Vehicle.computeTCW S fuel V loOs hiOs loUs hiUs tolOs tolUs = some (W, .ok w)) :
    W = V ∧ ∃ x y, Vehicle.findOverShootLimit S fuel V loOs hiOs tolOs = some (V, .ok x) ∧
      Vehicle.findUnderShootLimit S fuel V loUs hiUs tolUs = some (V, .ok y) ∧ w = x.1 - y.1 := by
  unfold Vehicle.computeTCW Vehicle.widthOf at h
  split at h
  · cases h
  · simp at h
  · next U x hx => 
    have hU := C35_vehicle_restored_partial Spec.IsSearch.over V U _ _ _ _ _ hx
    subst hU
    split at h
    · cases h
    · simp at h
    · next U' y hy => 
      have hU' := C35_vehicle_restored_partial Spec.IsSearch.under U U' _ _ _ _ _ hy
      subst hU'
      simp at h
      exact ⟨h.1.symm, x, y, hx, hy, h.2.symm⟩

/-- C36: the same for `computeTCW2`. -/
theorem C36_width_is_difference2 (V : Vehicle) (fuel : ℕ) (loOs hiOs loUs hiUs tolOs tolUs : ℝ) (W : Vehicle) (w : ℝ)
    (h : Vehicle.computeTCW2 S fuel V loOs hiOs loUs hiUs tolOs tolUs = some (W, .ok w)) :
    W = V ∧ ∃ x y, Vehicle.findOverShootLimit2 S fuel V loOs hiOs tolOs = some (V, .ok x) ∧
      Vehicle.findUnderShootLimit2 S fuel V loUs hiUs tolUs = some (V, .ok y) ∧ w = x.1 - y.1 := by
  unfold Vehicle.computeTCW2 Vehicle.widthOf at h
  split at h
  · cases h
  · simp at h
  · next U x hx =>
    have hU := C35_vehicle_restored_partial Spec.IsSearch.over2 V U _ _ _ _ _ hx
    subst hU
    split at h
    · cases h
    · simp at h
    · next U' y hy =>
      have hU' := C35_vehicle_restored_partial Spec.IsSearch.under2 U U' _ _ _ _ _ hy
      subst hU'
      simp at h
      exact ⟨h.1.symm, x, y, hx, hy, h.2.symm⟩

/-- The vehicle with another ballistic coefficient, and the drag coefficient that goes with it. -/
def Spec.withBeta (V : Vehicle) (b : ℝ) : Vehicle := { V with beta := b, CD := V.mass / (b * V.A) }

/-- C36: the drag-modulation corridor width is the limit of the low ballistic coefficient (overshoot, before the
drag skirt is dropped) minus the limit of the high one (undershoot, after it), each found as if the other search had
not been made; the vehicle is left with the low ballistic coefficient. -/
theorem C36_drag_width_is_difference (V : Vehicle) (fuel : ℕ) (beta1 betaRatio lo hi tol : ℝ) (W : Vehicle) (w : ℝ) :
    (Vehicle.computeTCWD S fuel V beta1 betaRatio lo hi tol = some (W, .ok w) →
      W = Spec.withBeta V beta1 ∧ ∃ x y,
        Vehicle.findEFPALimitD S fuel (Spec.withBeta V beta1) lo hi tol = some (Spec.withBeta V beta1, .ok x) ∧
        Vehicle.findEFPALimitD S fuel (Spec.withBeta V (beta1 * betaRatio)) lo hi tol
          = some (Spec.withBeta V (beta1 * betaRatio), .ok y) ∧ w = x.1 - y.1) ∧
    (Vehicle.computeTCWD2 S fuel V beta1 betaRatio lo hi tol = some (W, .ok w) →
      W = Spec.withBeta V beta1 ∧ ∃ x y,
        Vehicle.findEFPALimitD2 S fuel (Spec.withBeta V beta1) lo hi tol = some (Spec.withBeta V beta1, .ok x) ∧
        Vehicle.findEFPALimitD2 S fuel (Spec.withBeta V (beta1 * betaRatio)) lo hi tol
          = some (Spec.withBeta V (beta1 * betaRatio), .ok y) ∧ w = x.1 - y.1) := by
  constructor
  · intro h
    unfold Vehicle.computeTCWD Vehicle.widthOf at h
    split at h
    · cases h
    · simp at h
    · next U y hy =>
      have hU := C35_vehicle_restored_partial Spec.IsSearch.efpa (V.setBeta (beta1 * betaRatio)) U _ _ _ _ _ hy
      subst hU
      split at h
      · cases h
      · simp at h
      · next U' x hx =>
        have hU' := C35_vehicle_restored_partial Spec.IsSearch.efpa (V.setBeta beta1) U' _ _ _ _ _ hx
        subst hU'
        simp at h
        exact ⟨h.1.symm, x, y, hx, hy, by linarith [h.2]⟩
  · intro h
    unfold Vehicle.computeTCWD2 Vehicle.widthOf at h
    split at h
    · cases h
    · simp at h
    · next U y hy =>
      have hU := C35_vehicle_restored_partial Spec.IsSearch.efpa2 (V.setBeta (beta1 * betaRatio)) U _ _ _ _ _ hy
      subst hU
      split at h
      · cases h
      · simp at h
      · next U' x hx =>
        have hU' := C35_vehicle_restored_partial Spec.IsSearch.efpa2 (V.setBeta beta1) U' _ _ _ _ _ hx
        subst hU'
        simp at h
        exact ⟨h.1.symm, x, y, hx, hy, by linarith [h.2]⟩

/-- C36: for threshold verdicts (critical angles `cOs` for lift down, `cUs` for lift up) the reported width is within
the sum of the tolerances of the true width. -/
theorem C36_width_accurate_partial (V : Vehicle) (f g : ℝ → ℤ) (hf : ∀ x, f x = -1 ∨ f x = 1)
    (hg : ∀ x, g x = -1 ∨ g x = 1)
    (loOs hiOs loUs hiUs tolOs tolUs cOs cUs : ℝ) (h1 : 0 < tolOs) (h2 : 0 < tolUs) (w1 : tolOs < |hiOs - loOs|)
    (w2 : tolUs < |hiUs - loUs|)
    (hF : ∀ x ∈ uIcc loOs hiOs, (Spec.atAngle V x).hitsTargetApoapsis S.mode S.I S.tSec S.dt 180 S.targetKm = .ok (f x))
    (hG : ∀ x ∈ uIcc loUs hiUs, (Spec.atAngle V x).hitsTargetApoapsis S.mode S.I S.tSec S.dt 0 S.targetKm = .ok (g x))
    (nF : f loOs ≠ f hiOs) (nG : g loUs ≠ g hiUs)
    (fb : ∀ x y, x < cOs → y < cOs → f x = f y) (fa : ∀ x y, cOs < x → cOs < y → f x = f y)
    (gb : ∀ x y, x < cUs → y < cUs → g x = g y) (ga : ∀ x y, cUs < x → cUs < y → g x = g y) :
    ∃ w n, (∀ fuel, n ≤ fuel → Vehicle.computeTCW S fuel V loOs hiOs loUs hiUs tolOs tolUs = some (V, .ok w)) ∧
      |w - (cOs - cUs)| ≤ tolOs + tolUs := by
  obtain ⟨x, n, hx, ex⟩ := C33_search_accurate Spec.IsSearch.over V f hf loOs hiOs tolOs cOs h1 w1 hF nF fb fa
  obtain ⟨y, m, hy, ey⟩ := C33_search_accurate Spec.IsSearch.under V g hg loUs hiUs tolUs cUs h2 w2 hG nG gb ga
  refine ⟨x - y, max n m, fun fuel hfuel => ?_, ?_⟩
  · unfold Vehicle.computeTCW Vehicle.widthOf
    simp only [hx fuel (le_trans (le_max_left _ _) hfuel), hy fuel (le_trans (le_max_right _ _) hfuel)]
    rfl
  · have : x - y - (cOs - cUs) = (x - cOs) - (y - cUs) := by ring
    rw [this]
    exact (abs_sub _ _).trans (by linarith)

/-- C36 (finding): a failed undershoot search is indistinguishable from an undershoot limit of zero degrees: the
reported "corridor width" is then just the overshoot limit. -/
theorem C36_failed_search_reported_as_width (V : Vehicle) (fuel : ℕ) (loOs hiOs loUs hiUs tolOs tolUs lim : ℝ) (a : ℤ)
    (h1 : Vehicle.findOverShootLimit S fuel V loOs hiOs tolOs = some (V, .ok (lim, 1)))
    (h2 : (Spec.atAngle V loUs).hitsTargetApoapsis S.mode S.I S.tSec S.dt 0 S.targetKm = .ok a)
    (h3 : (Spec.atAngle V hiUs).hitsTargetApoapsis S.mode S.I S.tSec S.dt 0 S.targetKm = .ok a) :
    Vehicle.computeTCW S fuel V loOs hiOs loUs hiUs tolOs tolUs = some (V, .ok lim) := by
  have h4 := C34_no_change_returns_zero Spec.IsSearch.under V a loUs hiUs tolUs h2 h3 fuel
  unfold Vehicle.computeTCW Vehicle.widthOf
  simp only [h1, h4, sub_zero]
  rfl

/-! ### C37 -/

/-- C37 (finding): setting `LD` to zero does not remove the lift: the lift force, and with it the whole propagation and
the verdict, are those of the vehicle as constructed. -/
theorem C37_lift_not_removed (V : Vehicle) (r theta phi v : ℝ) (mode : ScipyMode) (I : Integrator)
    (tSec dt deltaDeg targetKm : ℝ) :
    Vehicle.L { V with LD := 0 } r theta phi v = V.L r theta phi v ∧
    Vehicle.hitsTargetApoapsis { V with LD := 0 } mode I tSec dt deltaDeg targetKm
      = V.hitsTargetApoapsis mode I tSec dt deltaDeg targetKm := ⟨rfl, rfl⟩

/-- C37 (finding): consequently the "ballistic" search is the full-lift-up search: same result, same exceptions. -/
theorem C37_ballistic_search_is_lift_up_search (V : Vehicle) (lo hi tol : ℝ) (fuel : ℕ) (x : ℝ × ℝ) :
    Vehicle.findEFPALimitD S fuel V lo hi tol = some (V, .ok x) ↔
      Vehicle.findUnderShootLimit S fuel V lo hi tol = some (V, .ok x) := by
  have key : ∀ (k : ℕ) (U : Vehicle) (lo hi : ℝ) (lim : Option ℝ) (c : ℝ),
      bisectLoop (S.test 0.0) tol k { U with LD := c } lo hi lim =
      (bisectLoop (S.test 0.0) tol k U lo hi lim).map (fun p => ({ p.1 with LD := c }, p.2)) := by
    intro k
    induction k with
    | zero => intros; rfl
    | succ k ih =>
        intro U lo hi lim c
        have t : ∀ (W : Vehicle) (g : ℝ), S.test 0.0 (Vehicle.setGamma { W with LD := c } g) = S.test 0.0 (W.setGamma g) :=
          fun _ _ => rfl
        have t2 : ∀ (W : Vehicle) (g : ℝ), Vehicle.setGamma { W with LD := c } g = { W.setGamma g with LD := c } :=
          fun _ _ => rfl
        unfold bisectLoop
        split_ifs with hc
        · dsimp only
          rw [t, setGamma_setGamma, setGamma_setGamma, t, setGamma_setGamma, setGamma_setGamma, t]
          cases h1 : S.test 0.0 (U.setGamma lo) with
          | error e => rfl
          | ok a1 =>
            dsimp only
            cases h2 : S.test 0.0 (U.setGamma (0.5 * (lo + hi))) with
            | error e => rfl
            | ok a2 =>
              dsimp only
              cases h3 : S.test 0.0 (U.setGamma hi) with
              | error e => rfl
              | ok a3 =>
                dsimp only
                split_ifs
                · rw [t2, ih]
                · rw [t2, ih]
                · rw [t2, ih]
        · rfl
  have body : bisectBody (S.test 0.0) fuel { V with LD := 0.0 } lo hi tol =
      (bisectBody (S.test 0.0) fuel V lo hi tol).map (fun p => ({ p.1 with LD := 0.0 }, p.2)) := by
    unfold bisectBody
    have t : ∀ (W : Vehicle) (g : ℝ), S.test 0.0 (Vehicle.setGamma { W with LD := 0.0 } g) = S.test 0.0 (W.setGamma g) :=
      fun _ _ => rfl
    rw [t]
    cases h1 : S.test 0.0 (V.setGamma lo) with
    | error e => rfl
    | ok a1 =>
      dsimp only
      rw [setGamma_setGamma, setGamma_setGamma, t]
      cases h2 : S.test 0.0 (V.setGamma hi) with
      | error e => rfl
      | ok a2 =>
        dsimp only
        split_ifs
        · have : Vehicle.setGamma { V with LD := 0.0 } hi = { V.setGamma hi with LD := 0.0 } := rfl
          rw [this, key]
          cases bisectLoop (S.test 0.0) tol fuel (V.setGamma hi) lo hi none with
          | none => rfl
          | some p => 
            obtain ⟨W, r⟩ := p
            cases r with
            | error e => rfl
            | ok z => cases z <;> rfl
        · rfl
  have r1 : ∀ (z : ℝ × ℝ), (Vehicle.findEFPALimitD S fuel V lo hi tol).map (·.2) = some (.ok z) ↔
      (Vehicle.findUnderShootLimit S fuel V lo hi tol).map (·.2) = some (.ok z) := by
    intro z
    unfold Vehicle.findEFPALimitD Vehicle.efpaSearch Vehicle.findUnderShootLimit bisectSearch
    rw [body]
    cases bisectBody (S.test 0.0) fuel V lo hi tol with
    | none => simp [saveRestore]
    | some p =>
      obtain ⟨W, r⟩ := p
      cases r with
      | error e => simp [saveRestore]
      | ok z => cases z <;> simp [saveRestore]
  constructor
  · intro h
    have := (r1 x).mp (by rw [h]; rfl)
    obtain ⟨p, hp, hp2⟩ := Option.map_eq_some_iff.mp this
    obtain ⟨W, r⟩ := p
    simp only at hp2
    subst hp2
    rw [hp, C35_vehicle_restored_partial Spec.IsSearch.under V W _ _ _ _ _ hp]
  · intro h
    have := (r1 x).mpr (by rw [h]; rfl)
    obtain ⟨p, hp, hp2⟩ := Option.map_eq_some_iff.mp this
    obtain ⟨W, r⟩ := p
    simp only at hp2
    subst hp2
    rw [hp, C35_vehicle_restored_partial Spec.IsSearch.efpa V W _ _ _ _ _ hp]

/-- C37, the part that holds: the vehicle flown by the search generates no lift, at any entry angle, in any state with
non-zero density and speed, exactly when it was *constructed* with zero lift-to-drag ratio. -/
theorem C37_ballistic_iff_built_ballistic_partial (m beta LD A alpha RN : ℝ) (P : Planet) (atm : Atmosphere) (u : Bool)
    (f : ℝ → ℝ) (st : InitState) (hm : 0 < m) (hb : 0 < beta) (hA : 0 < A) (g r theta phi v : ℝ)
    (hrho : P.rho atm r theta phi ≠ 0) (hv : v ≠ 0) :
    Vehicle.L (Spec.atAngle { Vehicle.mk' m beta LD A alpha RN P atm u f st with LD := 0 } g) r theta phi v = 0 ↔
      LD = 0 := by
  have hCD : m / (beta * A) ≠ 0 := by positivity
  simp only [Vehicle.L, Vehicle.mk', Lits.l05]
  constructor
  · intro h
    by_contra hLD
    apply (mul_ne_zero (mul_ne_zero (mul_ne_zero (mul_ne_zero (by norm_num) hrho) (pow_ne_zero 2 hv)) hA.ne')
      (mul_ne_zero hLD hCD)) h
  · rintro rfl; ring

/-- C37 (finding), the claim is false: a vehicle built with `LD = 0.24` still produces lift when `LD` is set to zero. -/
theorem C37_lift_nonzero_witness : ∃ (V : Vehicle), Planet.init "VENUS" = .ok V.planet ∧
    Vehicle.L { V with LD := 0 } (V.planet.RP + 100000) 0 0 10000 ≠ 0 := by
  obtain ⟨P, hP⟩ := (C01_planet_names "VENUS").1.mpr (by simp [Spec.bodies])
  have hT : P.hThres = 180000 := by simp [Planet.init] at hP; subst hP; rfl
  refine ⟨Vehicle.mk' 500 100 0.24 1 0 1 P ⟨fun _ => 1, fun _ => 1, fun _ => 1, fun _ => 1⟩ false (fun _ => 1)
    ⟨150, 0, 0, 11, 0, -7, 0, 0⟩, hP, ?_⟩
  have : P.rho ⟨fun _ => 1, fun _ => 1, fun _ => 1, fun _ => 1⟩ (P.RP + 100000) 0 0 = 1 := by
    simp [Planet.rho, Planet.density, hT]
    intro h; norm_num at h
  simp only [Vehicle.L, Vehicle.mk', this]
  norm_num

/-! ### A case meeting the hypotheses of C32-C36 -/

/-- A constant trajectory ends where it starts. -/
theorem const_last (name : String) (V : Vehicle) (hP : Planet.init name = .ok V.planet) (mode : ScipyMode)
    (tSec dt deltaDeg : ℝ) (ht : 0 ≤ tSec) (hdt : 0 < dt) (out : PropOut) (s : Terminal)
    (h : V.propogateEntry mode constIntegrator tSec dt deltaDeg = .ok out) (hs : Spec.IsLast out s) :
    s.r = V.planet.RP + 1000 * V.init.h0Km ∧ s.v = 1000 * V.init.v0Kms ∧ s.g = V.init.gamma0Deg * π / 180 := by
  obtain ⟨_, hRP, hGM, _⟩ := C01_planet_consistent name _ hP
  have hVr : 0 < V.planet.Vref := by
    obtain ⟨_, _, _, _, _, _, _, _, h, _⟩ := C01_planet_consistent name _ hP
    exact h
  obtain ⟨S, h1, h2⟩ := samples_const name V hP tSec dt deltaDeg ht hdt
  obtain ⟨idx, flag, qc, qr, heat, hc, hq, hq2, hh, rfl⟩ := postProcess_inv h
  obtain ⟨a1, a2, a3, -, -, -⟩ := hs
  have hsol : Vehicle.solveTrajectory V constIntegrator (V.planet.nonDimState (Vehicle.entryState V.planet V.init))
      tSec dt (deltaDeg * π / 180.0) =
      TrajArrays.ofSamples ((0, V.planet.nonDimState (Vehicle.entryState V.planet V.init)) :: S) := by
    rw [← h1]; rfl
  have hall : ∀ q ∈ ((0, V.planet.nonDimState (Vehicle.entryState V.planet V.init)) :: S : List (ℝ × FState)),
      q.2 = V.planet.nonDimState (Vehicle.entryState V.planet V.init) := by
    intro q hq
    rcases List.mem_cons.mp hq with rfl | hq
    · rfl
    · exact h2 q hq
  have m1 := List.mem_of_mem_take (List.mem_of_getLast? a1)
  have m2 := List.mem_of_mem_take (List.mem_of_getLast? a2)
  have m3 := List.mem_of_mem_take (List.mem_of_getLast? a3)
  rw [hsol] at m1 m2 m3
  simp only [Planet.dimensionalizeArr, TrajArrays.ofSamples, List.map_map, List.mem_map, Function.comp_apply] at m1 m2 m3
  obtain ⟨q1, b1, c1⟩ := m1
  obtain ⟨q2, b2, c2⟩ := m2
  obtain ⟨q3, b3, c3⟩ := m3
  rw [hall q1 b1] at c1
  rw [hall q2 b2] at c2
  rw [hall q3 b3] at c3
  have l3 : (1.0E3:ℝ) = 1000 := by norm_num
  have l4 : (1.000E3:ℝ) = 1000 := by norm_num
  have l5 : (180.0:ℝ) = 180 := by norm_num
  simp only [Planet.nonDimState, Vehicle.entryState, Planet.computeR, div_mul_cancel₀ _ hRP.ne',
    div_mul_cancel₀ _ hVr.ne', l3, l4, l5] at c1 c2 c3
  exact ⟨by rw [← c1]; ring, by rw [← c2]; ring, c3.symm⟩

theorem ite_verdict_iff {A : Prop} {_ : Decidable A} : (if A then (-1:ℤ) else 1) = -1 ↔ A := by
  split_ifs with h <;> simp [h]

/-- The verdict for a vehicle that stays at its entry point: 100 km above Mars, 4 km/s, target apoapsis 4610.5 km. -/
theorem const_verdict (P : Planet) (hP : Planet.init "MARS" = .ok P) (V : Vehicle) (hV : V.planet = P) (h0 : V.init.h0Km = 100)
    (v0 : V.init.v0Kms = 4) (delta g : ℝ) : ∃ ans : ℤ,
      (Spec.atAngle V g).hitsTargetApoapsis .strict constIntegrator 1200 0.1 delta 4610.5 = .ok ans ∧
      (ans = -1 ∨ ans = 1) ∧
      (ans = -1 ↔ 0 ≤ Spec.radialSq P.GM (4000 ^ 2 / 2 - P.GM / 3489500) (3489500 * 4000 * cos (g * π / 180)) 8000000) := by
  subst hV
  have hR : V.planet.RP = 3389.5e3 := by simp [Planet.init] at hP; rw [← hP]; rfl
  have hG : V.planet.GM = 4.282837e13 := by simp [Planet.init] at hP; rw [← hP]; rfl
  have hL : V.planet.hLow = some 50e3 := by simp [Planet.init] at hP; rw [← hP]; rfl
  have hT : V.planet.hTrap = 10e3 := by simp [Planet.init] at hP; rw [← hP]; rfl
  have hS : V.planet.hSkip = 120e3 := by simp [Planet.init] at hP; rw [← hP]; rfl
  have hGM : 0 < V.planet.GM := by rw [hG]; norm_num
  have hPl : (Spec.atAngle V g).planet = V.planet := rfl
  have hP' : Planet.init "MARS" = .ok (Spec.atAngle V g).planet := by rw [hPl]; exact hP
  obtain ⟨T, t1, t2⟩ := samples_const "MARS" (Spec.atAngle V g) hP' 1200 0.1 delta (by norm_num) (by norm_num)
  have e : ((Spec.atAngle V g).planet.nonDimState (Vehicle.entryState (Spec.atAngle V g).planet
      (Spec.atAngle V g).init)).r * (Spec.atAngle V g).planet.RP - (Spec.atAngle V g).planet.RP = 100000 := by
    rw [hPl]
    have : V.planet.RP ≠ 0 := by rw [hR]; norm_num
    simp only [Planet.nonDimState, Vehicle.entryState, Planet.computeR, div_mul_cancel₀ _ this, h0]
    norm_num
  obtain ⟨out, ho⟩ := C24_returns "MARS" (Spec.atAngle V g) hP' .strict constIntegrator 1200 0.1 delta _ T t1
    (by dsimp only; rw [e, hPl, hT]; norm_num)
    (by dsimp only; rw [e, hPl, hS]; norm_num)
    (by intro q hq
        rw [t2 q hq]
        rw [e, hPl, hT]; norm_num)
  obtain ⟨s, ht, hs⟩ := terminal_isLast (C24_arrays_aligned (Spec.atAngle V g) .strict constIntegrator 1200 0.1 delta out ho)
  obtain ⟨u1, u2, u3⟩ := const_last "MARS" (Spec.atAngle V g) hP' .strict 1200 0.1 delta (by norm_num) (by norm_num)
    out s ho hs
  have u1' : s.r = 3489500 := by
    have hi : (Spec.atAngle V g).init.h0Km = 100 := h0
    rw [u1, hPl, hi, hR]; norm_num
  have u2' : s.v = 4000 := by
    have hi : (Spec.atAngle V g).init.v0Kms = 4 := v0
    rw [u2, hi]; norm_num
  have u3' : s.g = g * π / 180 := u3
  have hcore := verdict_core V.planet (r := s.r) (v := s.v) (g := s.g) (rho := 8000000) hGM (by rw [u1']; norm_num)
  have e1 : ((8000000:ℝ) - V.planet.RP) / 1000 = 4610.5 := by rw [hR]; norm_num
  rw [e1] at hcore
  unfold Vehicle.hitsTargetApoapsis Planet.apoapsisVerdict
  simp only [ho, bind, Except.bind, ht, getAttr, hL, pure, Except.pure] at hcore ⊢
  have na : ¬ (s.r - V.planet.RP) / 1000.0 < 50e3 / 1000.0 := by rw [u1', hR]; norm_num
  rw [if_neg na]
  refine ⟨_, rfl, by split_ifs <;> simp, ?_⟩
  have nb : ¬ (8000000:ℝ) ≤ 3489500 := by norm_num
  refine ite_verdict_iff.trans (hcore.trans ?_)
  rw [u1', u2', u3']
  simp only [nb, false_or, Planet.angMomScalar]

/-- The verdict of `const_verdict` differs between straight down and horizontal. -/
theorem const_verdict_differs (P : Planet) (hP : Planet.init "MARS" = .ok P) (f : ℝ → ℤ)
    (hf : ∀ g, f g = -1 ↔
      0 ≤ Spec.radialSq P.GM (4000 ^ 2 / 2 - P.GM / 3489500) (3489500 * 4000 * cos (g * π / 180)) 8000000) :
    f (-90) ≠ f 0 := by
  have hG : P.GM = 4.282837e13 := by simp [Planet.init] at hP; subst hP; rfl
  have h1 : f (-90) = -1 := by
    rw [hf]
    have : cos (-90 * π / 180) = 0 := by
      rw [show (-90 * π / 180 : ℝ) = -(π / 2) by ring, cos_neg, cos_pi_div_two]
    rw [this, hG]
    unfold Spec.radialSq
    norm_num
  have h2 : f 0 ≠ -1 := by
    rw [Ne, hf]
    have : cos (0 * π / 180) = 1 := by simp
    rw [this, hG]
    unfold Spec.radialSq
    norm_num
  rw [h1]; exact h2.symm

/-- The hypotheses of `C32_search_brackets_bound` are met for the overshoot search at Mars, entering at 100 km with
4 km/s, target apoapsis 4610.5 km, bracket from −90° to 0°, tolerance 10⁻³ degrees. -/
theorem C32_nonvacuous : ∃ (S : SearchEnv) (V : Vehicle) (f : ℝ → ℤ), OdeintLike S.I ∧
    Planet.init "MARS" = .ok V.planet ∧ (∀ g, f g = -1 ∨ f g = 1) ∧
    (∀ g ∈ uIcc (-90:ℝ) 0, (Spec.atAngle V g).hitsTargetApoapsis S.mode S.I S.tSec S.dt 180 S.targetKm = .ok (f g)) ∧
    f (-90) ≠ f 0 := by
  obtain ⟨P, hP⟩ := (C01_planet_names "MARS").1.mpr (by simp [Spec.bodies])
  let V : Vehicle := Vehicle.mk' 500 100 0.24 1 0 1 P ⟨fun _ => 1, fun _ => 1, fun _ => 1, fun _ => 1⟩ false (fun _ => 1)
    ⟨100, 0, 0, 4, 0, -7, 0, 0⟩
  have key := fun g => const_verdict P hP V rfl rfl rfl 180 g
  choose f hf1 hf2 hf3 using key
  exact ⟨⟨.strict, constIntegrator, 1200, 0.1, 4610.5⟩, V, f, constIntegrator_ok.1, hP, hf2, fun g _ => hf1 g,
    const_verdict_differs P hP f hf3⟩

/-- The hypothesis of `C36_drag_width_is_difference` is met: a drag-modulation corridor search that finds both limits. -/
example : ∃ (S : SearchEnv) (V W : Vehicle) (w : ℝ) (fuel : ℕ), OdeintLike S.I ∧ Planet.init "MARS" = .ok V.planet ∧
    Vehicle.computeTCWD S fuel V 50 4 (-90) 0 1e-3 = some (W, .ok w) := by
  obtain ⟨P, hP⟩ := (C01_planet_names "MARS").1.mpr (by simp [Spec.bodies])
  let V : Vehicle := Vehicle.mk' 500 100 0.24 1 0 1 P ⟨fun _ => 1, fun _ => 1, fun _ => 1, fun _ => 1⟩ false (fun _ => 1)
    ⟨100, 0, 0, 4, 0, -7, 0, 0⟩
  let S : SearchEnv := ⟨.strict, constIntegrator, 1200, 0.1, 4610.5⟩
  have find : ∀ b : ℝ, ∃ lim n, ∀ fuel, n ≤ fuel → ∀ U : Vehicle, U = Spec.withBeta V b →
      Vehicle.findEFPALimitD S fuel U (-90) 0 1e-3 = some (U, .ok (lim, 1)) := by
    intro b
    have key := fun g => const_verdict P hP { Spec.withBeta V b with LD := 0 } rfl rfl rfl 0 g
    choose f hf1 hf2 hf3 using key
    obtain ⟨lim, -, -, -, h, n, hn⟩ := C32_search_brackets_bound (S := S) Spec.IsSearch.efpa (Spec.withBeta V b) f hf2
      (-90) 0 1e-3 (by norm_num) (by norm_num) (fun g _ => hf1 g) (const_verdict_differs P hP f hf3)
    refine ⟨lim, n + 1, ?_⟩
    rintro fuel hf U rfl
    exact h n fuel hn hf
  obtain ⟨y, n, hy⟩ := find (50 * 4)
  obtain ⟨x, m, hx⟩ := find 50
  refine ⟨S, V, (V.setBeta (50 * 4)).setBeta 50, x - y, max n m, constIntegrator_ok.1, hP, ?_⟩
  unfold Vehicle.computeTCWD Vehicle.widthOf Vehicle.findUnderShootLimitD Vehicle.findOverShootLimitD
  have hy' : Vehicle.findEFPALimitD S (max n m) (V.setBeta (50 * 4)) (-90) 0 1e-3 = _ :=
    hy (max n m) (le_max_left _ _) _ rfl
  have hx' : Vehicle.findEFPALimitD S (max n m) ((V.setBeta (50 * 4)).setBeta 50) (-90) 0 1e-3 = _ :=
    hx (max n m) (le_max_right _ _) _ rfl
  simp only [hy', hx', if_true]

/-- For the vehicle of `const_verdict` the verdict switches once between −90° and 0°, at an angle `c`. -/
theorem const_threshold : ∃ c : ℝ, -90 < c ∧ c < 0 ∧ ∀ (P : Planet), Planet.init "MARS" = .ok P → ∀ V : Vehicle,
    V.planet = P → V.init.h0Km = 100 → V.init.v0Kms = 4 → ∀ delta g : ℝ, g ∈ uIcc (-90:ℝ) 0 →
      (Spec.atAngle V g).hitsTargetApoapsis .strict constIntegrator 1200 0.1 delta 4610.5
        = .ok (if g ≤ c then -1 else 1) := by
  set GM : ℝ := 4.282837e13 with hGMd
  set K : ℝ := 2 * ((4000:ℝ) ^ 2 / 2 - GM / 3489500 + GM / 8000000) * 8000000 ^ 2 / (3489500 * 4000) ^ 2 with hK
  have hK0 : 0 < K := by rw [hK, hGMd]; norm_num
  have hK1 : K < 1 := by rw [hK, hGMd]; norm_num
  have hs0 : 0 < √K := sqrt_pos.mpr hK0
  have hs1 : √K < 1 := by rw [sqrt_lt' one_pos]; simpa using hK1
  set b : ℝ := arccos √K with hb
  have hb0 : 0 < b := arccos_pos.mpr hs1
  have hb1 : b < π / 2 := arccos_lt_pi_div_two.mpr hs0
  have hcb : cos b = √K := cos_arccos (by linarith) hs1.le
  refine ⟨-(b * 180 / π), ?_, ?_, ?_⟩
  · rw [neg_lt_neg_iff, div_lt_iff₀ pi_pos]; linarith
  · rw [neg_lt_zero]; positivity
  intro P hP V hV h0 v0 delta g hg
  obtain ⟨ans, h1, h2, h3⟩ := const_verdict P hP V hV h0 v0 delta g
  rw [h1]
  congr 1
  have hG : P.GM = GM := by simp [Planet.init] at hP; subst hP; rfl
  rw [uIcc_of_le (by norm_num)] at hg
  have key : ans = -1 ↔ g ≤ -(b * 180 / π) := by
    rw [h3, hG]
    have e1 : (0 ≤ Spec.radialSq GM (4000 ^ 2 / 2 - GM / 3489500) (3489500 * 4000 * cos (g * π / 180)) 8000000) ↔
        cos (g * π / 180) ^ 2 ≤ K := by
      unfold Spec.radialSq
      rw [hK, le_div_iff₀ (by positivity)]
      constructor <;> intro h <;> nlinarith
    have hc0 : 0 ≤ cos (g * π / 180) := by
      apply cos_nonneg_of_neg_pi_div_two_le_of_le <;> nlinarith [pi_pos, hg.1, hg.2]
    have e2 : cos (g * π / 180) ^ 2 ≤ K ↔ cos (-(g * π / 180)) ≤ cos b := by
      rw [hcb, cos_neg, le_sqrt hc0 hK0.le]
    rw [e1, e2]
    have hx0 : 0 ≤ -(g * π / 180) := by nlinarith [pi_pos, hg.2]
    have hx1 : -(g * π / 180) ≤ π := by nlinarith [pi_pos, hg.1]
    rw [strictAntiOn_cos.le_iff_ge ⟨hx0, hx1⟩ ⟨hb0.le, by linarith [pi_pos]⟩, le_neg (a := g), div_le_iff₀ pi_pos]
    constructor <;> intro h <;> linarith
  by_cases hgc : g ≤ -(b * 180 / π)
  · rw [if_pos hgc, key.mpr hgc]
  · rw [if_neg hgc]
    exact h2.resolve_left (fun h => hgc (key.mp h))

/-- The demonstration vehicle and search settings: Mars, 100 km, 4 km/s, target apoapsis 4610.5 km. -/
def demoSearch : SearchEnv := ⟨.strict, constIntegrator, 1200, 0.1, 4610.5⟩

def demoCraft (P : Planet) : Vehicle :=
  Vehicle.mk' 500 100 0.24 1 0 1 P ⟨fun _ => 1, fun _ => 1, fun _ => 1, fun _ => 1⟩ false (fun _ => 1)
    ⟨100, 0, 0, 4, 0, -7, 0, 0⟩

/-- Case for `C32_nonpositive_tolerance_diverges`: the bracket −90°…0° with tolerance zero. -/
example : ∃ V : Vehicle, Planet.init "MARS" = .ok V.planet ∧
    ∀ fuel, Vehicle.findOverShootLimit demoSearch fuel V (-90) 0 0 = none := by
  obtain ⟨P, hP, -⟩ := demo_mars
  obtain ⟨c, hc0, hc1, H⟩ := const_threshold
  refine ⟨demoCraft P, hP, C32_nonpositive_tolerance_diverges (S := demoSearch) Spec.IsSearch.over (demoCraft P)
    (fun g => if g ≤ c then -1 else 1) (fun g => by split_ifs <;> simp) (-90) 0 0 le_rfl
    (fun g hg => H P hP (demoCraft P) rfl rfl rfl 180 g hg) ?_⟩
  simp [hc0.le, hc1]

/-- The demonstration searches succeed and are accurate to the tolerance 10⁻³.  Case for `C32_search_brackets_bound`, `C33_search_accurate` and for
`C34_search_returns_partial` (with a change of verdict in the bracket). -/
theorem demo_search : ∃ c : ℝ, -90 < c ∧ c < 0 ∧ ∀ P, Planet.init "MARS" = .ok P → ∃ x y n,
    (∀ fuel, n ≤ fuel → Vehicle.findOverShootLimit demoSearch fuel (demoCraft P) (-90) 0 1e-3
      = some (demoCraft P, .ok (x, 1)) ∧
      Vehicle.findUnderShootLimit demoSearch fuel (demoCraft P) (-90) 0 1e-3 = some (demoCraft P, .ok (y, 1))) ∧
    |x - c| ≤ 1e-3 ∧ |y - c| ≤ 1e-3 := by
  obtain ⟨c, hc0, hc1, H⟩ := const_threshold
  refine ⟨c, hc0, hc1, fun P hP => ?_⟩
  have hw : (1e-3:ℝ) < |0 - -90| := by norm_num
  have hne : (fun g : ℝ => (if g ≤ c then -1 else 1 : ℤ)) (-90) ≠ (fun g : ℝ => (if g ≤ c then -1 else 1 : ℤ)) 0 := by
    simp [hc0.le, hc1]
  have hb : ∀ g g' : ℝ, g < c → g' < c → (if g ≤ c then -1 else 1 : ℤ) = (if g' ≤ c then -1 else 1 : ℤ) := by
    intro g g' h h'; rw [if_pos h.le, if_pos h'.le]
  have ha : ∀ g g' : ℝ, c < g → c < g' → (if g ≤ c then -1 else 1 : ℤ) = (if g' ≤ c then -1 else 1 : ℤ) := by
    intro g g' h h'; rw [if_neg (not_le.mpr h), if_neg (not_le.mpr h')]
  obtain ⟨x, n, h1, h2⟩ := C33_search_accurate (S := demoSearch) Spec.IsSearch.over (demoCraft P)
    (fun g => if g ≤ c then -1 else 1) (fun g => by split_ifs <;> simp) (-90) 0 1e-3 c (by norm_num) hw
    (fun g hg => H P hP (demoCraft P) rfl rfl rfl 180 g hg) hne hb ha
  obtain ⟨y, m, h3, h4⟩ := C33_search_accurate (S := demoSearch) Spec.IsSearch.under (demoCraft P)
    (fun g => if g ≤ c then -1 else 1) (fun g => by split_ifs <;> simp) (-90) 0 1e-3 c (by norm_num) hw
    (fun g hg => H P hP (demoCraft P) rfl rfl rfl 0 g hg) hne hb ha
  exact ⟨x, y, max n m, fun fuel hf => ⟨h1 fuel (le_trans (le_max_left _ _) hf),
    h3 fuel (le_trans (le_max_right _ _) hf)⟩, h2, h4⟩

/-- Case for `C34_no_change_returns_zero`: a bracket that ends at −90° and at the switching angle, both steep. -/
example : ∃ (V : Vehicle) (c : ℝ), Planet.init "MARS" = .ok V.planet ∧ -90 < c ∧
    ∀ fuel, Vehicle.findOverShootLimit demoSearch fuel V (-90) c 1e-3 = some (V, .ok (0, 0)) := by
  obtain ⟨P, hP, -⟩ := demo_mars
  obtain ⟨c, hc0, hc1, H⟩ := const_threshold
  refine ⟨demoCraft P, c, hP, hc0, C34_no_change_returns_zero (S := demoSearch) Spec.IsSearch.over (demoCraft P) (-1) _ _ _
    ?_ ?_⟩
  · have := H P hP (demoCraft P) rfl rfl rfl 180 (-90) left_mem_uIcc
    rwa [if_pos hc0.le] at this
  · have := H P hP (demoCraft P) rfl rfl rfl 180 c (by rw [uIcc_of_le (by norm_num)]; exact ⟨hc0.le, hc1.le⟩)
    rwa [if_pos le_rfl] at this

/-- Case for `C34_narrow_bracket_raises`: the bracket −90°…0° with tolerance 100°. -/
example : ∃ V : Vehicle, Planet.init "MARS" = .ok V.planet ∧
    Vehicle.findOverShootLimit demoSearch 1 V (-90) 0 100 = some (V, .error .unboundLocalError) := by
  obtain ⟨P, hP, -⟩ := demo_mars
  obtain ⟨c, hc0, hc1, H⟩ := const_threshold
  refine ⟨demoCraft P, hP, C34_narrow_bracket_raises (S := demoSearch) Spec.IsSearch.over (demoCraft P) (-1) 1 _ _ _
    ?_ ?_ (by norm_num) (by norm_num) 1 le_rfl⟩
  · have := H P hP (demoCraft P) rfl rfl rfl 180 (-90) left_mem_uIcc
    rwa [if_pos hc0.le] at this
  · have := H P hP (demoCraft P) rfl rfl rfl 180 0 right_mem_uIcc
    rwa [if_neg (not_le.mpr hc1)] at this

/-- A propagation that succeeds at Jupiter, entering at 500 km. -/
theorem jupiter_flight : ∃ P, Planet.init "JUPITER" = .ok P ∧ ∀ g : ℝ, ∃ out, (Spec.atAngle (Vehicle.mk' 300 200 0.3 1 0 1 P
    ⟨fun _ => 1, fun _ => 1, fun _ => 1, fun _ => 1⟩ false (fun _ => 1) ⟨500, 0, 0, 60, 0, -7, 0, 0⟩) g).propogateEntry
      demoSearch.mode demoSearch.I demoSearch.tSec demoSearch.dt 180 = .ok out := by
  obtain ⟨P, hP⟩ := (C01_planet_names "JUPITER").1.mpr (by simp [Spec.bodies])
  have hR : P.RP = 69911e3 := by simp [Planet.init] at hP; subst hP; rfl
  have hT : P.hTrap = 50e3 := by simp [Planet.init] at hP; subst hP; rfl
  have hS : P.hSkip = 1000e3 := by simp [Planet.init] at hP; subst hP; rfl
  refine ⟨P, hP, fun g => ?_⟩
  let V := Vehicle.mk' 300 200 0.3 1 0 1 P ⟨fun _ => 1, fun _ => 1, fun _ => 1, fun _ => 1⟩ false (fun _ => 1)
    ⟨500, 0, 0, 60, 0, g, 0, 0⟩
  obtain ⟨S, h1, h2⟩ := samples_const "JUPITER" V hP 1200 0.1 180 (by norm_num) (by norm_num)
  have e : (P.nonDimState (Vehicle.entryState P V.init)).r * P.RP - P.RP = 500000 := by
    have : P.RP ≠ 0 := by rw [hR]; norm_num
    simp only [Planet.nonDimState, Vehicle.entryState, Planet.computeR, V, Vehicle.mk', div_mul_cancel₀ _ this]
    norm_num
  obtain ⟨out, ho⟩ := C24_returns "JUPITER" V hP .strict constIntegrator 1200 0.1 180 _ S h1
    (by show P.hTrap < (P.nonDimState (Vehicle.entryState P V.init)).r * P.RP - P.RP
        rw [e, hT]; norm_num)
    (by show (P.nonDimState (Vehicle.entryState P V.init)).r * P.RP - P.RP < P.hSkip
        rw [e, hS]; norm_num)
    (by intro q hq
        rw [h2 q hq]
        show (P.nonDimState (Vehicle.entryState P V.init)).r * P.RP - P.RP ≠ P.hTrap
        rw [e, hT]; norm_num)
  exact ⟨out, ho⟩

/-- Case for `C34_raises_without_threshold` and `C35_exception_leaves_angle`: a search at Jupiter that starts from entry
angle −7° raises and leaves the vehicle at −90°. -/
example : ∃ V : Vehicle, Planet.init "JUPITER" = .ok V.planet ∧ V.init.gamma0Deg = -7 ∧ ∀ fuel,
    (∃ W, Vehicle.findOverShootLimit demoSearch fuel V (-90) 0 1e-3 = some (W, .error .attributeError) ∧
      W.init.gamma0Deg = -90) ∧
    ∃ W, Vehicle.findOverShootLimit demoSearch fuel V (-90) 0 1e-3 = some (W, .error .attributeError) ∧ W ≠ V := by
  obtain ⟨P, hP, h⟩ := jupiter_flight
  obtain ⟨out, ho⟩ := h (-90)
  set V := Vehicle.mk' 300 200 0.3 1 0 1 P ⟨fun _ => 1, fun _ => 1, fun _ => 1, fun _ => 1⟩ false (fun _ => 1)
    ⟨500, 0, 0, 60, 0, -7, 0, 0⟩ with hV
  have hx := fun fuel => C34_raises_without_threshold (S := demoSearch) "JUPITER" V hP (Or.inl rfl) (-90) 0 1e-3 out ho fuel
  refine ⟨V, hP, rfl, fun fuel => ⟨hx fuel, ?_⟩⟩
  obtain ⟨s, hs, -⟩ := terminal_isLast (C24_arrays_aligned _ _ _ _ _ _ out ho)
  have hL : V.planet.hLow = none := by
    have : P.hLow = none := by simp [Planet.init] at hP; subst hP; rfl
    exact this
  refine C35_exception_leaves_angle (S := demoSearch) Spec.IsSearch.over V .attributeError (-90) 0 1e-3 ?_
    (by rw [hV]; norm_num [Vehicle.mk']) fuel
  simp only [Vehicle.hitsTargetApoapsis, Planet.apoapsisVerdict, ho, bind, Except.bind, hs, hL, getAttr]

/-- Case for `C35_vehicle_restored_partial`, `C36_width_is_difference` and `C36_failed_search_reported_as_width`: the corridor
of the demonstration vehicle, and the same with an undershoot bracket that holds no limit. -/
example : ∃ (V : Vehicle) (fuel : ℕ) (x y z : ℝ), Planet.init "MARS" = .ok V.planet ∧
    Vehicle.findOverShootLimit demoSearch fuel V (-90) 0 1e-3 = some (V, .ok (x, 1)) ∧
    Vehicle.computeTCW demoSearch fuel V (-90) 0 (-90) 0 1e-3 1e-3 = some (V, .ok (x - y)) ∧
    Vehicle.computeTCW demoSearch fuel V (-90) 0 (-90) z 1e-3 1e-3 = some (V, .ok x) ∧ -90 < z := by
  obtain ⟨P, hP, -⟩ := demo_mars
  obtain ⟨c, hc0, hc1, H⟩ := const_threshold
  obtain ⟨c2, _, _, h⟩ := demo_search
  obtain ⟨x, y, n, hn, -⟩ := h P hP
  refine ⟨demoCraft P, n, x, y, c, hP, (hn n le_rfl).1, ?_, ?_, hc0⟩
  · unfold Vehicle.computeTCW Vehicle.widthOf
    simp only [(hn n le_rfl).1, (hn n le_rfl).2]
    simp
  · refine C36_failed_search_reported_as_width (S := demoSearch) (demoCraft P) n _ _ _ _ _ _ x (-1) (hn n le_rfl).1 ?_ ?_
    · have := H P hP (demoCraft P) rfl rfl rfl 0 (-90) left_mem_uIcc
      rwa [if_pos hc0.le] at this
    · have := H P hP (demoCraft P) rfl rfl rfl 0 c (by rw [uIcc_of_le (by norm_num)]; exact ⟨hc0.le, hc1.le⟩)
      rwa [if_pos le_rfl] at this

/-- Case for `C36_width_accurate_partial`: both brackets hold the single switching angle of the demonstration vehicle, so
the true corridor width is zero. -/
example : ∃ (V : Vehicle) (w : ℝ) (n : ℕ), Planet.init "MARS" = .ok V.planet ∧
    (∀ fuel, n ≤ fuel → Vehicle.computeTCW demoSearch fuel V (-90) 0 (-90) 0 1e-3 1e-3 = some (V, .ok w)) ∧
    |w - 0| ≤ 1e-3 + 1e-3 := by
  obtain ⟨P, hP, -⟩ := demo_mars
  obtain ⟨c, hc0, hc1, H⟩ := const_threshold
  have hw : (1e-3:ℝ) < |0 - -90| := by norm_num
  have hf : ∀ g : ℝ, (if g ≤ c then -1 else 1 : ℤ) = -1 ∨ (if g ≤ c then -1 else 1 : ℤ) = 1 := by
    intro g; split_ifs <;> simp
  have hne : (fun g : ℝ => (if g ≤ c then -1 else 1 : ℤ)) (-90) ≠ (fun g : ℝ => (if g ≤ c then -1 else 1 : ℤ)) 0 := by
    simp [hc0.le, hc1]
  have hb : ∀ g g' : ℝ, g < c → g' < c → (if g ≤ c then -1 else 1 : ℤ) = (if g' ≤ c then -1 else 1 : ℤ) := by
    intro g g' h h'; rw [if_pos h.le, if_pos h'.le]
  have ha : ∀ g g' : ℝ, c < g → c < g' → (if g ≤ c then -1 else 1 : ℤ) = (if g' ≤ c then -1 else 1 : ℤ) := by
    intro g g' h h'; rw [if_neg (not_le.mpr h), if_neg (not_le.mpr h')]
  obtain ⟨w, n, h1, h2⟩ := C36_width_accurate_partial (S := demoSearch) (demoCraft P) (fun g => if g ≤ c then -1 else 1)
    (fun g => if g ≤ c then -1 else 1) hf hf (-90) 0 (-90) 0 1e-3 1e-3 c c (by norm_num) (by norm_num) hw hw
    (fun g hg => H P hP (demoCraft P) rfl rfl rfl 180 g hg) (fun g hg => H P hP (demoCraft P) rfl rfl rfl 0 g hg) hne hne
    hb ha hb ha
  exact ⟨demoCraft P, w, n, hP, h1, by simpa using h2⟩

/-- With the constant integrator and no initial heat load the two propagation functions agree. -/
theorem const_hits2 (P : Planet) (hP : Planet.init "MARS" = .ok P) (delta g : ℝ) : ∃ ans : ℤ,
    (Spec.atAngle (demoCraft P) g).hitsTargetApoapsis2 .strict constIntegrator 1200 0.1 delta 4610.5 = .ok ans := by
  obtain ⟨a, ha, -⟩ := const_verdict P hP (demoCraft P) rfl rfl rfl delta g
  unfold Vehicle.hitsTargetApoapsis at ha
  have e : (Spec.atAngle (demoCraft P) g).propogateEntry2 .strict constIntegrator 1200 0.1 delta
      = (Spec.atAngle (demoCraft P) g).propogateEntry .strict constIntegrator 1200 0.1 delta := rfl
  unfold Vehicle.hitsTargetApoapsis2
  rw [e]
  have hL : P.hLow = some 50e3 := by simp [Planet.init] at hP; subst hP; rfl
  have hL' : (demoCraft P).planet.hLow = some 50e3 := hL
  cases ho : (Spec.atAngle (demoCraft P) g).propogateEntry .strict constIntegrator 1200 0.1 delta with
  | error e => rw [ho] at ha; simp [bind, Except.bind] at ha
  | ok out =>
    rw [ho] at ha
    simp only [bind, Except.bind] at ha ⊢
    cases hs : out.terminal with
    | error e => rw [hs] at ha; simp at ha
    | ok s => simp only [Planet.apoapsisVerdict2, hL', getAttr, bind, Except.bind, pure, Except.pure]; exact ⟨_, rfl⟩

/-- Case for `C36_width_is_difference2`: degenerate brackets at −90° and −7° (no verdict change, so both limits are 0). -/
example : ∃ V : Vehicle, Planet.init "MARS" = .ok V.planet ∧
    ∀ fuel, Vehicle.computeTCW2 demoSearch fuel V (-90) (-90) (-7) (-7) 1e-3 1e-3 = some (V, .ok 0) := by
  obtain ⟨P, hP, -⟩ := demo_mars
  obtain ⟨a, ha⟩ := const_hits2 P hP 180 (-90)
  obtain ⟨b, hb⟩ := const_hits2 P hP 0 (-7)
  refine ⟨demoCraft P, hP, fun fuel => ?_⟩
  have h1 := C34_no_change_returns_zero (S := demoSearch) Spec.IsSearch.over2 (demoCraft P) a (-90) (-90) 1e-3 ha ha fuel
  have h2 := C34_no_change_returns_zero (S := demoSearch) Spec.IsSearch.under2 (demoCraft P) b (-7) (-7) 1e-3 hb hb fuel
  unfold Vehicle.computeTCW2 Vehicle.widthOf
  simp only [h1, h2]
  simp

/-- Case for `C37_ballistic_iff_built_ballistic_partial`: at 50 km above Mars in the demonstration atmosphere of density 1,
the craft built with lift-to-drag ratio 0.24 keeps its lift during the search, the one built with 0 has none. -/
example : ∃ P, Planet.init "MARS" = .ok P ∧ ∀ LD : ℝ,
    (Vehicle.L (Spec.atAngle { Vehicle.mk' 500 100 LD 1 0 1 P ⟨fun _ => 1, fun _ => 1, fun _ => 1, fun _ => 1⟩ false
      (fun _ => 1) ⟨100, 0, 0, 4, 0, -7, 0, 0⟩ with LD := 0 } (-9)) 3439.5e3 0 0 5000 = 0 ↔ LD = 0) := by
  obtain ⟨P, hP, hR, hT, -⟩ := demo_mars
  refine ⟨P, hP, fun LD => C37_ballistic_iff_built_ballistic_partial 500 100 LD 1 0 1 P _ false _ _ (by norm_num)
    (by norm_num) (by norm_num) (-9) 3439.5e3 0 0 5000 ?_ (by norm_num)⟩
  have : P.rho ⟨fun _ => 1, fun _ => 1, fun _ => 1, fun _ => 1⟩ 3439.5e3 0 0 = 1 :=
    (C03_density_regimes P _ _ (by rw [hT]; norm_num)).1 (by rw [hR]; norm_num) (by rw [hR, hT]; norm_num)
  rw [this]; norm_num

end AMAT.Props
