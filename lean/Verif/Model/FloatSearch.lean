import Mathlib.Data.Real.Basic
import Mathlib.Algebra.Order.Group.Abs
import Verif.Model.Corridor

/-
The corridor-bound searches of `AMAT/vehicle.py` once more, with the arithmetic on the entry flight-path angle rounded
to floating-point numbers.  `Verif/Model/Corridor.lean` takes the angles to be real numbers; here every sum, difference
and product of the search loop is rounded to the nearest number of a set `F` of representable numbers.  The verdict
test stays an arbitrary function of the vehicle, so its own rounding errors are covered as well.

Not modelled: overflow (`F` is not bounded above), NaN and infinities.
-/

noncomputable section

open Classical

namespace AMAT

/-- Rounding to nearest in a set of representable numbers; how ties are broken is left open. -/
structure RoundsTo (F : Set ℝ) (rnd : ℝ → ℝ) : Prop where
  mem : ∀ x, rnd x ∈ F
  nearest : ∀ x, ∀ y ∈ F, |x - rnd x| ≤ |x - y|

/-- The finite double-precision numbers (Python's `float`), without the upper limit of the exponent. -/
def binary64 : Set ℝ := {x | ∃ m e : ℤ, |m| < 2 ^ 53 ∧ -1074 ≤ e ∧ x = (m : ℝ) * (2 : ℝ) ^ e}

/-- The `while` loop of the searches (vehicle.py:3295-3317, 3398-3419, 3499-3522, 3602-3625, 3819-3845, 3919-3945) with
every arithmetic operation rounded: `abs(high - low) > tol` and `mid = 0.5*(low + high)`. -/
def bisectLoopR (rnd : ℝ → ℝ) (H : Test) (tol : ℝ) :
    ℕ → Vehicle → ℝ → ℝ → Option ℝ → Option (Vehicle × Py (Option ℝ))
  | 0, _, _, _, _ => none
  | n + 1, V, lo, hi, limit =>
      if |rnd (hi - lo)| > tol then
        let mid := rnd (0.5 * rnd (lo + hi))
        match H (V.setGamma lo) with
        | .error e => some (V.setGamma lo, .error e)
        | .ok ans1 =>
          match H ((V.setGamma lo).setGamma mid) with
          | .error e => some ((V.setGamma lo).setGamma mid, .error e)
          | .ok ans2 =>
            let V3 := ((V.setGamma lo).setGamma mid).setGamma hi
            match H V3 with
            | .error e => some (V3, .error e)
            | .ok ans3 =>
              if ans1 * ans2 < 0 then bisectLoopR rnd H tol n V3 lo mid (some mid)
              else if ans2 * ans3 < 0 then bisectLoopR rnd H tol n V3 mid hi (some hi)
              else bisectLoopR rnd H tol n V3 lo hi (some hi)
      else some (V, .ok limit)

/-- The body of a search (vehicle.py:3279-3324, 3382-3426, 3484-3529, 3587-3632, 3802-3852, 3902-3952), with the rounded
loop. -/
def bisectBodyR (rnd : ℝ → ℝ) (H : Test) (fuel : ℕ) (V : Vehicle) (lo hi tol : ℝ) :
    Option (Vehicle × Py (Option (ℝ × ℝ))) :=
  match H (V.setGamma lo) with
  | .error e => some (V.setGamma lo, .error e)
  | .ok ans1 =>
    let V2 := (V.setGamma lo).setGamma hi
    match H V2 with
    | .error e => some (V2, .error e)
    | .ok ans2 =>
      if ans1 * ans2 < 0 then
        match bisectLoopR rnd H tol fuel V2 lo hi none with
        | none => none
        | some (W, .error e) => some (W, .error e)
        | some (W, .ok none) => some (W, .ok none)
        | some (W, .ok (some x)) => some (W, .ok (some (x, 1.0)))
      else some (V2, .ok (some (0.0, 0.0)))

/-- `findOverShootLimit(2)`, `findUnderShootLimit(2)` (vehicle.py:3228-3636) with rounded angles, for the verdict test
`H`. -/
def bisectSearchR (rnd : ℝ → ℝ) (H : Test) (fuel : ℕ) (V : Vehicle) (lo hi tol : ℝ) : Option (Vehicle × Py (ℝ × ℝ)) :=
  saveRestore (fun W => W.setGamma V.init.gamma0Deg) (bisectBodyR rnd H fuel V lo hi tol)

/-- `findEFPALimitD(2)` (vehicle.py:3759-3957) with rounded angles, for the verdict test `H`. -/
def efpaSearchR (rnd : ℝ → ℝ) (H : Test) (fuel : ℕ) (V : Vehicle) (lo hi tol : ℝ) : Option (Vehicle × Py (ℝ × ℝ)) :=
  saveRestore (fun W => { W.setGamma V.init.gamma0Deg with LD := V.LD })
    (bisectBodyR rnd H fuel { V with LD := 0.0 } lo hi tol)

end AMAT
