import Mathlib.Algebra.Order.Floor.Ring
import Verif.Model.Telecom

/-
Model of `Link.print_link_budget` (`/repo/AMAT/telecom.py:225-252`): the decibel values that are printed.
-/

noncomputable section

open Classical

namespace AMAT

/-- Python `round(x)` to an integer: to nearest, ties to even. -/
def roundHalfEven (x : ℝ) : ℤ :=
  if x - ⌊x⌋ < 1 / 2 then ⌊x⌋
  else if x - ⌊x⌋ > 1 / 2 then ⌊x⌋ + 1
  else if Even ⌊x⌋ then ⌊x⌋ else ⌊x⌋ + 1

/-- `round(x, 2)`.  Simplification: exact rounding of the real number. -/
def round2 (x : ℝ) : ℝ := (roundHalfEven (x * 100) : ℝ) / 100

/-- One printed line: the sign written in the format string (`+1`, `-1`) and the number that follows. -/
structure BudgetLine where
  label : String
  sign : ℤ
  value : ℝ

/-- The lines of `print_link_budget` that carry decibel values (telecom.py:229-247), in the order printed.  The
remaining lines up to 247 give the inputs in their own units. -/
def budgetLines (a : LinkArgs) (l : Link) : List BudgetLine :=
  [⟨"Transmitter Power, dB", 1, round2 (computeDB a.Pt)⟩,
   ⟨"Transmitter Loss, dB", -1, round2 a.LtDB⟩,
   ⟨"S/C Circuit Loss, dB", -1, round2 a.LscDB⟩,
   ⟨"Transmitter Gain, dBi", 1, round2 l.GtDBi⟩,
   ⟨"Receiver Gain, dBi", 1, round2 l.GrDBi⟩,
   ⟨"System Noise Temp, dBK", -1, round2 (computeDB a.Ts)⟩,
   ⟨"Free Space Loss, dB", -1, round2 l.LsDB⟩,
   ⟨"Atmospheric Loss, dB", -1, a.LaDB⟩,
   ⟨"Other Losses, dB", -1, a.LotherDB⟩,
   ⟨"Boltzmann's const, dB", 1, round2 (-computeDB 1.38e-23)⟩,
   ⟨"Data rate, dBhz", -1, round2 (computeDB l.R)⟩]

/-- The last block (telecom.py:249-251): available, required and margin. -/
def budgetResult (a : LinkArgs) (l : Link) : ℝ × ℝ × ℝ := (round2 l.EBN0, a.EbN0req, round2 l.EBN0margin)

end AMAT
