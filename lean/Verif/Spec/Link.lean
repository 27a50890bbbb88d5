import Mathlib.Analysis.SpecialFunctions.Log.Base
import Mathlib.Analysis.SpecialFunctions.Trigonometric.Basic

/-
Independent specification of a radio link, in linear (not decibel) quantities.
-/

noncomputable section

namespace AMAT.Spec

/-- Linear antenna gain from a dish (diameter, efficiency) or, failing that, from a gain in dBi. -/
def antennaGain (D eta gdBi : Option ℝ) (wavelength : ℝ) : Option ℝ :=
  match D, eta, gdBi with
  | some D, some eta, _ => some (eta * (Real.pi * D / wavelength) ^ 2)
  | _, _, some g => some ((10 : ℝ) ^ (g / 10))
  | _, _, none => none

/-- The ratio of energy per bit to noise density: received power (Friis) divided by loss, noise density
`k·T` and bit rate. `lossDB` is the sum of all extra losses in decibels; distances in metres, rate in bit/s. -/
def ebN0 (Pt Gt Gr wavelength dist k T rate lossDB : ℝ) : ℝ :=
  Pt * Gt * Gr * (wavelength / (4 * Real.pi * dist)) ^ 2
    / ((10 : ℝ) ^ (lossDB / 10) * (k * T) * rate)

end AMAT.Spec
