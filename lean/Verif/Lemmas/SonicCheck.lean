import Verif.Lemmas.SplineReal
import Verif.Lemmas.SonicCert
import Verif.Lemmas.AtmosphereCheck

/-
The speed of sound derived from the shipped atmosphere files (planet.py:288-290): integer enclosures of the square roots
at the rows, and the certificates for the interpolation between them, evaluated by the kernel.
-/

noncomputable section

open Classical

namespace AMAT.Props

open AMAT AMAT.Spline AMAT.Data

/-- Newton's method for the integer square root; nothing is assumed about the result. -/
def isqrt : ℕ → ℕ → ℕ → ℕ
  | 0, _, g => g
  | k + 1, n, g => let g' := (g + n / g) / 2; if g' < g then isqrt k n g' else g

/-- The speed of sound of a row in millimetres per second, rounded down, for the ratio of specific heats
`C / 10 ^ c`. -/
def sonicCol (F : AtmFile) (C c : ℕ) (r : ℤ × ℤ × ℤ × ℤ) : ℤ :=
  isqrt 40 ((C * 10 ^ (F.dDec + 6) * r.2.2.1.toNat) / (10 ^ (c + F.pDec) * r.2.2.2.toNat)) 10000000

/-- The enclosure of the speed of sound of a row. -/
def enclosed (F : AtmFile) (C c : ℕ) (r : ℤ × ℤ × ℤ × ℤ) : Bool :=
  let Y := sonicCol F C c r
  let den := 10 ^ (c + F.pDec) * r.2.2.2
  let num := C * 10 ^ (F.dDec + 6) * r.2.2.1
  decide (0 < r.2.2.2) && decide (0 ≤ Y) && decide (Y ^ 2 * den ≤ num) && decide (num ≤ (Y + 1) ^ 2 * den)

/-- Everything that is computed about the speed of sound of a file. -/
def sonicCheck (F : AtmFile) (asc : Bool) (C c : ℕ) (m : List ℤ) (κ e e₂ D w lo hi : ℤ) : Bool :=
  let S := if asc then F.rows else F.rows.reverse
  let L := nodesOf S (sonicCol F C c) m
  decide (m.length = S.length) && certCheck κ e D L && decide (0 < w) && decide (6 * κ ≤ e₂ * w ^ 2) &&
    F.rows.all (enclosed F C c) && pairsCheck (boundCheck κ (D * (e + e₂)) w (1000 * lo) (1000 * hi)) L

theorem venus_sonic :
    sonicCheck venus true 1289 3 Cert.venusSonic (10 ^ 5) 2 1 7 1000 189 975 = true := by
  decide +kernel

theorem earth_sonic :
    sonicCheck earth false 14 1 Cert.earthSonic (10 ^ 6) 2 2 7 2000 271 563 = true := by
  decide +kernel

theorem mars_sonic :
    sonicCheck mars true 1289 3 Cert.marsSonic (10 ^ 5) 2 1 7 1000 174 236 = true := by
  decide +kernel

theorem jupiter_sonic :
    sonicCheck jupiter false 14348 4 Cert.jupiterSonic (10 ^ 6) 2 335 7 134 775 2206 = true := by
  decide +kernel

theorem saturn_sonic :
    sonicCheck saturn false 14348 4 Cert.saturnSonic (10 ^ 6) 2 127 10 218 686 1518 = true := by
  decide +kernel

theorem titan_sonic :
    sonicCheck titan false 14 1 Cert.titanSonic (10 ^ 6) 2 24 7 500 171 341 = true := by
  decide +kernel

theorem neptune_sonic :
    sonicCheck neptune true 145 2 Cert.neptuneSonic (10 ^ 2) 2 1 7 50 485 2098 = true := by
  decide +kernel

theorem uranusAmes_sonic :
    sonicCheck uranusAmes true 145 2 Cert.uranusAmesSonic (10 ^ 6) 2 1 7 3900 523 2222 = true := by
  decide +kernel

theorem uranusGram_sonic :
    sonicCheck uranusGram true 145 2 (List.replicate 5201 0) (10 ^ 0) 20088 6 7 1 500 2210 = true := by
  decide +kernel

end AMAT.Props
