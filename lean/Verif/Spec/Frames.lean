import Mathlib.Analysis.SpecialFunctions.Trigonometric.Basic
import Verif.Spec.Vec3

/-
Specification of the rotating planet-fixed frame: Cartesian position and velocity of a vehicle given
by (radius, longitude, latitude, speed, heading from east towards north, flight-path angle), the zonal
gravity potential, and Newton's law in a frame rotating about the polar (z) axis.
Independent of the model's own helper functions.
-/

noncomputable section

namespace AMAT.Spec

open Real

/-- Up direction at longitude `theta`, latitude `phi`. -/
def up (theta phi : ℝ) : V3 := ⟨cos phi * cos theta, cos phi * sin theta, sin phi⟩

/-- East direction. -/
def east (theta : ℝ) : V3 := ⟨-sin theta, cos theta, 0⟩

/-- North direction. -/
def north (theta phi : ℝ) : V3 := ⟨-(sin phi * cos theta), -(sin phi * sin theta), cos phi⟩

/-- Horizontal direction of flight. -/
def horiz (theta phi psi : ℝ) : V3 := cos psi • east theta + sin psi • north theta phi

/-- Direction of the velocity. -/
def along (theta phi psi gamma : ℝ) : V3 := sin gamma • up theta phi + cos gamma • horiz theta phi psi

/-- Direction of lift at zero bank: normal to the velocity in the vertical plane. -/
def normal (theta phi psi gamma : ℝ) : V3 :=
  cos gamma • up theta phi + (-sin gamma) • horiz theta phi psi

/-- Horizontal direction to the left of the velocity. -/
def lateral (theta phi psi : ℝ) : V3 := (-sin psi) • east theta + cos psi • north theta phi

/-- Cartesian position. -/
def pos (r theta phi : ℝ) : V3 := r • up theta phi

/-- Cartesian velocity relative to the rotating planet. -/
def vel (theta phi v psi gamma : ℝ) : V3 := v • along theta phi psi gamma

/-- Zonal gravity potential (dimensionless: `GM = RP = 1`) with second and third Legendre polynomials in
the sine of latitude. Gravity is its gradient. -/
def potential (J2 J3 r phi : ℝ) : ℝ :=
  1 / r * (1 - J2 / r ^ 2 * ((3 * sin phi ^ 2 - 1) / 2)
    - J3 / r ^ 3 * ((5 * sin phi ^ 3 - 3 * sin phi) / 2))

/-- Angular velocity of the frame. -/
def spin (Omega : ℝ) : V3 := ⟨0, 0, Omega⟩

/-- Newton's law in the rotating frame: relative acceleration produced by a force per unit mass `F`. -/
def rotatingAccel (Omega : ℝ) (X V F : V3) : V3 :=
  F - (2 : ℝ) • V3.cross (spin Omega) V - V3.cross (spin Omega) (V3.cross (spin Omega) X)

/-- Jacobi energy of the rotating frame. -/
def jacobi (J2 J3 Omega r phi v : ℝ) : ℝ :=
  v ^ 2 / 2 - potential J2 J3 r phi - Omega ^ 2 * (r * cos phi) ^ 2 / 2

end AMAT.Spec
