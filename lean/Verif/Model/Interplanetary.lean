import Verif.Model.Launcher
import Mathlib.Data.Finset.Sort

/-
Model of the launch-mass plots of `/repo/AMAT/interplanetary.py`.

Only the numbers that decide what is drawn are modelled: the plotted points, the axis limits and
the colour limits.  Labels, fonts, tick marks and the files written by `savefig` are not modelled.
-/

noncomputable section

open Classical

namespace AMAT

/-- `Interplanetary.__init__` (interplanetary.py:38-60): the columns of the trajectory sheet, one
entry per launch opportunity.  The reading of the spreadsheet and of the dates is not modelled: a
launch date is a real number on the time axis. -/
structure Opportunity where
  lcdate : ℝ
  C3 : ℝ
  TOF : ℝ
  Avinf : ℝ

/-- `sorted(set(Lcmass))[1]` (interplanetary.py:103, 252, 317, 387): the second smallest *distinct*
value; `IndexError` when there are fewer than two distinct values. -/
def secondDistinct (masses : List ℝ) : Py ℝ :=
  match (masses.toFinset.sort (· ≤ ·))[1]? with
  | some x => .ok x
  | none => .error .indexError

/-- `plt.ylim(max(0, sorted(set(Lcmass))[1])-100, max(Lcmass)+100)`
(interplanetary.py:103, 317, 387): lower and upper limit of the mass axis. -/
def massAxis (masses : List ℝ) : Py (ℝ × ℝ) := do
  let s ← secondDistinct masses
  let M ← pyMax masses
  return (max 0 s - 100, M + 100)

/-- `vmin = max(0, sorted(set(Lcmass))[1]), vmax = max(Lcmass)` (interplanetary.py:252): limits of the
colour bar. -/
def massColours (masses : List ℝ) : Py (ℝ × ℝ) := do
  let s ← secondDistinct masses
  let M ← pyMax masses
  return (max 0 s, M)

/-- A figure: the points and the limits of its vertical axis (`none`: chosen by the plot library so
that all points are visible) and of its colour scale. -/
structure Figure where
  points : List (ℝ × ℝ)
  ylim : Option (ℝ × ℝ)
  colours : Option (List ℝ × (ℝ × ℝ))

/-- `plot_launch_mass_vs_launch_date` (interplanetary.py:76-129). -/
def plotMassDate (rows : List (ℝ × ℝ)) (os : List Opportunity) : Py Figure := do
  let masses ← computeLaunchCapability rows (os.map (·.C3))
  let lim ← massAxis masses
  return ⟨(os.map (·.lcdate)).zip masses, some lim, none⟩

/-- `plot_launch_mass_vs_TOF` (interplanetary.py:295-344).  The misspelt keyword `box_inches` of
line 340 concerns the writing of the file, which is not modelled. -/
def plotMassTOF (rows : List (ℝ × ℝ)) (os : List Opportunity) : Py Figure := do
  let masses ← computeLaunchCapability rows (os.map (·.C3))
  let lim ← massAxis masses
  return ⟨(os.map (·.TOF)).zip masses, some lim, none⟩

/-- `plot_launch_mass_vs_TOF_with_vinf_colorbar` (interplanetary.py:348-414); the minimum and maximum
of an empty column are NaN in pandas, but then line 387 raises before anything is drawn. -/
def plotMassTOFColour (rows : List (ℝ × ℝ)) (os : List Opportunity) : Py Figure := do
  let masses ← computeLaunchCapability rows (os.map (·.C3))
  let lim ← massAxis masses
  let lo ← pyMin (os.map (·.Avinf))
  let hi ← pyMax (os.map (·.Avinf))
  return ⟨(os.map (·.TOF)).zip masses, some lim, some (os.map (·.Avinf), (lo, hi))⟩

/-- `plot_Avinf_vs_launch_date_with_launch_mass_colorbar` (interplanetary.py:227-291): the vertical
axis shows the arrival speed, the colour the launch mass. -/
def plotVinfColour (rows : List (ℝ × ℝ)) (os : List Opportunity) : Py Figure := do
  let masses ← computeLaunchCapability rows (os.map (·.C3))
  let lim ← massColours masses
  return ⟨(os.map (·.lcdate)).zip (os.map (·.Avinf)), none, some (masses, lim)⟩

/-- `plot_TOF_vs_launch_date` (interplanetary.py:131-177). -/
def plotTOFDate (os : List Opportunity) : Figure :=
  ⟨(os.map (·.lcdate)).zip (os.map (·.TOF)), none, none⟩

/-- `plot_Avinf_vs_launch_date` (interplanetary.py:179-225). -/
def plotVinfDate (os : List Opportunity) : Figure :=
  ⟨(os.map (·.lcdate)).zip (os.map (·.Avinf)), none, none⟩

end AMAT
