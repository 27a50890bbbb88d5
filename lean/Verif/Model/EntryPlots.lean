import Verif.Model.Trajectory

/-
Model of the numbers drawn by `makeBasicEntryPlots` (vehicle.py:2945-3007) and `createQPlot` (vehicle.py:4218-4284).

Not modelled: fonts, ticks, labels and the writing of files.
-/

noncomputable section

namespace AMAT

/-- `plt.plot(x, y)`: one point per index; arrays of different length raise `ValueError`. -/
def plotXY {α : Type} (x : List ℝ) (y : List α) : Py (List (ℝ × α)) :=
  if x.length = y.length then .ok (x.zip y) else .error .valueError

/-- The curves of the four panels; an acceleration that is not a number leaves a gap. -/
structure EntryPlots where
  altitude : List (ℝ × ℝ)
  velocity : List (ℝ × ℝ)
  deceleration : List (ℝ × Option ℝ)
  heatRate : List (ℝ × ℝ)

/-- `makeBasicEntryPlots` (vehicle.py:2945-3007), from the attributes left by the last propagation (plotted against
`self.t_minc`, lines 2964, 2975, 2986, 2997); the axes are scaled by the plot library. -/
def makeBasicEntryPlots (o : PropOut) : Py EntryPlots := do
  let a ← plotXY o.plotc.t o.plotc.r
  let b ← plotXY o.plotc.t o.plotc.v
  let c ← plotXY o.plotc.t o.accNetG
  let d ← plotXY o.plotc.t o.qStagTotal
  return ⟨a, b, c, d⟩

/-- A curve with the limits of the horizontal and the vertical axis. -/
structure LimitedPlot where
  points : List (ℝ × ℝ)
  xlim : ℝ × ℝ
  ylim : ℝ × ℝ

/-- `createQPlot` (vehicle.py:4218-4284): propagation (4237), curve (4253) and axis limits (4255-4256).  The straight
line of 4241-4245 is computed but not drawn (4258 is a comment). -/
def Vehicle.createQPlot (V : Vehicle) (mode : ScipyMode) (I : Integrator) (tSec dt deltaDeg : ℝ) : Py LimitedPlot := do
  let o ← V.propogateEntry mode I tSec dt deltaDeg
  let p ← plotXY (o.plotc.r.map (· * 1E3)) (o.dynPresAtm.map (· * 1.01325E5))
  return ⟨p, (100.0E3, 700.0E3), (0.0, 12500.0)⟩

end AMAT
