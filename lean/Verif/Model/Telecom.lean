import Mathlib.Analysis.SpecialFunctions.Log.Base
import Mathlib.Analysis.SpecialFunctions.Trigonometric.Basic
import Verif.Model.Numpy

/-
Model of `/repo/AMAT/telecom.py`: `Link` and `Schedule`.
-/

noncomputable section

open Classical

namespace AMAT

/-- Python truthiness of an optional float argument (`if Dt and eta_t`, telecom.py:126, 141):
`None` and `0.0` are falsy. -/
def truthy (x : Option ℝ) : Prop := ∃ v, x = some v ∧ v ≠ 0

/-- telecom.py:173-187 `Link.compute_dB`.  `np.log10` of a non-positive number (`-inf` / NaN) is
not modelled: theorems assume positive arguments. -/
def computeDB (X : ℝ) : ℝ := 10 * Real.logb 10 X

/-- telecom.py:189-206 `Link.compute_antenna_gain`. -/
def computeAntennaGain (eta D wavelength : ℝ) : ℝ := eta * ((Real.pi * D) / wavelength) ^ 2

/-- telecom.py:208-222 `Link.compute_free_space_loss_dB`. -/
def computeFreeSpaceLossDB (range wavelength : ℝ) : ℝ :=
  20 * Real.logb 10 (4 * Real.pi * range / wavelength)

/-- Arguments of `Link.__init__`, telecom.py:75-77 (with the defaults given there). -/
structure LinkArgs where
  freq : ℝ
  Pt : ℝ
  Ts : ℝ
  rangeKm : ℝ
  LotherDB : ℝ
  rateKbps : ℝ
  EbN0req : ℝ
  Dt : Option ℝ := none
  etaT : Option ℝ := none
  GtDBi : Option ℝ := none
  Dr : Option ℝ := none
  etaR : Option ℝ := none
  GrDBi : Option ℝ := none
  LtDB : ℝ := 1.0
  LscDB : ℝ := 0.2
  LaDB : ℝ := 0.35
  LDSNDB : ℝ := 1.0

/-- The attributes of a constructed `Link` that the API exposes (telecom.py:120-171). -/
structure Link where
  wavelength : ℝ
  GtDBi : ℝ
  GrDBi : ℝ
  LsDB : ℝ
  R : ℝ
  EBN0 : ℝ
  EBN0margin : ℝ

/-- telecom.py:126-136, the transmitter block: value of the attribute `self.Gt_dBi` after the `if/elif`,
`none` when neither branch ran (the attribute is then missing). -/
def txGain (a : LinkArgs) (wavelength : ℝ) : Option ℝ :=
  match a.Dt, a.etaT with
  | some Dt, some eta =>
      if Dt ≠ 0 ∧ eta ≠ 0 then some (computeDB (computeAntennaGain eta Dt wavelength))
      else if truthy a.GtDBi then a.GtDBi else none
  | _, _ => if truthy a.GtDBi then a.GtDBi else none

/-- telecom.py:141-151, the receiver block.  Line 142 reads `self.Dr = Dt` (the *transmitter*
diameter), so with `Dt = None` line 143 multiplies by `None` and raises `TypeError`. -/
def rxGain (a : LinkArgs) (wavelength : ℝ) : Py (Option ℝ) :=
  match a.Dr, a.etaR with
  | some Dr, some eta =>
      if Dr ≠ 0 ∧ eta ≠ 0 then do
        let selfDr ← needNumber a.Dt
        return some (computeDB (computeAntennaGain eta selfDr wavelength))
      else if truthy a.GrDBi then return a.GrDBi else return none
  | _, _ => if truthy a.GrDBi then return a.GrDBi else return none

/-- telecom.py:75-171 `Link.__init__`.  Line 121 divides by `freq*1E9`. -/
def Link.init (a : LinkArgs) : Py Link := do
  let freq := a.freq * 1e9
  if freq = 0 then throw .zeroDivisionError
  let wavelength := 3e8 / freq
  let PtDB := computeDB a.Pt
  let gt := txGain a wavelength
  let gr ← rxGain a wavelength
  let TsDBK := computeDB a.Ts
  let range := a.rangeKm * 1e3
  let LsDB := computeFreeSpaceLossDB range wavelength
  let KaDB := computeDB 1.38e-23
  let R := a.rateKbps * 1e3
  let RDBHz := computeDB R
  let GtDBi ← getAttr gt
  let GrDBi ← getAttr gr
  let EBN0 := PtDB + GtDBi - a.LtDB - a.LscDB + GrDBi - TsDBK - LsDB - a.LaDB - a.LotherDB
    - a.LDSNDB - RDBHz - KaDB
  return ⟨wavelength, GtDBi, GrDBi, LsDB, R, EBN0, EBN0 - a.EbN0req⟩

/-! ### Schedule -/

/-- telecom.py:291-297, the inner loop over the windows for one sample time; `cur` is the current
value of `transmit_array[i]`. -/
def windowLoop (t : ℝ) : Bool → List (ℝ × ℝ) → Bool
  | cur, [] => cur
  | _, w :: ws => if w.1 ≤ t ∧ t ≤ w.2 then true else windowLoop t false ws

/-- telecom.py:275-298 `Schedule.__init__`: the time grid and the transmit array. -/
def scheduleInit (tSeconds : ℝ) (numPoints : ℕ) (windows : List (ℝ × ℝ)) : List ℝ × List Bool :=
  let ts := linspace0 tSeconds numPoints
  (ts, ts.map (fun t => windowLoop t false windows))

/-- A boolean array entry used as a number. -/
def boolNum (b : Bool) : ℝ := if b then 1 else 0

/-- telecom.py:254-272 `Link.compute_data_volume`.  The three arrays must have the same length (NumPy
would otherwise raise `ValueError`; broadcasting of a length-one array is not modelled). -/
def computeDataVolume (R : ℝ) (tArray : List ℝ) (visible transmit : List Bool) : Py (List ℝ) :=
  if visible.length ≠ tArray.length ∨ transmit.length ≠ tArray.length then .error .valueError
  else cumTrapz .strict
    (tArray.zip ((visible.zip transmit).map (fun p => R * boolNum p.1 * boolNum p.2))) 0

end AMAT
