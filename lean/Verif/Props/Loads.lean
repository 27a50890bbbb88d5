import Mathlib.Tactic.FieldSimp
import Mathlib.Tactic.Positivity
import Mathlib.Tactic.LinearCombination
import Verif.Props.Aero
import Verif.Props.TrajectoryProps

/-! Property C16: reported deceleration loads. -/

noncomputable section

open Classical Real

namespace AMAT.Props

open AMAT Lits

/-- Specification: drag deceleration `ρ v² / (2 β)` of a vehicle with ballistic coefficient `β`. -/
def Spec.dragDecel (rho v beta : ℝ) : ℝ := rho * v ^ 2 / (2 * beta)

/-- Specification: magnitude of the aerodynamic acceleration of a vehicle whose lift is `LD` times its drag, in units
of Earth gravity.  It does not mention a bank angle. -/
def Spec.gLoad (rho v beta LD : ℝ) : ℝ := √(1 + LD ^ 2) * |Spec.dragDecel rho v beta| / 9.80665

variable (m beta LD A alpha RN : ℝ) (P : Planet) (atm : Atmosphere) (f : ℝ → ℝ) (st : InitState)

/-- The radicand computed by the code, for a vehicle with constant drag coefficient. -/
theorem accNet_formula (hm : 0 < m) (hb : 0 < beta) (hA : 0 < A) (r v delta : ℝ) :
    let V := Vehicle.mk' m beta LD A alpha RN P atm false f st
    let d := Spec.dragDecel (atm.densityInt (r - P.RP)) v beta
    V.accNet delta r v =
      (npSqrt (d ^ 2 * (1 + LD ^ 2 * cos delta ^ 2) + 2 * LD * d * sin delta)).map (· / P.EARTHG) := by
  intro V d
  have hs : V.a_svec r v = -d := by
    simp only [V, d, Vehicle.a_svec, Vehicle.Dvec, Vehicle.mk', Planet.rhoVec, Spec.dragDecel, l05]
    simp
    field_simp
  have hn : V.a_nvec r v delta = LD * d * cos delta := by
    simp only [V, d, Vehicle.a_nvec, Vehicle.Lvec, Vehicle.mk', Planet.rhoVec, Spec.dragDecel, l05]
    field_simp
    ring
  have hw : V.a_wvec r v delta = LD * d * sin delta := by
    simp only [V, d, Vehicle.a_wvec, Vehicle.Lvec, Vehicle.mk', Planet.rhoVec, Spec.dragDecel, l05]
    field_simp
    ring
  unfold Vehicle.accNet
  rw [hs, hn, hw, l20]
  have : (-d) ^ 2 + (LD * d * cos delta) ^ 2 + LD * d * sin delta * 2 =
      d ^ 2 * (1 + LD ^ 2 * cos delta ^ 2) + 2 * LD * d * sin delta := by ring
  rw [this]
  rfl

/-- C16, the part that holds: with zero or 180° bank the reported load is the magnitude of the aerodynamic
acceleration in Earth gravities.  Missing: any other bank angle (see the two findings below). -/
theorem C16_gload_partial (name : String) (hP : Planet.init name = .ok P) (hm : 0 < m) (hb : 0 < beta) (hA : 0 < A)
    (r v delta : ℝ) (hd : sin delta = 0) :
    let V := Vehicle.mk' m beta LD A alpha RN P atm false f st
    V.accNet delta r v = some (Spec.gLoad (atm.densityInt (r - P.RP)) v beta LD) ∧
    V.accDrag delta r v ≤ Spec.gLoad (atm.densityInt (r - P.RP)) v beta LD := by
  intro V
  obtain ⟨_, _, _, _, _, _, _, _, _, _, _, _, _, hE⟩ := C01_planet_consistent name P hP
  set d := Spec.dragDecel (atm.densityInt (r - P.RP)) v beta with hdd
  have hc : cos delta ^ 2 = 1 := by
    have := sin_sq_add_cos_sq delta; rw [hd] at this; linarith
  have hsq : √(d ^ 2 * (1 + LD ^ 2)) = √(1 + LD ^ 2) * |d| := by
    rw [Real.sqrt_mul (sq_nonneg d), Real.sqrt_sq_eq_abs, mul_comm]
  constructor
  · rw [accNet_formula m beta LD A alpha RN P atm f st hm hb hA r v delta, ← hdd, hd, hc]
    have h0 : 0 ≤ d ^ 2 * (1 + LD ^ 2) := by positivity
    simp only [npSqrt, Spec.gLoad, ← hdd, hE, mul_one, mul_zero, add_zero, hsq, if_pos h0, Option.map_some]
  · have hs : V.a_svec r v = -d := by
      simp only [V, hdd, Vehicle.a_svec, Vehicle.Dvec, Vehicle.mk', Planet.rhoVec, Spec.dragDecel, l05]
      simp
      field_simp
    have : V.accDrag delta r v = |d| / 9.80665 := by
      simp only [Vehicle.accDrag, hs, l00, zero_mul, add_zero, neg_sq, Real.sqrt_sq_eq_abs]
      rw [show V.planet.EARTHG = 9.80665 from hE]
    rw [this, Spec.gLoad, ← hdd]
    have h1 : (1:ℝ) ≤ √(1 + LD ^ 2) := by
      rw [Real.one_le_sqrt]; nlinarith [sq_nonneg LD]
    have h2 : |d| ≤ √(1 + LD ^ 2) * |d| := by nlinarith [abs_nonneg d]
    exact div_le_div_of_nonneg_right h2 (by norm_num)

/-- C16: the reported drag load is exactly the drag deceleration, for every bank angle. -/
theorem C16_drag_load (name : String) (hP : Planet.init name = .ok P) (hm : 0 < m) (hb : 0 < beta) (hA : 0 < A)
    (r v delta : ℝ) :
    (Vehicle.mk' m beta LD A alpha RN P atm false f st).accDrag delta r v =
      |Spec.dragDecel (atm.densityInt (r - P.RP)) v beta| / 9.80665 := by
  obtain ⟨_, _, _, _, _, _, _, _, _, _, _, _, _, hE⟩ := C01_planet_consistent name P hP
  have hs : (Vehicle.mk' m beta LD A alpha RN P atm false f st).a_svec r v
      = -Spec.dragDecel (atm.densityInt (r - P.RP)) v beta := by
    simp only [Vehicle.a_svec, Vehicle.Dvec, Vehicle.mk', Planet.rhoVec, Spec.dragDecel, l05]
    simp
    field_simp
  simp only [Vehicle.accDrag, hs, l00, zero_mul, add_zero, neg_sq, Real.sqrt_sq_eq_abs]
  rw [show (Vehicle.mk' m beta LD A alpha RN P atm false f st).planet.EARTHG = 9.80665 from hE]

/-- Cases for `C16_gload_partial` and `C16_drag_load`: at Venus in air of density 1, full lift up, 100 m/s. -/
example : ∃ P, Planet.init "VENUS" = .ok P ∧
    (Vehicle.mk' 100 30 1 1 0 1 P ⟨fun _ => 1, fun _ => 1, fun _ => 1, fun _ => 1⟩ false (fun _ => 1)
      ⟨0, 0, 0, 0, 0, 0, 0, 0⟩).accNet 0 P.RP 100 = some (Spec.gLoad 1 100 30 1) ∧
    (Vehicle.mk' 100 30 1 1 0 1 P ⟨fun _ => 1, fun _ => 1, fun _ => 1, fun _ => 1⟩ false (fun _ => 1)
      ⟨0, 0, 0, 0, 0, 0, 0, 0⟩).accDrag 0 P.RP 100 = |Spec.dragDecel 1 100 30| / 9.80665 := by
  obtain ⟨P, hP⟩ := (C01_planet_names "VENUS").1.mpr (by simp [Spec.bodies])
  refine ⟨P, hP, ?_, ?_⟩
  · exact (C16_gload_partial 100 30 1 1 0 1 P _ _ _ "VENUS" hP (by norm_num) (by norm_num) (by norm_num) P.RP 100 0
      (by simp)).1
  · exact C16_drag_load 100 30 1 1 0 1 P _ _ _ "VENUS" hP (by norm_num) (by norm_num) (by norm_num) P.RP 100 0

/-- C16 (finding): for a lifting vehicle banked to the left (-90°) the reported load is NaN whenever the drag
deceleration is positive and below `2 LD` m/s². -/
theorem C16_gload_nan (hm : 0 < m) (hb : 0 < beta) (hA : 0 < A) (r v : ℝ)
    (h1 : 0 < Spec.dragDecel (atm.densityInt (r - P.RP)) v beta)
    (h2 : Spec.dragDecel (atm.densityInt (r - P.RP)) v beta < 2 * LD) :
    (Vehicle.mk' m beta LD A alpha RN P atm false f st).accNet (-(π / 2)) r v = none := by
  rw [accNet_formula m beta LD A alpha RN P atm f st hm hb hA r v (-(π / 2))]
  set d := Spec.dragDecel (atm.densityInt (r - P.RP)) v beta with hdd
  have : ¬ 0 ≤ d ^ 2 * (1 + LD ^ 2 * cos (-(π / 2)) ^ 2) + 2 * LD * d * sin (-(π / 2)) := by
    rw [cos_neg, cos_pi_div_two, sin_neg, sin_pi_div_two]
    nlinarith
  rw [npSqrt, if_neg this, Option.map_none]

/-- C16 (finding): at +90° bank the reported load is wrong for every lifting vehicle unless `LD` times the drag
deceleration happens to equal 2 m/s². -/
theorem C16_gload_wrong (name : String) (hP : Planet.init name = .ok P) (hm : 0 < m) (hb : 0 < beta) (hA : 0 < A)
    (r v : ℝ) (hLD : 0 < LD) (h1 : 0 < Spec.dragDecel (atm.densityInt (r - P.RP)) v beta) :
    (Vehicle.mk' m beta LD A alpha RN P atm false f st).accNet (π / 2) r v =
      some (Spec.gLoad (atm.densityInt (r - P.RP)) v beta LD) ↔
    LD * Spec.dragDecel (atm.densityInt (r - P.RP)) v beta = 2 := by
  obtain ⟨_, _, _, _, _, _, _, _, _, _, _, _, _, hE⟩ := C01_planet_consistent name P hP
  rw [accNet_formula m beta LD A alpha RN P atm f st hm hb hA r v (π / 2)]
  set d := Spec.dragDecel (atm.densityInt (r - P.RP)) v beta with hdd
  have h0 : 0 ≤ d ^ 2 * (1 + LD ^ 2 * cos (π / 2) ^ 2) + 2 * LD * d * sin (π / 2) := by
    rw [cos_pi_div_two, sin_pi_div_two]; positivity
  have hsq : √(1 + LD ^ 2) * |d| = √(d ^ 2 * (1 + LD ^ 2)) := by
    rw [Real.sqrt_mul (sq_nonneg d), Real.sqrt_sq_eq_abs, mul_comm]
  simp only [npSqrt, if_pos h0, Option.map_some, Spec.gLoad, ← hdd, hE, Option.some.injEq, hsq]
  rw [div_left_inj' (by norm_num), Real.sqrt_inj h0 (by positivity), cos_pi_div_two, sin_pi_div_two]
  constructor
  · intro h
    have h' : LD * d * (LD * d - 2) = 0 := by linear_combination -h
    rcases mul_eq_zero.mp h' with h'' | h''
    · exact absurd h'' (by positivity)
    · linarith
  · intro h
    linear_combination -(LD * d) * h

/-- Case for `C16_gload_nan` and `C16_gload_wrong`: at Venus with unit density, speed `√60` m/s and `β = 30`, `LD = 1` the deceleration is 1 m/s², so
that left bank gives NaN and right bank gives a wrong value. -/
theorem C16_example : ∃ P, Planet.init "VENUS" = .ok P ∧
    (Vehicle.mk' 100 30 1 1 0 1 P ⟨fun _ => 1, fun _ => 1, fun _ => 1, fun _ => 1⟩ false (fun _ => 1)
      ⟨0, 0, 0, 0, 0, 0, 0, 0⟩).accNet (-(π / 2)) P.RP (√60) = none ∧
    (Vehicle.mk' 100 30 1 1 0 1 P ⟨fun _ => 1, fun _ => 1, fun _ => 1, fun _ => 1⟩ false (fun _ => 1)
      ⟨0, 0, 0, 0, 0, 0, 0, 0⟩).accNet (π / 2) P.RP (√60) ≠ some (Spec.gLoad 1 (√60) 30 1) := by
  obtain ⟨P, hP⟩ := (C01_planet_names "VENUS").1.mpr (by simp [Spec.bodies])
  have hd : Spec.dragDecel 1 (√60) 30 = 1 := by
    rw [Spec.dragDecel, Real.sq_sqrt (by norm_num)]; norm_num
  refine ⟨P, hP, ?_, ?_⟩
  · apply C16_gload_nan <;> first | (simp only [hd]; norm_num) | norm_num
  · intro h
    have := (C16_gload_wrong 100 30 1 1 0 1 P ⟨fun _ => 1, fun _ => 1, fun _ => 1, fun _ => 1⟩ (fun _ => 1)
      ⟨0, 0, 0, 0, 0, 0, 0, 0⟩ "VENUS" hP (by norm_num) (by norm_num) (by norm_num) P.RP (√60) (by norm_num)
      (by simp only [hd]; norm_num)).mp h
    simp only [hd] at this
    norm_num at this

/-- C16 at the level of the stored histories: after `propogateEntry` with bank angle 0° or 180°, every entry of
`acc_net_g` is the aerodynamic load at the corresponding trajectory point; entries of `acc_drag_g` are the drag loads
for every bank angle.  Missing: `acc_net_g` at other bank angles. -/
theorem C16_history_partial (name : String) (hP : Planet.init name = .ok P) (hm : 0 < m) (hb : 0 < beta)
    (hA : 0 < A) (mode : ScipyMode) (I : Integrator) (tSec dt deltaDeg : ℝ) (out : PropOut)
    (h : (Vehicle.mk' m beta LD A alpha RN P atm false f st).propogateEntry mode I tSec dt deltaDeg = .ok out)
    (i : ℕ) (r v : ℝ) (hr : out.c.r[i]? = some r) (hv : out.c.v[i]? = some v) :
    out.accDragG[i]? = some (|Spec.dragDecel (atm.densityInt (r - P.RP)) v beta| / 9.80665) ∧
    (deltaDeg = 0 ∨ deltaDeg = 180 →
      out.accNetG[i]? = some (some (Spec.gLoad (atm.densityInt (r - P.RP)) v beta LD))) := by
  obtain ⟨idx, flag, qc, qr, heat, hc, hq, hq2, hh, rfl⟩ := postProcess_inv h
  simp only [TrajArrays.truncate] at hr hv
  constructor
  · simp only [List.getElem?_zipWith, hr, hv]
    rw [C16_drag_load m beta LD A alpha RN P atm f st name hP hm hb hA]
  · intro hd
    have hs : sin (deltaDeg * π / 180.0) = 0 := by
      rcases hd with rfl | rfl
      · simp
      · rw [show (180:ℝ) * π / 180.0 = π by norm_num]; exact sin_pi
    simp only [List.getElem?_zipWith, hr, hv]
    rw [(C16_gload_partial m beta LD A alpha RN P atm f st name hP hm hb hA r v _ hs).1]

/-- Case for `C16_history_partial`: the first point of a flight at Venus, entering at 150 km with 11 km/s. -/
example : ∃ (P : Planet) (out : PropOut), Planet.init "VENUS" = .ok P ∧
    (demoEntry P 150 11).propogateEntry .strict constIntegrator 1200 0.1 180 = .ok out ∧
    out.accNetG[0]? = some (some (Spec.gLoad 1 (11 * 1000) 100 0.2)) := by
  obtain ⟨P, hP⟩ := (C01_planet_names "VENUS").1.mpr (by simp [Spec.bodies])
  have hT : P.hTrap = 10000 := by simp [Planet.init] at hP; subst hP; rfl
  have hS : P.hSkip = 180000 := by simp [Planet.init] at hP; subst hP; rfl
  obtain ⟨out, ho, -, hr, hv, -⟩ := demo_flight hP (h := 150) (v := 11) .strict 180 (by rw [hT]; norm_num)
    (by rw [hS]; norm_num)
  exact ⟨P, out, hP, ho, (C16_history_partial 500 100 0.2 1 0 1 P _ _ _ "VENUS" hP (by norm_num) (by norm_num)
    (by norm_num) .strict constIntegrator 1200 0.1 180 out ho 0 _ _ hr hv).2 (Or.inr rfl)⟩

end AMAT.Props
