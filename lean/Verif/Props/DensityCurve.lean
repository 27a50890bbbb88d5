import Verif.Props.DensityEstimate

/-
Property C60 for vehicles with a drag curve.
-/

noncomputable section

open Classical

namespace AMAT.Props

open Real

/-- Specification: the drag coefficient a vehicle has at an altitude (m) and a speed (m/s): from the drag curve at the
Mach number, if it has one. -/
def Spec.dragCoefficient (V : Vehicle) (h v : ℝ) : ℝ :=
  if V.userDefinedCDMach then V.CDMach (v / V.atm.sonicInt h) else V.CD

/-- Drag acceleration of a vehicle with or without drag curve. -/
theorem accDrag_curve (V : Vehicle) (hm : 0 < V.mass) (hA : 0 < V.A) (delta r v : ℝ)
    (hrho : 0 ≤ V.atm.densityInt (r - V.planet.RP)) (hcd : 0 ≤ Spec.dragCoefficient V (r - V.planet.RP) v) :
    V.accDrag delta r v =
      V.atm.densityInt (r - V.planet.RP) * v ^ 2 * V.A * Spec.dragCoefficient V (r - V.planet.RP) v / (2 * V.mass) /
        V.planet.EARTHG := by
  have e : (if V.userDefinedCDMach then V.CDMach (v / V.planet.sonicVec V.atm r) else V.CD) =
      Spec.dragCoefficient V (r - V.planet.RP) v := rfl
  unfold Vehicle.accDrag Vehicle.a_svec Vehicle.Dvec Planet.rhoVec
  rw [e]
  generalize Spec.dragCoefficient V (r - V.planet.RP) v = c at hcd ⊢
  simp only [Lits.l00, Lits.l05, zero_mul, add_zero, zero_sub]
  rw [sqrt_sq_eq_abs, abs_neg, abs_of_nonneg (by positivity)]
  congr 1
  field_simp

/-- C60, any vehicle: in every guidance cycle of all four entry phases the appended density value `ρm` satisfies
`ρm·CD·v_mean² = ρ(h_end)·CD(h_end, v_end)·v_end²`: the measured drag is that of the drag curve, but it is interpreted with
the nominal drag coefficient.  At constant speed the estimate is therefore the true density exactly if the density is zero
or the curve gives the nominal coefficient. -/
theorem C60_density_estimate_drag_curve (name : String) (G : GuideParams) (mode : ScipyMode) (I I' : Integrator)
    (F : EntryPhase)
    (hF : F ∈ [Vehicle.glide1 G mode I, Vehicle.glide2 G mode I I', Vehicle.drag1 G mode I, Vehicle.drag2 G mode I'])
    (ts dt maxTime : ℝ) (s s' : EntryState) (b : Bool) (hP : Planet.init name = .ok s.V.planet)
    (hm : 0 < s.V.mass) (hCD : 0 < s.V.CD) (hA : 0 < s.V.A) (hcd : ∀ h v, 0 ≤ Spec.dragCoefficient s.V h v)
    (hrho : ∀ h, 0 ≤ s.V.atm.densityInt h)
    (hc : entryCycle G F mode ts dt maxTime s = .ok (s', b)) :
    ∃ h0 v0 h1 v1, s.hist.h.getLast? = some h0 ∧ s.hist.v.getLast? = some v0 ∧ s'.hist.h.getLast? = some h1 ∧
      s'.hist.v.getLast? = some v1 ∧
      (v0 + v1 ≠ 0 → ∃ ρm, s'.densityMes = s.densityMes ++ [some ρm] ∧ 0 ≤ ρm ∧
        ρm * s.V.CD * ((v0 + v1) / 2) ^ 2 =
          s.V.atm.densityInt (h1 * 1000) * Spec.dragCoefficient s.V (h1 * 1000) (v1 * 1000) * v1 ^ 2 ∧
        (v0 = v1 → (ρm = s.V.atm.densityInt (h1 * 1000) ↔
          s.V.atm.densityInt (h1 * 1000) = 0 ∨ Spec.dragCoefficient s.V (h1 * 1000) (v1 * 1000) = s.V.CD))) := by
  have hprop : ∀ W t δ out, F.prop W t dt δ = .ok out → ∃ S d hi, W.postProcess mode (TrajArrays.ofSamples S) d hi = .ok out := by
    intro W t δ out h
    simp only [List.mem_cons, List.not_mem_nil, or_false] at hF
    rcases hF with rfl | rfl | rfl | rfl <;> exact ⟨_, _, _, h⟩
  obtain ⟨J, x, delta, qref, out, tEnd, J', y, hd, tOld, an, ad, fn, apo, -, hx, -, hp, -, -, -, -, had, -, hy, -, -, rfl, -⟩ :=
    entryCycle_inv hc
  obtain ⟨S, d, hi, hpp⟩ := hprop _ _ _ _ hp
  obtain ⟨r, v, rfl, hh, hv⟩ := segment_drag_last hpp had
  have hE : (0:ℝ) < s.V.planet.EARTHG := by
    unfold Planet.init at hP
    split_ifs at hP <;> (injection hP with hP; rw [← hP]; norm_num [Planet.withScales])
  have l6 : (1e-3:ℝ) = 1 / 1000 := by norm_num
  have l4 : (1.000e3:ℝ) = 1000 := by norm_num
  have l5 : (1e3:ℝ) = 1000 := by norm_num
  obtain ⟨x1, _, _, x4, _⟩ := last_ok.mp hx
  obtain ⟨y1, _, _, y4, _⟩ := last_ok.mp hy
  have yh : y.h0Km = (r - s.V.planet.RP) * (1 / 1000) := by
    simp only [Hist.extend, List.getLast?_append, hh, Option.some_or, Option.some.injEq] at y1
    rw [← y1, l6]; rfl
  have yv : y.v0Kms = v * (1 / 1000) := by
    simp only [Hist.extend, List.getLast?_append, hv, Option.some_or, Option.some.injEq] at y4
    rw [← y4, l6]
  refine ⟨x.h0Km, x.v0Kms, y.h0Km, y.v0Kms, x1, x4, y1, y4, ?_⟩
  intro hne
  have eh : y.h0Km * 1000 = r - s.V.planet.RP := by rw [yh]; ring
  have ev : y.v0Kms * 1000 = v := by rw [yv]; ring
  have hacc := accDrag_curve (s.V.setInitialState x) hm hA d r v (hrho _) (hcd _ _)
  have hacc' : (s.V.setInitialState x).accDrag d r v =
    s.V.atm.densityInt (y.h0Km * 1000) * (y.v0Kms * 1000) ^ 2 * s.V.A *
      Spec.dragCoefficient s.V (y.h0Km * 1000) (y.v0Kms * 1000) / (2 * s.V.mass) / s.V.planet.EARTHG := by
    rw [eh, ev]; exact hacc
  have c0 := hcd (y.h0Km * 1000) (y.v0Kms * 1000)
  generalize Spec.dragCoefficient s.V (y.h0Km * 1000) (y.v0Kms * 1000) = c at hacc' c0 ⊢
  have hden : s.V.CD * s.V.A * (0.5 * (x.v0Kms * 1.000E3 + y.v0Kms * 1E3)) ^ 2 ≠ 0 := by
    rw [l4, l5, Lits.l05]
    have : (1 / 2 * (x.v0Kms * 1000 + y.v0Kms * 1000) : ℝ) ≠ 0 := by
      intro h0; apply hne; linarith
    positivity
  have hval : npDiv (2 * s.V.mass * (s.V.setInitialState x).accDrag d r v * s.V.planet.EARTHG)
      (s.V.CD * s.V.A * (0.5 * (x.v0Kms * 1.000E3 + y.v0Kms * 1E3)) ^ 2) =
      some (s.V.atm.densityInt (y.h0Km * 1000) * c * y.v0Kms ^ 2 / (s.V.CD * ((x.v0Kms + y.v0Kms) / 2) ^ 2)) := by
    unfold npDiv
    rw [if_neg hden, hacc', l4, l5, Lits.l05]
    congr 1
    field_simp
  have hr0 := hrho (y.h0Km * 1000)
  refine ⟨_, by rw [hval], ?_, ?_, ?_⟩
  · exact div_nonneg (mul_nonneg (mul_nonneg hr0 c0) (sq_nonneg _)) (mul_nonneg hCD.le (sq_nonneg _))
  · field_simp
  · intro he
    rw [he] at hne ⊢
    have h0 : y.v0Kms ≠ 0 := by intro h0; apply hne; rw [h0]; norm_num
    have e : s.V.atm.densityInt (y.h0Km * 1000) * c * y.v0Kms ^ 2 / (s.V.CD * ((y.v0Kms + y.v0Kms) / 2) ^ 2) =
        s.V.atm.densityInt (y.h0Km * 1000) * c / s.V.CD := by
      rw [show (y.v0Kms + y.v0Kms) / 2 = y.v0Kms by ring]; field_simp
    rw [e, div_eq_iff hCD.ne']
    constructor
    · intro h
      rcases eq_or_ne (s.V.atm.densityInt (y.h0Km * 1000)) 0 with hz | hz
      · exact Or.inl hz
      · exact Or.inr (mul_left_cancel₀ hz h)
    · rintro (h | h) <;> rw [h]; ring

/-- Case: a cycle in which the speed falls from 2 to 1 km/s in an atmosphere of density 1, with a drag curve that gives
twice the nominal drag coefficient; the estimate is 8/9, twice that of a vehicle without the curve. -/
example : ∃ (G : GuideParams) (I : Integrator) (s s' : EntryState), s.V.userDefinedCDMach = true ∧
    entryCycle G (Vehicle.glide1 G .strict I) .strict 1 0.1 600 s = .ok (s', false) ∧
    s'.densityMes = s.densityMes ++ [some (8 / 9)] := by
  obtain ⟨V, G, I, s, s', hP, hI, ⟨q1, q2, q3, q4, q5, rfl, q7, q8, q9⟩, -, hc, hv, -⟩ := halving_run true (fun _ => 10)
  have hcd : ∀ h v, Spec.dragCoefficient s.V h v = 10 := by
    intro h v; unfold Spec.dragCoefficient; rw [if_pos q4, q8]
  obtain ⟨h0, v0, h1, v1, -, e2, -, e4, key⟩ := C60_density_estimate_drag_curve "MARS" G .strict I I _ (by simp) 1 0.1 600 s
    s' false hP q1 q2 q3 (fun h v => by rw [hcd]; norm_num) (fun h => by rw [q5]; norm_num) hc
  rw [q7] at e2
  rw [hv] at e4
  simp only [Option.some.injEq] at e2 e4
  subst e2 e4
  obtain ⟨ρm, k1, -, k3, -⟩ := key (by norm_num)
  rw [q5, hcd, q9] at k3
  refine ⟨G, I, s, s', q4, hc, ?_⟩
  rw [k1, show ρm = 8 / 9 by linarith]

end AMAT.Props
