import Verif.Props.GuidedResults
import Verif.Props.HeatingProps

/-
C74, C75: why the entry phase of a guided entry ends, and what its apoapsis predictions depend on.
-/

noncomputable section

namespace AMAT.Props

open Real AMAT.Spec

/-! ### C74 -/

/-- Rate of climb (m/s) at a recorded point. -/
def climbRate (x : InitState) : ℝ := 1000 * x.v0Kms * sin (x.gamma0Deg * (π / 180))

/-- C74, one cycle: the entry phase is left after a cycle exactly if the cycle ends less than the margin below the skip
altitude, or the vehicle was climbing faster than the threshold when the cycle began and the apoapsis predicted from the
end of the cycle is positive and below the target or within the tolerance of it — or, before pull-up, if the tolerance
exceeds the target itself.  The prediction is made for the vehicle and state at the end of the cycle, with the density
function kept for the following cycles. -/
theorem C74_cycle_leaves_iff (G : GuideParams) (F : EntryPhase) (mode : ScipyMode) (ts dt maxTime : ℝ) (s s' : EntryState)
    (b : Bool) (h : entryCycle G F mode ts dt maxTime s = .ok (s', b)) :
    ∃ x y : InitState, LastRecord s.hist x ∧ LastRecord s'.hist y ∧ s'.hist.heatload.getLast? = some y.heatLoad0 ∧
      (b = true ↔ s.V.planet.hSkip / 1000 - F.margin < y.h0Km ∨
        (G.hdotThreshold < climbRate x ∧ ∃ f a, s'.densityFn = some f ∧ F.predict s'.V y maxTime dt f = .ok (some a) ∧
          ((0 < a ∧ a < G.targetApoKm) ∨ |a - G.targetApoKm| < G.targetApoKmTol)) ∨
        (climbRate x ≤ G.hdotThreshold ∧ |G.targetApoKm| < G.targetApoKmTol)) := by
  obtain ⟨J, x, delta, qref, out, tEnd, J', y, hd, tOld, an, ad, fn, apo, hJ, hx, hc, ho, ht, hhd, hto, han, had, hJ', hy,
    hlow, hhigh, hs', hb⟩ := entryCycle_inv h
  have hcl : x.v0Kms * 1.000E3 * sin (x.gamma0Deg * π / 180.0) = climbRate x := by
    rw [climbRate]
    have k2 : (180.0:ℝ) = 180 := by norm_num
    have k1 : (1.000E3:ℝ) = 1000 := by norm_num
    rw [k1, k2, mul_div_assoc]; ring
  rw [hcl] at hlow hhigh
  obtain ⟨l1, l2, l3, l4, l5, l6, _, _⟩ := last_ok.mp hx
  obtain ⟨m1, m2, m3, m4, m5, m6, _, m8⟩ := last_ok.mp hy
  refine ⟨x, y, ⟨l1, l2, l3, l4, l5, l6⟩, ?_, ?_, ?_⟩
  · rw [hs']; exact ⟨m1, m2, m3, m4, m5, m6⟩
  · rw [hs', m8]; exact hJ'
  · rw [hb]
    unfold entryBreak
    by_cases hth : climbRate x > G.hdotThreshold
    · obtain ⟨f, rfl, hp⟩ := hhigh hth
      constructor
      · rintro (⟨a, rfl, ha⟩ | hh)
        · right; left
          refine ⟨hth, f, a, by rw [hs'], by rw [hs']; exact hp, ha⟩
        · left; exact hh
      · rintro (hh | ⟨_, g, a, hg, hpa, ha⟩ | ⟨hh, _⟩)
        · right; exact hh
        · left
          rw [hs'] at hg hpa
          simp only [Option.some.injEq] at hg hpa
          subst hg
          rw [hp] at hpa
          simp only [Except.ok.injEq] at hpa
          exact ⟨a, hpa, ha⟩
        · exact absurd hth (not_lt.mpr hh)
    · obtain ⟨rfl, rfl⟩ := hlow hth
      push Not at hth
      simp only [Lits.l00, Option.some.injEq]
      constructor
      · rintro (⟨a, rfl, ⟨ha, _⟩ | ha⟩ | hh)
        · exact absurd ha (lt_irrefl _)
        · right; right
          rw [zero_sub, abs_neg] at ha
          exact ⟨hth, ha⟩
        · left; exact hh
      · rintro (hh | ⟨h1, _⟩ | ⟨_, hh⟩)
        · right; exact hh
        · exact absurd h1 (not_lt.mpr hth)
        · left
          exact ⟨0, rfl, Or.inr (by rw [zero_sub, abs_neg]; exact hh)⟩

/-- C74, the loop: a finished entry phase has either not flown a cycle, because the speed after the first second was not
above the switch speed, or it has flown cycles that all gave no reason to leave but the last one. -/
theorem C74_phase_ends (G : GuideParams) (F : EntryPhase) (mode : ScipyMode) (fuel : ℕ) (V : Vehicle)
    (hdotref : Option (List (Option ℝ))) (ts dt maxTime : ℝ) (s' : EntryState)
    (h : entryPhase G F mode fuel V hdotref ts dt maxTime = some (.ok s')) :
    ∃ s, entryStart F V hdotref dt = .ok s ∧
      ((∃ v, s.hist.v.getLast? = some v ∧ v ≤ G.vSwitchKms ∧ s' = s) ∨
        ∃ v, s.hist.v.getLast? = some v ∧ G.vSwitchKms < v ∧ ∃ (n : ℕ) (st : ℕ → EntryState), st 0 = s ∧
          (∀ i < n, entryCycle G F mode ts dt maxTime (st i) = .ok (st (i + 1), false)) ∧
          entryCycle G F mode ts dt maxTime (st n) = .ok (s', true)) := by
  unfold entryPhase at h
  split at h
  · cases h
  · next s hs =>
    refine ⟨s, hs, ?_⟩
    obtain ⟨out, v, hv1, hv2, hsd⟩ := entryStart_inv hs
    have hva : s.hist.v.getLast? = some s.vAttr := by rw [hsd]; exact hv2
    have gen : ∀ (fuel : ℕ) (s : EntryState), entryLoop G F mode ts dt maxTime fuel s = some (.ok s') →
        (s.vAttr ≤ G.vSwitchKms ∧ s' = s) ∨ (G.vSwitchKms < s.vAttr ∧ ∃ (n : ℕ) (st : ℕ → EntryState), st 0 = s ∧
          (∀ i < n, entryCycle G F mode ts dt maxTime (st i) = .ok (st (i + 1), false)) ∧
          entryCycle G F mode ts dt maxTime (st n) = .ok (s', true)) := by
      intro fuel
      induction fuel with
      | zero => intro s h; simp [entryLoop] at h
      | succ k ih =>
        intro s h
        unfold entryLoop at h
        split_ifs at h with hc
        · right
          refine ⟨hc, ?_⟩
          split at h
          · simp at h
          · next u hu =>
            simp only [Option.some.injEq, Except.ok.injEq] at h
            subst h
            exact ⟨0, fun _ => s, rfl, fun i hi => absurd hi (Nat.not_lt_zero i), hu⟩
          · next u hu =>
            have hua : u.vAttr = s.vAttr := by
              obtain ⟨J, x, delta, qref, out, tEnd, J', y, hd, tOld, an, ad, fn, apo, -, -, -, -, -, -, -, -, -, -, -, -, -,
                rfl, -⟩ := entryCycle_inv hu
              rfl
            rcases ih u h with ⟨h1, _⟩ | ⟨_, n, st, h0, h1, h2⟩
            · rw [hua] at h1; exact absurd hc (not_lt.mpr h1)
            · refine ⟨n + 1, fun i => if i = 0 then s else st (i - 1), by simp, ?_, by simpa using h2⟩
              intro i hi
              rcases Nat.eq_zero_or_pos i with rfl | hi0
              · simp [h0, hu]
              · have := h1 (i - 1) (by omega)
                have e : i - 1 + 1 = i := by omega
                rw [e] at this
                simp only [hi0.ne', if_false, Nat.add_eq_zero_iff, one_ne_zero, and_false, Nat.add_sub_cancel]
                exact this
        · left
          simp only [Option.some.injEq, Except.ok.injEq] at h
          exact ⟨not_lt.mp hc, h.symm⟩
    rcases gen fuel s h with ⟨h1, h2⟩ | ⟨h1, h2⟩
    · exact Or.inl ⟨_, hva, h1, h2⟩
    · exact Or.inr ⟨_, hva, h1, h2⟩

/-- Cases for `C74_cycle_leaves_iff` and `C74_phase_ends`: the cycle and the run of the guided examples at Mars. -/
example : (∃ (V : Vehicle) (G : GuideParams) (I : Integrator) (s s1 : EntryState) (x : InitState),
      Planet.init "MARS" = .ok V.planet ∧ entryStart (Vehicle.glide1 G .strict I) V none 0.1 = .ok s ∧
      entryCycle G (Vehicle.glide1 G .strict I) .strict 1 0.1 600 s = .ok (s1, false) ∧ LastRecord s.hist x) ∧
    ∃ (V : Vehicle) (G : GuideParams) (I : Integrator) (s s' : EntryState), Planet.init "MARS" = .ok V.planet ∧
      entryPhase G (Vehicle.glide1 G .strict I) .strict 3 V none 1 0.1 600 = some (.ok s') ∧
      entryStart (Vehicle.glide1 G .strict I) V none 0.1 = .ok s := by
  constructor
  · obtain ⟨V, G, I, s, s1, hP, -, -, hs, hc, -⟩ := C41_loop_continues_below_switch_speed
    obtain ⟨x, -, hx, -⟩ := C74_cycle_leaves_iff _ _ _ _ _ _ s s1 false hc
    exact ⟨V, G, I, s, s1, x, hP, hs, hc, hx⟩
  · obtain ⟨V, G, I, o, h1, -, -, h4, -⟩ := C43_example
    obtain ⟨s0, s, e, J, hr, a1, a2, -⟩ := guided_inv h4
    have hph : entryPhase G (Vehicle.glide1 G .strict I) .strict 3 V none 1 0.1 600 = some (.ok s) := by
      unfold entryPhase; rw [a1]; exact a2
    obtain ⟨t, ht, -⟩ := C74_phase_ends _ _ _ _ _ _ _ _ _ s hph
    exact ⟨V, G, I, t, s, h1, hph, ht⟩

/-! ### C75 -/

/-- The vehicle with another entry state and another density profile. -/
def elsewhere (V : Vehicle) (s : InitState) (f : ℝ → ℝ) : Vehicle :=
  { V with init := s, atm := { V.atm with densityInt := f } }

/-- C75: each prediction run is what the ordinary propagation of the same vehicle would give if the vehicle were at the
given state in the measured density — with the ballistic coefficient after jettison for drag modulation. -/
theorem C75_prediction_is_flight (V : Vehicle) (G : GuideParams) (mode : ScipyMode) (I : Integrator) (s : InitState)
    (tSec dt delta : ℝ) (f : ℝ → ℝ) :
    (s.heatLoad0 = 0 → V.propogateEntryUtil mode I s tSec dt delta f =
      (elsewhere V s f).propogateEntry mode I tSec dt delta) ∧
    V.propogateEntryUtil2 mode I s tSec dt delta f = (elsewhere V s f).propogateEntry2 mode I tSec dt delta ∧
    V.propogateEntryUtilD G mode I s tSec dt delta f =
      ((elsewhere V s f).setBeta (G.beta1 * G.betaRatio)).propogateEntry mode I tSec dt delta ∧
    V.propogateEntryUtilD2 G mode I s tSec dt delta f =
      ((elsewhere V s f).setBeta (G.beta1 * G.betaRatio)).propogateEntry2 mode I tSec dt delta := by
  refine ⟨fun h => ?_, rfl, rfl, rfl⟩
  unfold Vehicle.propogateEntryUtil
  rw [h]; rfl

/-- C75: the predicted apoapsis is the apoapsis of the two-body orbit through the last point of the predicted
trajectory, if that orbit is bound. -/
theorem C75_predicted_apoapsis (name : String) (V : Vehicle) (hP : Planet.init name = .ok V.planet) (r : Py PropOut)
    (a : Option ℝ) (h : V.predictedApoapsis r = .ok a) :
    ∃ out y, r = .ok out ∧ LastRecord (Hist.ofOut out) y ∧
      (0 < V.planet.RP + 1000 * y.h0Km → recVel V.planet y ≠ 0 →
        energy V.planet.GM (recPos V.planet y) (recVel V.planet y) < 0 → ∃ A B, a = some A ∧ Apsides V.planet y A B) := by
  unfold Vehicle.predictedApoapsis at h
  simp only [except_bind_ok, pure, Except.pure, Except.ok.injEq] at h
  obtain ⟨out, ho, y, hy, rfl⟩ := h
  obtain ⟨l1, l2, l3, l4, l5, l6, _, _⟩ := last_ok.mp hy
  refine ⟨out, y, ho, ⟨l1, l2, l3, l4, l5, l6⟩, fun hr hU hE => ?_⟩
  obtain ⟨hrv, hvv, hrr⟩ := terminalOf_vectors V.planet y
  rw [← hrr] at hr
  obtain ⟨A, B, hA, hB, h1, h2, h3, h4⟩ := C28_apsides name V.planet hP (Vehicle.terminalOf V.planet y) hr
    (recPos V.planet y) (recVel V.planet y) (by rw [← hrv]; rfl) (by rw [← hvv, ← hrv, vIe_eq]; rfl) hU hE
  have hn : V3.norm (recPos V.planet y) = (Vehicle.terminalOf V.planet y).r := by
    rw [← hrv, rVec_eq]; exact norm_pos_r hr
  exact ⟨A, B, hA, by rw [hn]; exact h1, by rw [hn]; exact h2, h3, h4⟩

/-- Only the heat-load history depends on the initial heat load, and with old SciPy versions no failure does. -/
theorem postProcess_legacy_heat (V W : Vehicle) (bar : TrajArrays) (delta h1 h2 : ℝ) :
    V.predictedApoapsis (W.postProcess .legacy bar delta h1) = V.predictedApoapsis (W.postProcess .legacy bar delta h2) := by
  unfold Vehicle.predictedApoapsis Vehicle.postProcess
  simp only [bind, Except.bind, pure, Except.pure, TrajArrays.truncate]
  cases W.planet.classifyTrajectory (W.planet.dimensionalizeArr bar).r with
  | error e => rfl
  | ok p =>
    simp only
    cases needNumber (W.qStagConvective (List.take p.1 (W.planet.dimensionalizeArr bar).r)
      (List.take p.1 (W.planet.dimensionalizeArr bar).v)) with
    | error e => rfl
    | ok qc =>
      simp only
      cases needNumber (W.qStagRadiative (List.take p.1 (W.planet.dimensionalizeArr bar).r)
        (List.take p.1 (W.planet.dimensionalizeArr bar).v)) with
      | error e => rfl
      | ok qr =>
        simp only
        cases (List.take p.1 (W.planet.dimensionalizeArr bar).t).zip (List.zipWith (fun x1 x2 => x1 + x2) qc qr) with
        | nil => rfl
        | cons q l => simp [cumTrapz, Hist.ofOut, Hist.last]

/-- C75: with older SciPy versions the predicted apoapsis does not depend on the accumulated heat load; the
drag-modulation predictor `propogateEntry_utilD` does not depend on it in any version. -/
theorem C75_heat_load_irrelevant (V : Vehicle) (G : GuideParams) (I : Integrator) (s : InitState) (J tSec dt delta : ℝ)
    (f : ℝ → ℝ) :
    V.predictedApoapsis (V.propogateEntryUtil .legacy I { s with heatLoad0 := J } tSec dt delta f) =
      V.predictedApoapsis (V.propogateEntryUtil .legacy I s tSec dt delta f) ∧
    V.predictedApoapsis (V.propogateEntryUtilD2 G .legacy I { s with heatLoad0 := J } tSec dt delta f) =
      V.predictedApoapsis (V.propogateEntryUtilD2 G .legacy I s tSec dt delta f) ∧
    ∀ mode, V.propogateEntryUtilD G mode I { s with heatLoad0 := J } tSec dt delta f =
      V.propogateEntryUtilD G mode I s tSec dt delta f :=
  ⟨postProcess_legacy_heat _ _ _ _ _ _, postProcess_legacy_heat _ _ _ _ _ _, fun _ => rfl⟩

/-- C75 (finding): with the SciPy version of the lock file the other predictors fail for every vehicle that has
accumulated any heat load. -/
theorem C75_heated_prediction_fails (V : Vehicle) (G : GuideParams) (I : Integrator) (s : InitState) (tSec dt delta : ℝ)
    (f : ℝ → ℝ) (hJ : s.heatLoad0 ≠ 0) :
    (∃ e, V.predictedApoapsis (V.propogateEntryUtil .strict I s tSec dt delta f) = .error e) ∧
    (∃ e, V.predictedApoapsis (V.propogateEntryUtilD2 G .strict I s tSec dt delta f) = .error e) := by
  have key : ∀ (W : Vehicle) (bar : TrajArrays) (d : ℝ),
      ∃ e, V.predictedApoapsis (W.postProcess .strict bar d s.heatLoad0) = .error e := by
    intro W bar d
    cases h : W.postProcess .strict bar d s.heatLoad0 with
    | error e => exact ⟨e, by simp [Vehicle.predictedApoapsis, bind, Except.bind]⟩
    | ok out =>
      obtain ⟨idx, flag, qc, qr, heat, hc, hq, hq2, hh, rfl⟩ := postProcess_inv h
      exact absurd ((cumTrapz_ok hh).2.2 rfl) hJ
  exact ⟨key _ _ _, key _ _ _⟩

/-- Cases for `C75_predicted_apoapsis` and `C75_heated_prediction_fails`: predictions from a level flight at Mars at 100 km
and 4 km/s, without and with a heat load accumulated before. -/
example : ∃ (V : Vehicle) (I : Integrator) (out : PropOut) (a : Option ℝ), Planet.init "MARS" = .ok V.planet ∧
    V.propogateEntry .strict I 1200 0.1 0 = .ok out ∧ V.predictedApoapsis (.ok out) = .ok a ∧
    ∃ e, V.predictedApoapsis (V.propogateEntryUtil .strict I ⟨100, 0, 0, 4, 0, 0, 0, 12⟩ 1200 0.1 0 V.atm.densityInt) =
      .error e := by
  obtain ⟨P, hP, -, -, hS, hT, -⟩ := demo_mars
  obtain ⟨out, h1, -⟩ := demo_flight hP (h := 100) (v := 4) .strict 0 (by rw [hT]; norm_num) (by rw [hS]; norm_num)
  have hl : ∃ x, (Hist.ofOut out).last 0 = .ok x := by
    obtain ⟨i1, -, -, -, -, -, -, -, -, -, il, -⟩ := C24_arrays_aligned (demoEntry P 100 4) .strict constIntegrator 1200 0.1 0
      out h1
    have key : ∀ l : List ℝ, l.length = out.index → ∃ y, l.getLast? = some y :=
      fun l hl => getLast_of_ne_nil (List.ne_nil_of_length_pos (by omega))
    obtain ⟨h, k1⟩ := key out.plotc.r (il _ (by simp))
    obtain ⟨th, k2⟩ := key out.plotc.theta (il _ (by simp))
    obtain ⟨ph, k3⟩ := key out.plotc.phi (il _ (by simp))
    obtain ⟨v, k4⟩ := key out.plotc.v (il _ (by simp))
    obtain ⟨ps, k5⟩ := key out.plotc.psi (il _ (by simp))
    obtain ⟨g, k6⟩ := key out.plotc.gamma (il _ (by simp))
    obtain ⟨d, k7⟩ := key out.plotc.drange (il _ (by simp))
    exact ⟨⟨h, th, ph, v, ps, g, d, 0⟩, last_ok.mpr ⟨k1, k2, k3, k4, k5, k6, k7, rfl⟩⟩
  obtain ⟨x, hx⟩ := hl
  refine ⟨_, _, out, (Vehicle.terminalOf P x).apoapsisAltitudeKm P, hP, h1, ?_,
    (C75_heated_prediction_fails _ ⟨30, 75, 1, 1, 10, 20, 0, 250, 2000, 10, 50, 10⟩ _ _ _ _ _ _ (by norm_num)).1⟩
  simp only [Vehicle.predictedApoapsis, bind, Except.bind, hx]
  rfl

theorem trapz_pos {l : List (ℝ × ℝ)} (ht : l.Pairwise (fun p q => p.1 < q.1)) (hy : ∀ p ∈ l, 0 < p.2)
    (hl : 2 ≤ l.length) : 0 < Spec.trapz l := by
  match l, hl with
  | p :: q :: rest, _ =>
    have h1 := List.pairwise_cons.mp ht
    have h0 : 0 ≤ Spec.trapz (q :: rest) :=
      trapz_nonneg (h1.2.imp fun h => h.le) (fun x hx => (hy x (List.mem_cons_of_mem _ hx)).le)
    have := h1.1 q (by simp)
    have := hy p (by simp)
    have := hy q (by simp)
    simp only [Spec.trapz]
    have : 0 < (q.1 - p.1) * (p.2 + q.2) := mul_pos (by linarith) (by linarith)
    linarith

/-- In air and at non-zero speed the recorded heating rates are positive. -/
theorem segment_rates (name : String) (V : Vehicle) (hP : Planet.init name = .ok V.planet)
    (mode : ScipyMode) (I : Integrator) (tSec dt deltaDeg : ℝ)
    (hRN : 0 < V.RN) (out : PropOut) (h : V.propogateEntry mode I tSec dt deltaDeg = .ok out)
    (hrho : ∀ x ∈ out.c.r, 0 < V.planet.rhoVec V.atm x) (hv : ∀ x ∈ out.c.v, 0 < x) : ∀ x ∈ out.qStagTotal, 0 < x := by
  obtain ⟨qc, qr, h1, h2, hc, hr, hpos⟩ := C25_heat_laws name V.planet hP
  obtain ⟨r1, _, _, _⟩ := hr V.RN hRN
  obtain ⟨idx, flag, qc', qr', heat, _, hq1, hq2, hh, rfl⟩ := postProcess_inv h
  rw [Vehicle.qStagConvective, h1, Option.map_some, Option.some.injEq] at hq1
  rw [Vehicle.qStagRadiative, h2, Option.map_some, Option.some.injEq] at hq2
  subst hq1 hq2
  intro y hy
  obtain ⟨i, hi⟩ := List.mem_iff_getElem?.mp hy
  simp only [List.getElem?_zipWith] at hi
  simp only [TrajArrays.truncate] at hrho hv
  split at hi
  · next x w e1 e2 =>
    split at e1
    · next r v er ev =>
      simp only [er, ev, Option.some.injEq] at e1 e2 hi
      rw [← hi, ← e1, ← e2]
      have hr0 := hrho r (List.mem_iff_getElem?.mpr ⟨i, er⟩)
      have hv0 := hv v (List.mem_iff_getElem?.mpr ⟨i, ev⟩)
      have := (hpos (V.RN / 2) V.RN _ _ (by linarith) (by linarith) hr0 hv0).1
      have := r1 _ _ hr0.le hv0.le
      linarith
    · simp at e1
  · simp at hi

/-- A segment of at least two points through air, at non-zero speed, heats the vehicle. -/
theorem segment_heats (name : String) (V : Vehicle) (hP : Planet.init name = .ok V.planet)
    (mode : ScipyMode) (I : Integrator) (hI : SolveIvpLike I) (tSec dt deltaDeg : ℝ) (hdt : 0 < dt)
    (hRN : 0 < V.RN) (out : PropOut) (h : V.propogateEntry mode I tSec dt deltaDeg = .ok out)
    (hrho : ∀ x ∈ out.c.r, 0 < V.planet.rhoVec V.atm x) (hv : ∀ x ∈ out.c.v, 0 < x) (h2 : 2 ≤ out.index) :
    ∃ J, out.heatload.getLast? = some J ∧ 0 < J := by
  have hsorted : out.c.t.Pairwise (· < ·) := by
    obtain ⟨_, _, ht, _⟩ := C24_arrays_aligned V mode I tSec dt deltaDeg out h
    obtain ⟨_, _, _, _, _, _, _, _, _, htau, _⟩ := C01_planet_consistent name _ hP
    have g1 := (hI (fun t y => V.EOM y t (deltaDeg * π / 180.0))
      (V.planet.nonDimState (Vehicle.entryState V.planet V.init)) (Vehicle.tGrid V.planet tSec dt)).1
    change (samples V I tSec dt deltaDeg).map Prod.fst <+: _ at g1
    have g2 : (Vehicle.tGrid V.planet tSec dt).Pairwise (· < ·) := by
      unfold Vehicle.tGrid arange0
      rw [List.pairwise_map]
      refine List.Pairwise.imp ?_ List.pairwise_lt_range
      intro a b hab
      have : (a:ℝ) < b := by exact_mod_cast hab
      have : 0 < dt / V.planet.tau := by positivity
      gcongr
    have g3 : ((samples V I tSec dt deltaDeg).map Prod.fst).Pairwise (· < ·) := g2.sublist g1.sublist
    rw [ht, List.pairwise_map]
    rw [List.pairwise_map] at g3
    refine (g3.sublist (List.take_sublist _ _)).imp ?_
    intro a b hab
    gcongr
  have hint := C27_heat_load_is_integral V mode I tSec dt deltaDeg out h
  obtain ⟨_, _, _, _, _, _, _, _, _, _, hlen, _⟩ := C24_arrays_aligned V mode I tSec dt deltaDeg out h
  have lt := hlen out.c.t (by simp)
  have lr := hlen out.c.r (by simp)
  have lv := hlen out.c.v (by simp)
  have lh := hlen out.heatload (by simp)
  have lq := hlen out.qStagTotal (by simp)
  have hq := segment_rates name V hP mode I tSec dt deltaDeg hRN out h hrho hv
  obtain ⟨a, b, ha, hb, hab⟩ := hint.2 0 (out.index - 1) (Nat.zero_le _) (by omega)
  have ha0 : a = 0 := by
    have := hint.1
    rw [List.head?_eq_getElem?, ha] at this
    exact Option.some.inj this
  refine ⟨b, by rw [List.getLast?_eq_getElem?, lh]; exact hb, ?_⟩
  have hz : (List.zip out.c.t out.qStagTotal).length = out.index := by rw [List.length_zip, lt, lq]; simp
  rw [ha0, sub_zero, List.drop_zero, show out.index - 1 + 1 = out.index by omega, List.take_of_length_le hz.le] at hab
  rw [hab]
  apply trapz_pos
  · have : ((List.zip out.c.t out.qStagTotal).map Prod.fst).Pairwise (· < ·) := by
      rw [List.map_fst_zip (by rw [lt, lq])]; exact hsorted
    rwa [List.pairwise_map] at this
  · intro p hp
    exact hq _ (List.of_mem_zip hp).2
  · rw [hz]; exact h2

/-- With the SciPy version of the lock file, a cycle of `propogateEquilibriumGlide` that begins in a climb above the
threshold can only succeed if the heat load of its segment is exactly zero, and the cycles of
`propogateEquilibriumGlide2` and `propogateEntryPhaseD2` only if that of the previous segment is. -/
theorem guided_cycle_needs_cold (G : GuideParams) (I I' : Integrator) (ts dt maxTime : ℝ) (s s' : EntryState) (b : Bool) :
    (entryCycle G (Vehicle.glide1 G .strict I) .strict ts dt maxTime s = .ok (s', b) → ∀ x, LastRecord s.hist x →
      G.hdotThreshold < climbRate x → s'.segHeat.getLast? = some 0) ∧
    (entryCycle G (Vehicle.glide2 G .strict I I') .strict ts dt maxTime s = .ok (s', b) → s.segHeat.getLast? = some 0) ∧
    (entryCycle G (Vehicle.drag2 G .strict I') .strict ts dt maxTime s = .ok (s', b) → s.segHeat.getLast? = some 0) := by
  have two : ∀ F : EntryPhase, (F.prop = fun V t dt delta => V.propogateEntry2 .strict I' t dt delta) →
      entryCycle G F .strict ts dt maxTime s = .ok (s', b) → s.segHeat.getLast? = some 0 := by
    intro F hF h
    obtain ⟨J, x, delta, qref, out, tEnd, J', y, hd, tOld, an, ad, fn, apo, hJ, hx, hc, ho, -⟩ := entryCycle_inv h
    rw [hF] at ho
    have := (C27_initial_load_lost _ _ _ _ _ _ _ ho).1 rfl
    obtain ⟨_, _, _, _, _, _, _, l8⟩ := last_ok.mp hx
    rw [hJ, ← l8]
    exact congrArg some this
  refine ⟨?_, two _ rfl, two _ rfl⟩
  intro h x hx hcl
  obtain ⟨x', y, hx', hy, hJ, hb⟩ := C74_cycle_leaves_iff G _ .strict ts dt maxTime s s' b h
  obtain ⟨J, z, delta, qref, out, tEnd, J', y, hd, tOld, an, ad, fn, apo, -, hz, hc, ho, ht, hhd, hto, han, had, hJ', hy,
    hlow, hhigh, hs', -⟩ := entryCycle_inv h
  have hzx : x.v0Kms = z.v0Kms ∧ x.gamma0Deg = z.gamma0Deg := by
    obtain ⟨_, _, _, l4, _, l6, _, _⟩ := last_ok.mp hz
    obtain ⟨_, _, _, m4, _, m6⟩ := hx
    rw [l4] at m4; rw [l6] at m6
    exact ⟨(Option.some.inj m4).symm, (Option.some.inj m6).symm⟩
  have hth : z.v0Kms * 1.000E3 * sin (z.gamma0Deg * π / 180.0) > G.hdotThreshold := by
    have k2 : (180.0:ℝ) = 180 := by norm_num
    have k1 : (1.000E3:ℝ) = 1000 := by norm_num
    rw [climbRate, hzx.1, hzx.2] at hcl
    rw [k1, k2, mul_div_assoc, mul_comm z.v0Kms]
    exact hcl
  obtain ⟨f, rfl, hp⟩ := hhigh hth
  by_contra hne
  have hJ0 : J' ≠ 0 := by
    rintro rfl
    apply hne
    rw [hs']
    simp only [Hist.extend, Hist.ofOut] at hJ'
    have hl : out.heatload ≠ [] := by
      obtain ⟨idx, flag, qc, qr, heat, _, _, _, hh, rfl⟩ := postProcess_inv ho
      obtain ⟨_, rfl, _⟩ := cumTrapz_ok hh
      simp
    rwa [List.getLast?_append_of_ne_nil _ hl] at hJ'
  obtain ⟨_, _, _, _, _, _, _, m8⟩ := last_ok.mp hy
  obtain ⟨⟨e, he⟩, _⟩ := C75_heated_prediction_fails (s.V.setInitialState z) G I y maxTime dt 0.0 f (by rw [m8]; exact hJ0)
  simp only [Vehicle.glide1] at hp
  rw [he] at hp
  cases hp

/-- C75 (finding): with the SciPy version of the lock file, a cycle of `propogateEquilibriumGlide` fails whenever it
begins in a climb above the threshold and its segment has two points or more, all in air and at non-zero speed — that is,
whenever a prediction is wanted in the atmosphere. -/
theorem C75_climbing_cycle_fails (name : String) (G : GuideParams) (I : Integrator) (hI : SolveIvpLike I)
    (ts dt maxTime : ℝ) (hdt : 0 < dt) (s : EntryState) (hP : Planet.init name = .ok s.V.planet) (hRN : 0 < s.V.RN)
    (x : InitState) (hx : LastRecord s.hist x) (hcl : G.hdotThreshold < climbRate x)
    (hseg : ∀ (z : InitState) (delta : ℝ) (out : PropOut), LastRecord s.hist z →
      (s.V.setInitialState z).propogateEntry .strict I ts dt delta = .ok out → 2 ≤ out.index ∧ (∀ r ∈ out.c.r, 0 < s.V.planet.rhoVec s.V.atm r) ∧ ∀ v ∈ out.c.v, 0 < v) :
    ∃ e, entryCycle G (Vehicle.glide1 G .strict I) .strict ts dt maxTime s = .error e := by
  cases h : entryCycle G (Vehicle.glide1 G .strict I) .strict ts dt maxTime s with
  | error e => exact ⟨e, rfl⟩
  | ok p =>
    exfalso
    obtain ⟨s', b⟩ := p
    have h0 := (guided_cycle_needs_cold G I I ts dt maxTime s s' b).1 h x hx hcl
    obtain ⟨J, z, delta, qref, out, tEnd, J', y, hd, tOld, an, ad, fn, apo, -, hz, -, ho, -, -, -, -, -, -, -, -, -, hs', -⟩ :=
      entryCycle_inv h
    obtain ⟨l1, l2, l3, l4, l5, l6, _, _⟩ := last_ok.mp hz
    obtain ⟨k1, k2, k3⟩ := hseg z _ _ ⟨l1, l2, l3, l4, l5, l6⟩ ho
    obtain ⟨J, hJ, hJ0⟩ := segment_heats name (s.V.setInitialState z) hP .strict I hI ts dt delta hdt hRN out ho k2 k3 k1
    rw [hs'] at h0
    simp only at h0
    rw [hJ] at h0
    exact hJ0.ne' (Option.some.inj h0)

/-- The points of a segment of the jump integrator between trap and skip altitude. -/
theorem segment_jump_points (name : String) (V : Vehicle) (hP : Planet.init name = .ok V.planet) (mode : ScipyMode)
    (g : FState → FState) (tSec dt deltaDeg : ℝ) (ht : 0 < tSec) (hdt : 0 < dt)
    (h0 : V.planet.hTrap < V.init.h0Km * 1000) (h1 : V.init.h0Km * 1000 < V.planet.hSkip)
    (g0 : V.planet.hTrap < (g (V.planet.nonDimState (Vehicle.entryState V.planet V.init))).r * V.planet.RP - V.planet.RP)
    (g1 : (g (V.planet.nonDimState (Vehicle.entryState V.planet V.init))).r * V.planet.RP - V.planet.RP < V.planet.hSkip)
    (out : PropOut) (ho : V.propogateEntry mode (jumpIntegrator g) tSec dt deltaDeg = .ok out) :
    2 ≤ out.index ∧ ∀ v ∈ out.c.v, v = (V.planet.nonDimState (Vehicle.entryState V.planet V.init)).v * V.planet.Vref ∨
      v = (g (V.planet.nonDimState (Vehicle.entryState V.planet V.init))).v * V.planet.Vref := by
  obtain ⟨_, hR, _, _, _, _, _, _, _, _, _⟩ := C01_planet_consistent name _ hP
  obtain ⟨S, hS, hne, hq⟩ := samples_jump name V hP g tSec dt deltaDeg ht hdt
  set y0 := V.planet.nonDimState (Vehicle.entryState V.planet V.init) with hy0
  have hpr : y0.r * V.planet.RP - V.planet.RP = V.init.h0Km * 1000 := by
    simp only [hy0, Planet.nonDimState, Vehicle.entryState, Planet.computeR, div_mul_cancel₀ _ hR.ne']
    rw [show (1.0e3:ℝ) = 1000 by norm_num]; ring
  have hpp : V.postProcess mode (TrajArrays.ofSamples ((0, y0) :: S)) (deltaDeg * π / 180.0) 0 = .ok out := by
    rw [← hS]; exact ho
  have hall : ∀ q ∈ ((0, y0) :: S : List (ℝ × FState)), V.planet.hTrap < q.2.r * V.planet.RP - V.planet.RP ∧
      q.2.r * V.planet.RP - V.planet.RP < V.planet.hSkip := by
    intro q hq'
    rcases List.mem_cons.mp hq' with rfl | hq'
    · simp only [hpr]; exact ⟨h0, h1⟩
    · rw [hq q hq']; exact ⟨g0, g1⟩
  obtain ⟨idx, flag, qc, qr, heat, hc, hq1, hq2, hh, rfl⟩ := postProcess_inv hpp
  set si := V.planet.dimensionalizeArr (TrajArrays.ofSamples ((0, y0) :: S)) with hsi
  have hr : si.r = ((0, y0) :: S : List (ℝ × FState)).map (fun q => q.2.r * V.planet.RP) := by
    simp [hsi, Planet.dimensionalizeArr, TrajArrays.ofSamples, Function.comp_def]
  have hidx : idx = ((0, y0) :: S : List (ℝ × FState)).length := by
    obtain ⟨idx', flag', hc', hle, hfl, hf0, hf1, hf2, hf3⟩ := C22_classification name V.planet hP si.r (by rw [hr]; simp)
    rw [hc] at hc'
    simp only [Except.ok.injEq, Prod.mk.injEq] at hc'
    obtain ⟨rfl, rfl⟩ := hc'
    rcases hfl with h | h | h
    · rw [hf0, hr] at h
      obtain ⟨_, x, hx, hxs⟩ := h
      obtain ⟨w, hw, rfl⟩ := List.mem_map.mp hx
      linarith [(hall w hw).2]
    · have := (hf3 h).1
      rw [this, hr]; simp
    · obtain ⟨x, hx, hxs⟩ := (hf2 h).1
      rw [hr] at hx
      obtain ⟨w, hw, rfl⟩ := List.mem_map.mp hx
      linarith [(hall w hw).1]
  constructor
  · simp only [hidx, List.length_cons]
    have := List.length_pos_of_ne_nil hne
    omega
  · intro v hv
    simp only [TrajArrays.truncate] at hv
    have hv' := List.mem_of_mem_take hv
    have hsv : si.v = ((0, y0) :: S : List (ℝ × FState)).map (fun q => q.2.v * V.planet.Vref) := by
      simp [hsi, Planet.dimensionalizeArr, TrajArrays.ofSamples, Function.comp_def]
    rw [hsv] at hv'
    obtain ⟨w, hw, rfl⟩ := List.mem_map.mp hv'
    rcases List.mem_cons.mp hw with rfl | hw
    · left; rfl
    · right; rw [hq w hw]

/-- C75 (finding), concrete: a vehicle climbing at 100 km at Mars, in air.  The whole guided simulation raises.
Case for `C75_climbing_cycle_fails`, which proves it. -/
theorem C75_guided_entry_raises : ∃ (V : Vehicle) (G : GuideParams) (I : Integrator),
    Planet.init "MARS" = .ok V.planet ∧ OdeintLike I ∧ V.CL ≠ 0 ∧
    ∀ fuel, ∃ e, Vehicle.propogateGuidedEntry G .strict I (fuel + 1) V none 1 1 600 = some (.error e) := by
  obtain ⟨P, hP⟩ := (C01_planet_names "MARS").1.mpr (by simp [Spec.bodies])
  obtain ⟨_, _, _, _, _, _, _, _, hVr, _, _⟩ := C01_planet_consistent "MARS" P hP
  have hR : P.RP = 3389.5e3 := by simp [Planet.init] at hP; subst hP; rfl
  have hT : P.hTrap = 10e3 := by simp [Planet.init] at hP; subst hP; rfl
  have hS : P.hSkip = 120e3 := by simp [Planet.init] at hP; subst hP; rfl
  have hR0 : P.RP ≠ 0 := by rw [hR]; norm_num
  let V := Vehicle.mk' 500 100 0.2 1 0 1 P ⟨fun _ => 1, fun _ => 1, fun _ => 1, fun _ => 1⟩ false (fun _ => 1)
    ⟨100, 0, 0, 4, 0, 90, 0, 0⟩
  let G : GuideParams := ⟨30, 75, 1, 1, 10, 20, 0, 250, 2000, 10, 50, 10⟩
  have hI : OdeintLike (jumpIntegrator id) := jumpIntegrator_ok id
  have hvx : ∀ x : InitState, x.v0Kms = 4 → (P.nonDimState (Vehicle.entryState P x)).v * P.Vref = 4000 := by
    intro x hx
    simp only [Planet.nonDimState, Vehicle.entryState, hx, div_mul_cancel₀ _ hVr.ne']; norm_num
  have hrx : ∀ x : InitState, x.h0Km = 100 → (P.nonDimState (Vehicle.entryState P x)).r * P.RP - P.RP = 100000 := by
    intro x hx
    simp only [Planet.nonDimState, Vehicle.entryState, Planet.computeR, hx, div_mul_cancel₀ _ hR0]; norm_num
  obtain ⟨o0, J0, t, a1, a2, a3, a4, a5, a6⟩ := segment_jump "MARS" V hP .strict id 1 1 0 (by norm_num) (by norm_num)
    (by show P.hTrap < _; rw [hT]; simp only [V, Vehicle.mk']; norm_num)
    (by show _ < P.hSkip; rw [hS]; simp only [V, Vehicle.mk']; norm_num)
    (by show P.hTrap < (P.nonDimState (Vehicle.entryState P V.init)).r * P.RP - P.RP
        rw [hrx V.init rfl, hT]; norm_num)
    (by show (P.nonDimState (Vehicle.entryState P V.init)).r * P.RP - P.RP < P.hSkip
        rw [hrx V.init rfl, hS]; norm_num)
  have hrec : ∀ J', (Hist.ofOut o0).last J' = .ok ⟨100, 0, 0, 4, 0, 90, 0, J'⟩ := by
    intro J'
    have := a6 J'
    have e : id (V.planet.nonDimState (Vehicle.entryState V.planet V.init)) =
      { V.planet.nonDimState (Vehicle.entryState V.planet V.init) with
        r := (P.nonDimState (Vehicle.entryState P V.init)).r, v := (P.nonDimState (Vehicle.entryState P V.init)).v } := rfl
    rw [e, samplePt_jump "MARS" V.planet hP] at this
    rw [this]
    congr 1
    ext <;> simp only
    · show ((P.nonDimState (Vehicle.entryState P V.init)).r * P.RP - P.RP) * _ = _
      rw [hrx V.init rfl]; norm_num
    · rfl
    · rfl
    · show ((P.nonDimState (Vehicle.entryState P V.init)).v * P.Vref) * _ = _
      rw [hvx V.init rfl]; norm_num
    · rfl
    · rfl
    · rfl
  have hstart : ∃ s, entryStart (Vehicle.glide1 G .strict (jumpIntegrator id)) V none 1 = .ok s ∧ s.V = V ∧ s.vAttr = 4 ∧
      ∀ J', s.hist.last J' = .ok ⟨100, 0, 0, 4, 0, 90, 0, J'⟩ := by
    unfold entryStart
    have e1 : (Vehicle.glide1 G .strict (jumpIntegrator id)).prop V 1.0 1 0.0 = .ok o0 := by
      rw [Lits.l10, Lits.l00]; exact a1
    obtain ⟨l1, _, _, l4, _⟩ := last_ok.mp (hrec 0)
    simp only [e1, liftPy, bind, Except.bind, pyLast_ok.mpr l1, pyLast_ok.mpr l4, pure, Except.pure]
    exact ⟨_, rfl, rfl, rfl, hrec⟩
  obtain ⟨s, hs, s1, s2, s3⟩ := hstart
  obtain ⟨l1, l2, l3, l4, l5, l6, _, _⟩ := last_ok.mp (s3 0)
  obtain ⟨e, he⟩ := C75_climbing_cycle_fails "MARS" G (jumpIntegrator id) (OdeintLike.toIvp hI) 1 1 600 (by norm_num) s
    (by rw [s1]; exact hP) (by rw [s1]; simp only [V, Vehicle.mk']; norm_num) ⟨100, 0, 0, 4, 0, 90, 0, 0⟩
    ⟨l1, l2, l3, l4, l5, l6⟩ (by
      simp only [climbRate, G]
      rw [show (90:ℝ) * (π / 180) = π / 2 by ring, sin_pi_div_two]; norm_num) (by
      intro z δ out hz ho
      obtain ⟨m1, m2, m3, m4, m5, m6⟩ := hz
      rw [l1] at m1
      rw [l4] at m4
      have hz1 : z.h0Km = 100 := (Option.some.inj m1).symm
      have hz4 : z.v0Kms = 4 := (Option.some.inj m4).symm
      have hpl : s.V.planet = P := by rw [s1]; rfl
      obtain ⟨k1, k2⟩ := segment_jump_points "MARS" (s.V.setInitialState z) (by show _ = Except.ok s.V.planet; rw [hpl]; exact hP)
        .strict id 1 1 δ (by norm_num) (by norm_num)
        (by show s.V.planet.hTrap < z.h0Km * 1000; rw [hpl, hT, hz1]; norm_num)
        (by show z.h0Km * 1000 < s.V.planet.hSkip; rw [hpl, hS, hz1]; norm_num)
        (by show s.V.planet.hTrap < (s.V.planet.nonDimState (Vehicle.entryState s.V.planet z)).r * s.V.planet.RP - s.V.planet.RP
            rw [hpl, hrx z hz1, hT]; norm_num)
        (by show (s.V.planet.nonDimState (Vehicle.entryState s.V.planet z)).r * s.V.planet.RP - s.V.planet.RP < s.V.planet.hSkip
            rw [hpl, hrx z hz1, hS]; norm_num) out ho
      refine ⟨k1, ?_, ?_⟩
      · intro r hr
        rw [s1]
        show 0 < P.rhoVec V.atm r
        simp only [Planet.rhoVec, V, Vehicle.mk']
        norm_num
      · intro v hv
        have : v = 4000 := by
          rcases k2 v hv with h | h <;>
          · rw [h]
            show (s.V.planet.nonDimState (Vehicle.entryState s.V.planet z)).v * s.V.planet.Vref = _
            rw [hpl, hvx z hz4]
        rw [this]; norm_num)
  refine ⟨V, G, jumpIntegrator id, hP, hI, ?_, ?_⟩
  · simp only [V, Vehicle.mk']; norm_num
  · intro fuel
    refine ⟨e, ?_⟩
    simp only [Vehicle.propogateGuidedEntry, Vehicle.guided, entryPhase, hs, entryLoop, he]
    rw [if_pos (by rw [s2]; simp only [G]; norm_num)]

end AMAT.Props
