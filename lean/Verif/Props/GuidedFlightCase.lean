import Verif.Props.GuidedFlight
import Verif.Props.GuidedExit

/-
Concrete cases for property C111: guided runs at Venus on a circle 500 m below the skip altitude, flown by a solver that is
exact there.
-/

noncomputable section

namespace AMAT.Props

open Real AMAT AMAT.Spec

/-! ### An integrator that is exact on circles -/

/-- The state after the time `u` of uniform motion along the equator. -/
def adv (y : FState) (u : ℝ) : FState := { y with theta := y.theta + y.v / y.r * u, drange := y.drange + y.v * u }

/-- An integrator that moves the vehicle uniformly along the equator. -/
def circleIntegrator : Integrator := fun _ y0 grid =>
  match grid with
  | [] => []
  | t0 :: ts => (t0 :: ts).map fun t => (t, adv y0 (t - t0))

theorem circleIntegrator_ok : OdeintLike circleIntegrator := by
  intro f y0 grid
  cases grid with
  | nil => simp [circleIntegrator]
  | cons t ts => simp [circleIntegrator, Function.comp_def, adv]

theorem samples_circle (name : String) (V : Vehicle) (hP : Planet.init name = .ok V.planet)
    (tSec dt deltaDeg : ℝ) (ht : 0 < tSec) (hdt : 0 < dt) :
    ∃ S T, samples V circleIntegrator tSec dt deltaDeg =
        (0, V.planet.nonDimState (Vehicle.entryState V.planet V.init)) :: S ∧
      ∀ p ∈ samples V circleIntegrator tSec dt deltaDeg, p.1 ∈ Set.Icc 0 T ∧
        p.2 = adv (V.planet.nonDimState (Vehicle.entryState V.planet V.init)) p.1 := by
  obtain ⟨_, _, _, _, _, _, _, _, _, htau, _⟩ := C01_planet_consistent name _ hP
  unfold samples Vehicle.tGrid arange0
  have h1 : 1 < ((tSec + dt) / V.planet.tau) / (dt / V.planet.tau) := by
    rw [div_div_div_cancel_right₀ htau.ne', lt_div_iff₀ hdt]; linarith
  obtain ⟨n, hn⟩ : ∃ n, ⌈((tSec + dt) / V.planet.tau) / (dt / V.planet.tau)⌉₊ = n + 1 := by
    have : 1 < ⌈((tSec + dt) / V.planet.tau) / (dt / V.planet.tau)⌉₊ := Nat.lt_ceil.mpr (by exact_mod_cast h1)
    exact ⟨⌈((tSec + dt) / V.planet.tau) / (dt / V.planet.tau)⌉₊ - 1, by omega⟩
  rw [hn, List.range_succ_eq_map]
  have hs : 0 < dt / V.planet.tau := by positivity
  refine ⟨_, (n : ℝ) * (dt / V.planet.tau), by
    simp only [List.map_cons, Nat.cast_zero, zero_mul, circleIntegrator, sub_self]
    rw [show adv (V.planet.nonDimState (Vehicle.entryState V.planet V.init)) 0 =
      V.planet.nonDimState (Vehicle.entryState V.planet V.init) by simp [adv]], ?_⟩
  intro p hp
  simp only [List.map_cons, Nat.cast_zero, zero_mul, circleIntegrator, List.mem_cons, List.map_map, List.mem_map,
    List.mem_range, Function.comp_apply, sub_zero] at hp
  rcases hp with rfl | ⟨k, hk, rfl⟩
  · exact ⟨⟨le_rfl, by positivity⟩, rfl⟩
  · refine ⟨⟨by positivity, ?_⟩, rfl⟩
    have : ((k.succ : ℕ) : ℝ) ≤ n := by exact_mod_cast hk
    exact mul_le_mul_of_nonneg_right this hs.le

/-- A segment whose samples all lie strictly between the trap and the skip altitude is recorded completely. -/
theorem segment_inside (name : String) (V : Vehicle) (hP : Planet.init name = .ok V.planet) (mode : ScipyMode)
    (I : Integrator) (tSec dt deltaDeg : ℝ) (p : ℝ × FState) (S : List (ℝ × FState))
    (hS : samples V I tSec dt deltaDeg = p :: S)
    (hall : ∀ q ∈ p :: S, V.planet.hTrap < q.2.r * V.planet.RP - V.planet.RP ∧
      q.2.r * V.planet.RP - V.planet.RP < V.planet.hSkip) :
    ∃ out J, V.propogateEntry mode I tSec dt deltaDeg = .ok out ∧ out.accNetG ≠ [] ∧ out.accDragG ≠ [] ∧
      out.heatload.getLast? = some J ∧ (Hist.ofOut out).t ≠ [] ∧
      Spec.Records (Hist.ofOut out) ((p :: S).map (samplePt V.planet)) := by
  obtain ⟨out, ho⟩ := C24_returns name V hP mode I tSec dt deltaDeg p S hS (hall p (by simp)).1 (hall p (by simp)).2
    (fun q hq => (hall q (by simp [hq])).1.ne')
  have hpp : V.postProcess mode (TrajArrays.ofSamples (p :: S)) (deltaDeg * π / 180.0) 0 = .ok out := by
    rw [← hS]; exact ho
  obtain ⟨r1, r2, r3, r4⟩ := records_nonempty hpp
  obtain ⟨_, _, hrec⟩ := postProcess_records hpp
  have hidx : out.index = (p :: S).length := by
    obtain ⟨idx, flag, qc, qr, heat, hc, hq, hq2, hh, rfl⟩ := postProcess_inv hpp
    set si := V.planet.dimensionalizeArr (TrajArrays.ofSamples (p :: S)) with hsi
    have hr : si.r = (p :: S).map (fun q => q.2.r * V.planet.RP) := by
      simp [hsi, Planet.dimensionalizeArr, TrajArrays.ofSamples, Function.comp_def]
    obtain ⟨idx', flag', hc', hle, hfl, hf0, hf1, hf2, hf3⟩ := C22_classification name V.planet hP si.r (by rw [hr]; simp)
    rw [hc] at hc'
    simp only [Except.ok.injEq, Prod.mk.injEq] at hc'
    obtain ⟨rfl, rfl⟩ := hc'
    rcases hfl with h | h | h
    · rw [hf0, hr] at h
      obtain ⟨_, x, hx, hxs⟩ := h
      obtain ⟨w, hw, rfl⟩ := List.mem_map.mp hx
      linarith [(hall w hw).2]
    · have := (hf3 h).1
      simp only
      rw [this, hr]; simp
    · obtain ⟨x, hx, hxs⟩ := (hf2 h).1
      rw [hr] at hx
      obtain ⟨w, hw, rfl⟩ := List.mem_map.mp hx
      linarith [(hall w hw).1]
  obtain ⟨J, hJ⟩ := getLast_of_ne_nil r3
  refine ⟨out, J, ho, r1, r2, hJ, r4, ?_⟩
  rwa [hidx, List.take_length] at hrec

/-! ### Flight on the circle -/

/-- On the circle at 179.5 km, due east with the speed `v` (km/s). -/
def OnCircle (v : ℝ) (x : InitState) : Prop :=
  x.h0Km = 179.5 ∧ x.phi0Deg = 0 ∧ x.v0Kms = v ∧ x.psi0Deg = 0 ∧ x.gamma0Deg = 0

/-- All recorded points are on the circle. -/
def AllOnCircle (v : ℝ) (H : Hist) : Prop :=
  (∀ a ∈ H.h, a = 179.5) ∧ (∀ a ∈ H.phi, a = 0) ∧ (∀ a ∈ H.v, a = v) ∧ (∀ a ∈ H.psi, a = 0) ∧ ∀ a ∈ H.gamma, a = 0

theorem allOnCircle_starts {v : ℝ} {H : Hist} {x : InitState} (h : AllOnCircle v H) (hx : StartsIn H x) : OnCircle v x := by
  obtain ⟨i, h1, h2, h3, h4, h5, h6, h7⟩ := hx
  obtain ⟨a1, a2, a3, a4, a5⟩ := h
  exact ⟨a1 _ (List.mem_of_getElem? h1), a2 _ (List.mem_of_getElem? h3), a3 _ (List.mem_of_getElem? h4),
    a4 _ (List.mem_of_getElem? h5), a5 _ (List.mem_of_getElem? h6)⟩

theorem allOnCircle_last {v J : ℝ} {H : Hist} {x : InitState} (h : AllOnCircle v H) (hx : H.last J = .ok x) :
    OnCircle v x := by
  obtain ⟨l1, l2, l3, l4, l5, l6, l7, -⟩ := last_ok.mp hx
  obtain ⟨a1, a2, a3, a4, a5⟩ := h
  exact ⟨a1 _ (List.mem_of_getLast? l1), a2 _ (List.mem_of_getLast? l3), a3 _ (List.mem_of_getLast? l4),
    a4 _ (List.mem_of_getLast? l5), a5 _ (List.mem_of_getLast? l6)⟩

theorem allOnCircle_extend {v t : ℝ} {H K : Hist} (h : AllOnCircle v H) (k : AllOnCircle v K) :
    AllOnCircle v (H.extend K t) := by
  obtain ⟨a1, a2, a3, a4, a5⟩ := h
  obtain ⟨b1, b2, b3, b4, b5⟩ := k
  refine ⟨?_, ?_, ?_, ?_, ?_⟩ <;> simp only [Hist.extend, List.mem_append] <;> rintro a (h | h)
  · exact a1 a h
  · exact b1 a h
  · exact a2 a h
  · exact b2 a h
  · exact a3 a h
  · exact b3 a h
  · exact a4 a h
  · exact b4 a h
  · exact a5 a h
  · exact b5 a h

/-- The point recorded for a state reached along the circle. -/
theorem samplePt_adv (name : String) (P : Planet) (hP : Planet.init name = .ok P) (x : InitState) (t u : ℝ) :
    (samplePt P (t, adv (P.nonDimState (Vehicle.entryState P x)) u)).h = x.h0Km ∧
    (samplePt P (t, adv (P.nonDimState (Vehicle.entryState P x)) u)).phi = x.phi0Deg ∧
    (samplePt P (t, adv (P.nonDimState (Vehicle.entryState P x)) u)).v = x.v0Kms ∧
    (samplePt P (t, adv (P.nonDimState (Vehicle.entryState P x)) u)).psi = x.psi0Deg ∧
    (samplePt P (t, adv (P.nonDimState (Vehicle.entryState P x)) u)).gamma = x.gamma0Deg := by
  obtain ⟨_, hR, _, _, _, _, _, _, hV, _⟩ := C01_planet_consistent name _ hP
  have l60 : (180.0:ℝ) = 180 := by norm_num
  have l3 : (1.0e3:ℝ) = 1000 := by norm_num
  have l4 : (1.000e3:ℝ) = 1000 := by norm_num
  have l5 : (1e3:ℝ) = 1000 := by norm_num
  have l6 : (1e-3:ℝ) = 1 / 1000 := by norm_num
  have l7 : (1.0e-3:ℝ) = 1 / 1000 := by norm_num
  have hpi := pi_ne_zero
  have hR' := hR.ne'
  have hV' := hV.ne'
  simp only [samplePt, adv, Planet.nonDimState, Vehicle.entryState, Planet.computeR, l60, l3, l4, l5, l6, l7]
  refine ⟨?_, ?_, ?_, ?_, ?_⟩
  · field_simp; ring
  · field_simp
  · field_simp
  · field_simp
  · field_simp

/-- The point recorded for the initial state. -/
theorem samplePt_start (name : String) (P : Planet) (hP : Planet.init name = .ok P) (x : InitState) :
    samplePt P (0, P.nonDimState (Vehicle.entryState P x)) = Spec.ptOf 0 x := by
  obtain ⟨_, hR, _, _, _, _, _, _, hV, _⟩ := C01_planet_consistent name _ hP
  have l60 : (180.0:ℝ) = 180 := by norm_num
  have l3 : (1.0e3:ℝ) = 1000 := by norm_num
  have l4 : (1.000e3:ℝ) = 1000 := by norm_num
  have l5 : (1e3:ℝ) = 1000 := by norm_num
  have l6 : (1e-3:ℝ) = 1 / 1000 := by norm_num
  have l7 : (1.0e-3:ℝ) = 1 / 1000 := by norm_num
  have hpi := pi_ne_zero
  simp only [samplePt, Spec.ptOf, Planet.nonDimState, Vehicle.entryState, Planet.computeR, l60, l3, l4, l5,
    l6, l7, div_mul_cancel₀ _ hR.ne', div_mul_cancel₀ _ hV.ne', mul_zero, zero_div]
  ext <;> simp only <;> field_simp; ring

/-- A segment begun on the circle stays there. -/
theorem segment_circle (P : Planet) (hP : Planet.init "VENUS" = .ok P) (W : Vehicle) (hW : W.planet = P) (v0 : ℝ)
    (hc : OnCircle v0 W.init) (δ : ℝ) :
    ∃ out J, W.propogateEntry .strict circleIntegrator 1 0.1 δ = .ok out ∧ out.accNetG ≠ [] ∧ out.accDragG ≠ [] ∧
      out.heatload.getLast? = some J ∧ (Hist.ofOut out).t ≠ [] ∧ AllOnCircle v0 (Hist.ofOut out) ∧
      ∀ J', ∃ x, (Hist.ofOut out).last J' = .ok x := by
  subst hW
  have hT : W.planet.hTrap = 10000 := by generalize W.planet = P at hP; simp [Planet.init] at hP; subst hP; rfl
  have hS : W.planet.hSkip = 180000 := by generalize W.planet = P at hP; simp [Planet.init] at hP; subst hP; rfl
  obtain ⟨_, hR, _, _, _, _, _, _, hV, _⟩ := C01_planet_consistent "VENUS" _ hP
  obtain ⟨S, T, e1, e2⟩ := samples_circle "VENUS" W hP 1 0.1 δ (by norm_num) (by norm_num)
  obtain ⟨c1, c2, c3, c4, c5⟩ := hc
  have hr : ∀ u, (adv (W.planet.nonDimState (Vehicle.entryState W.planet W.init)) u).r * W.planet.RP - W.planet.RP = 179500 := by
    intro u
    simp only [adv, Planet.nonDimState, Vehicle.entryState, Planet.computeR, div_mul_cancel₀ _ hR.ne', c1]
    norm_num
  obtain ⟨out, J, o1, o2, o3, o4, o5, o6⟩ := segment_inside "VENUS" W hP .strict circleIntegrator 1 0.1 δ _ S e1 (by
    intro q hq
    rw [← e1] at hq
    rw [(e2 q hq).2, hr, hT, hS]
    norm_num)
  have hpt : ∀ q ∈ (0, W.planet.nonDimState (Vehicle.entryState W.planet W.init)) :: S,
      (samplePt W.planet q).h = 179.5 ∧ (samplePt W.planet q).phi = 0 ∧ (samplePt W.planet q).v = v0 ∧
      (samplePt W.planet q).psi = 0 ∧ (samplePt W.planet q).gamma = 0 := by
    intro q hq
    rw [← e1] at hq
    obtain ⟨s1, s2, s3, s4, s5⟩ := samplePt_adv "VENUS" W.planet hP W.init q.1 q.1
    rw [← (e2 q hq).2] at s1 s2 s3 s4 s5
    exact ⟨s1.trans c1, s2.trans c2, s3.trans c3, s4.trans c4, s5.trans c5⟩
  refine ⟨out, J, o1, o2, o3, o4, o5, ⟨?_, ?_, ?_, ?_, ?_⟩, fun J' => ?_⟩
  · rw [o6.h]; intro a ha
    obtain ⟨p, hp, rfl⟩ := List.mem_map.mp ha
    obtain ⟨q, hq, rfl⟩ := List.mem_map.mp hp
    exact (hpt q hq).1
  · rw [o6.phi]; intro a ha
    obtain ⟨p, hp, rfl⟩ := List.mem_map.mp ha
    obtain ⟨q, hq, rfl⟩ := List.mem_map.mp hp
    exact (hpt q hq).2.1
  · rw [o6.v]; intro a ha
    obtain ⟨p, hp, rfl⟩ := List.mem_map.mp ha
    obtain ⟨q, hq, rfl⟩ := List.mem_map.mp hp
    exact (hpt q hq).2.2.1
  · rw [o6.psi]; intro a ha
    obtain ⟨p, hp, rfl⟩ := List.mem_map.mp ha
    obtain ⟨q, hq, rfl⟩ := List.mem_map.mp hp
    exact (hpt q hq).2.2.2.1
  · rw [o6.gamma]; intro a ha
    obtain ⟨p, hp, rfl⟩ := List.mem_map.mp ha
    obtain ⟨q, hq, rfl⟩ := List.mem_map.mp hp
    exact (hpt q hq).2.2.2.2
  · obtain ⟨p, hp⟩ := getLast_of_ne_nil (l := ((0, W.planet.nonDimState (Vehicle.entryState W.planet W.init)) :: S).map
      (samplePt W.planet)) (by simp)
    exact ⟨_, records_last o6 hp J'⟩

/-- A guided run on the circle: the first second, one cycle of the entry phase, one of the exit phase. -/
theorem circle_run (P : Planet) (hP : Planet.init "VENUS" = .ok P) (V : Vehicle) (hV : V.planet = P) (v0 : ℝ)
    (hc : OnCircle v0 V.init) (G : GuideParams) (hG : G.vSwitchKms < v0) (hG' : 0 ≤ G.hdotThreshold)
    (FE : EntryPhase) (FX : ExitPhase) (prep : Vehicle → Vehicle) (hprep : ∀ W, (prep W).planet = W.planet)
    (hE : FE.prop = fun W t dt δ => W.propogateEntry .strict circleIntegrator t dt δ)
    (hX : FX.prop = fun W t dt δ => W.propogateEntry .strict circleIntegrator t dt δ)
    (hcE : ∀ x, OnCircle v0 x → ∃ q, FE.command V x 0.0 1 = .ok (0.0, q)) (hcX : FX.command 0.0 1 = 0.0)
    (hm : 1 ≤ FE.margin) (hstop : FX.stop P (179.5 * 1.0E3)) : ∃ o : GuidedOut,
    Vehicle.guided G FE FX .strict 3 V none prep 1 1 0.1 600 = some (.ok o) ∧ AllOnCircle v0 o.fin.hist ∧
      o.fin.deltaDeg = [0.0, 0.0, 0.0] := by
  have hS : P.hSkip = 180000 := by simp [Planet.init] at hP; subst hP; rfl
  obtain ⟨o0, J0, a1, a2, a3, a4, a5, a6, a7⟩ := segment_circle P hP V hV v0 hc 0.0
  have hstart : ∃ s, entryStart FE V none 0.1 = .ok s ∧ s.segHeat.getLast? = some J0 ∧ s.hist = Hist.ofOut o0 ∧ s.V = V ∧
      s.hist.t ≠ [] ∧ s.hdot ≠ [] ∧ s.tStep ≠ [] ∧ s.vAttr = v0 ∧ s.deltaDeg = [0.0] ∧ s.deltaIni = 0.0 := by
    unfold entryStart
    have e1 : FE.prop V 1.0 0.1 0.0 = .ok o0 := by
      rw [hE, Lits.l10]; exact a1
    obtain ⟨x, hx⟩ := a7 0
    obtain ⟨l1, _, _, l4, _⟩ := last_ok.mp hx
    have e4 := (allOnCircle_last a6 hx).2.2.1
    simp only [e1, liftPy, bind, Except.bind, pyLast_ok.mpr l1, pyLast_ok.mpr l4, pure, Except.pure]
    exact ⟨_, rfl, a4, rfl, rfl, a5, by simp, by simp, e4, rfl, rfl⟩
  obtain ⟨s, hs, s1, s2, s3, s4, s5, s6, s7, s8, s9⟩ := hstart
  obtain ⟨x, hx⟩ := a7 J0
  have hxc := allOnCircle_last a6 hx
  obtain ⟨q, hq⟩ := hcE x hxc
  obtain ⟨o1, J1, b1, b2, b3, b4, b5, b6, b7⟩ := segment_circle P hP (V.setInitialState x) hV v0 hxc 0.0
  obtain ⟨y, hy⟩ := b7 J1
  have hyc := allOnCircle_last b6 hy
  have hloop : ∃ s', entryLoop G FE .strict 1 0.1 600 3 s = some (.ok s') ∧ s'.V = V.setInitialState x ∧
      AllOnCircle v0 s'.hist ∧ s'.hist.last J1 = .ok y ∧ s'.hist.t ≠ [] ∧ s'.hdot ≠ [] ∧ s'.tStep ≠ [] ∧
      s'.hist.heatload.getLast? = some J1 ∧ s'.deltaDeg = [0.0, 0.0] := by
    obtain ⟨s', c0, c1, c2, c3, c4, c5, c6, c7, c8, c9, c10⟩ := entryCycle_descending (mode := .strict) (maxTime := 600)
      (dt := 0.1) (ts := 1) (G := G) (F := FE) (s := s) s1 (by rw [s2]; exact hx) (by rw [s3, s9]; exact hq)
      (by rw [s3, hE]; exact b1) s4 s5 s6 b2 b3 b4 hy (by
        rw [hxc.2.2.2.2]; simpa using hG')
    have hbr : entryBreak G s.V.planet FE.margin (some 0.0) y.h0Km := by
      right
      rw [s3, hV, hS, hyc.1]
      norm_num
      linarith
    refine ⟨s', ?_, by rw [c1, s3], ?_, c3, c4, c5, c6, c8, by rw [c9, s8]; rfl⟩
    · unfold entryLoop
      rw [if_pos (by rw [s7]; exact hG), c0, @decide_eq_true _ (Classical.propDecidable _) hbr]
    · obtain ⟨J, x', delta, qref, out, tEnd, J', y', hd, tOld, an, ad, fn, apo, -, hx', hcm, hprop, -, -, -, -, -, -, -, -, -,
        rfl, -⟩ := entryCycle_inv c0
      refine allOnCircle_extend (by rw [s2]; exact a6) ?_
      have hxc' : OnCircle v0 x' := allOnCircle_last (by rw [s2]; exact a6) hx'
      obtain ⟨o1', _, b1', -, -, -, -, b6', -⟩ := segment_circle P hP (s.V.setInitialState x')
        (by show s.V.planet = P; rw [s3, hV]) v0 hxc' delta
      rw [hE] at hprop
      have : o1' = out := Except.ok.inj (b1'.symm.trans hprop)
      rw [← this]; exact b6'
  obtain ⟨s', hl, t1, t2, t3, t4, t5, t6, t7, t8⟩ := hloop
  obtain ⟨tE, htE⟩ := getLast_of_ne_nil t4
  obtain ⟨hE', hhE⟩ := getLast_of_ne_nil t5
  have hdd : s'.deltaDeg.getLast? = some 0.0 := by rw [t8]; simp
  obtain ⟨l1, _, _, l4, _⟩ := last_ok.mp t3
  obtain ⟨e, he, e1, e2, e3, e4, e5, e6, e7⟩ : ∃ e, exitStart (prep s'.V) s' = .ok (e, J1, hE') ∧ e.V = prep s'.V ∧
      e.hist = s'.hist ∧ e.hCur = y.h0Km ∧ e.tStep = s'.tStep ∧ e.hdot = s'.hdot ∧ e.deltaDeg = s'.deltaDeg ∧
      e.deltaIni = 0.0 := by
    unfold exitStart
    simp only [liftPy, bind, Except.bind, pyLast_ok.mpr htE, pyLast_ok.mpr l1, pyLast_ok.mpr l4, pyLast_ok.mpr hdd,
      pyLast_ok.mpr hhE, pyLast_ok.mpr t7, pure, Except.pure]
    exact ⟨_, rfl, rfl, rfl, rfl, rfl, rfl, rfl, rfl⟩
  have hpl : e.V.planet = P := by rw [e1, hprep, t1]; exact hV
  obtain ⟨o2, J2, d1, d2, d3, d4, d5, d6, d7⟩ := segment_circle P hP (e.V.setInitialState y) hpl v0 hyc 0.0
  obtain ⟨z, hz⟩ := d7 J1
  obtain ⟨f, f0, f1, f2, f3⟩ := exitCycle_forward (F := FX) (ts := 1) (dt := 0.1) (J := J1) (hdotRef := hE') (s := e)
    (out := o2) (by rw [e2]; exact t3) (by rw [e7, hcX, hX]; exact d1) (by rw [e2]; exact t4) (by rw [e5]; exact t5)
    (by rw [e4]; exact t6) hz
  have hst : FX.stop e.V.planet (y.h0Km * 1.0E3) := by rw [hpl, hyc.1]; exact hstop
  have hxl : exitLoop FX 1 0.1 J1 hE' 3 e = some (.ok f) := by
    unfold exitLoop
    rw [if_pos (by rw [e3, hpl, hS, hyc.1]; norm_num), f0, @decide_eq_true _ (Classical.propDecidable _) hst]
  have hf : AllOnCircle v0 f.hist := by
    obtain ⟨x', out, tEnd, y', hd, tOld, hx', hprop, -, -, -, -, rfl, -⟩ := exitCycle_inv f0
    refine allOnCircle_extend (by rw [e2]; exact t2) ?_
    have hxc' : OnCircle v0 x' := allOnCircle_last (by rw [e2]; exact t2) hx'
    obtain ⟨o1', _, b1', -, -, -, -, b6', -⟩ := segment_circle P hP (e.V.setInitialState x') hpl v0 hxc'
      (FX.command e.deltaIni 1)
    rw [hX] at hprop
    have : o1' = out := Except.ok.inj (b1'.symm.trans hprop)
    rw [← this]; exact b6'
  obtain ⟨w, hw⟩ : ∃ w, f.hist.last 0 = .ok w := by
    obtain ⟨l1, l2, l3, l4, l5, l6, l7, _⟩ := last_ok.mp f1
    exact ⟨{ z with heatLoad0 := 0 }, last_ok.mpr ⟨l1, l2, l3, l4, l5, l6, l7, rfl⟩⟩
  obtain ⟨o, ho, hof⟩ : ∃ o, exitResults G f = .ok o ∧ o.fin = f := by
    unfold exitResults
    simp only [hw, liftPy, bind, Except.bind, pure, Except.pure]
    exact ⟨_, rfl, rfl⟩
  refine ⟨o, ?_, by rw [hof]; exact hf, by rw [hof, f2, e6, t8, e7, hcX]; rfl⟩
  unfold Vehicle.guided entryPhase
  simp only [hs, hl, exitPhase, he, hxl, ho]

/-- Uniform motion along the equator, at the speed at which lift, gravity, the centrifugal and the Coriolis force balance,
solves the equations of motion of a vehicle without drag. -/
theorem circle_solution (W : Vehicle) (hJ : W.planet.J3 = 0) (y0 : FState) (hr : 0 < y0.r) (hv : 0 < y0.v)
    (hphi : y0.phi = 0) (hpsi : y0.psi = 0) (hgamma : y0.gamma = 0) (hD : ∀ th, W.Dbar y0.r th 0 y0.v = 0)
    (hbal : ∀ th, W.Lbar y0.r th 0 y0.v / W.mbar + y0.v ^ 2 / y0.r + 2 * W.planet.OMEGAbar * y0.v
      + W.planet.OMEGAbar ^ 2 * y0.r = 1 / y0.r ^ 2 + 3 / 2 * W.planet.J2 / y0.r ^ 4) (t : ℝ) :
    SolvesAt (fun s => W.EOM s t 0) (adv y0) t := by
  have hlin : ∀ c d : ℝ, HasDerivAt (fun s : ℝ => c + d * s) d t := by
    intro c d; simpa using ((hasDerivAt_id t).const_mul d).const_add c
  have l00 : (0.0:ℝ) = 0 := by norm_num
  have l10 : (1.0:ℝ) = 1 := by norm_num
  have l15 : (1.5:ℝ) = 3 / 2 := by norm_num
  have l20 : (2.0:ℝ) = 2 := by norm_num
  constructor
  · refine (hasDerivAt_const t y0.r).congr_deriv ?_
    simp [Vehicle.EOM, adv, hgamma]
  · refine (hlin y0.theta (y0.v / y0.r)).congr_deriv ?_
    simp [Vehicle.EOM, adv, hgamma, hphi, hpsi]
  · refine (hasDerivAt_const t y0.phi).congr_deriv ?_
    simp [Vehicle.EOM, adv, hgamma, hphi, hpsi]
  · refine (hasDerivAt_const t y0.v).congr_deriv ?_
    simp [Vehicle.EOM, adv, hgamma, hphi, hpsi, Vehicle.a_sbar, hD, Vehicle.gsbar, Vehicle.gthetabar, Vehicle.gphibar,
      Vehicle.cfvbar, l00]
  · refine (hasDerivAt_const t y0.psi).congr_deriv ?_
    simp [Vehicle.EOM, adv, hgamma, hphi, hpsi, Vehicle.a_wbar, Vehicle.gwbar, Vehicle.gthetabar, Vehicle.gphibar,
      Vehicle.cfpsibar, Vehicle.copsibar, hJ, l00]
  · refine (hasDerivAt_const t y0.gamma).congr_deriv ?_
    simp only [Vehicle.EOM, adv, hgamma, hphi, hpsi, Vehicle.a_nbar, Vehicle.gnbar, Vehicle.gthetabar, Vehicle.grbar,
      Vehicle.cfgammabar, Vehicle.cogammabar, hJ, l00, l10, l15, l20, sin_zero, cos_zero, zero_mul, mul_zero, add_zero,
      mul_one, zero_div, zero_sub, one_mul]
    have hb := hbal (y0.theta + y0.v / y0.r * t)
    generalize W.Lbar y0.r (y0.theta + y0.v / y0.r * t) 0 y0.v / W.mbar = L at hb ⊢
    field_simp at hb ⊢
    linarith
  · refine (hlin y0.drange y0.v).congr_deriv ?_
    simp [Vehicle.EOM, adv, hgamma]

/-- The vehicle of the cases: no drag, lift coefficient 1, in an atmosphere of density 1. -/
def circleVehicle (P : Planet) (st : InitState) : Vehicle :=
  Vehicle.mk' 500 100 0.2 1 0 1 P ⟨fun _ => 1, fun _ => 1, fun _ => 1, fun _ => 1⟩ true (fun _ => 0) st

/-- There is a speed at which the vehicle flies on the circle. -/
theorem circle_speed (P : Planet) (hP : Planet.init "VENUS" = .ok P) : ∃ v : ℝ, 0 < v ∧ ∀ st th,
    (circleVehicle P st).Lbar ((P.RP + 179500) / P.RP) th 0 v / (circleVehicle P st).mbar
      + v ^ 2 / ((P.RP + 179500) / P.RP) + 2 * P.OMEGAbar * v + P.OMEGAbar ^ 2 * ((P.RP + 179500) / P.RP)
      = 1 / ((P.RP + 179500) / P.RP) ^ 2 + 3 / 2 * P.J2 / ((P.RP + 179500) / P.RP) ^ 4 := by
  obtain ⟨_, hR, hGM, hrho, _, _, _, _, hV, htau, h11, h12, h13, _⟩ := C01_planet_consistent "VENUS" P hP
  have hRP : P.RP = 6051800 := by
    have : P.RP = 6051.8e3 := by simp [Planet.init] at hP; subst hP; rfl
    rw [this]; norm_num
  have hGMv : P.GM = 324859900000000 := by
    have : P.GM = 3.248599e14 := by simp [Planet.init] at hP; subst hP; rfl
    rw [this]; norm_num
  have hJ2 : 0 ≤ P.J2 := by
    have : P.J2 = 4.458e-6 := by simp [Planet.init] at hP; subst hP; rfl
    rw [this]; norm_num
  have hOm : P.OMEGA = -2.99237e-7 := by simp [Planet.init] at hP; subst hP; rfl
  have hTh : P.hThres = 180000 := by simp [Planet.init] at hP; subst hP; rfl
  set ρ := (P.RP + 179500) / P.RP with hρ
  have hρ1 : 1 ≤ ρ := by rw [hρ, hRP]; norm_num
  have hρ2 : ρ ≤ 2 := by rw [hρ, hRP]; norm_num
  have hOb : P.OMEGAbar ^ 2 ≤ 1 / 100 := by
    have e : P.tau ^ 2 * P.GM = P.RP ^ 3 := by rw [← h11, ← h12]; ring
    rw [h13, mul_pow, hOm]
    rw [hRP, hGMv] at e
    nlinarith
  -- the lift per mass
  obtain ⟨k, hk, hL⟩ : ∃ k : ℝ, 0 ≤ k ∧ ∀ st th v,
      (circleVehicle P st).Lbar ρ th 0 v / (circleVehicle P st).mbar = k * v ^ 2 := by
    refine ⟨(circleVehicle P ⟨0, 0, 0, 0, 0, 0, 0, 0⟩).Lbar ρ 0 0 1 /
      (circleVehicle P ⟨0, 0, 0, 0, 0, 0, 0, 0⟩).mbar, ?_, fun st th v => ?_⟩
    · have h1 := (C03_density_nonneg "VENUS" P hP ⟨fun _ => 1, fun _ => 1, fun _ => 1, fun _ => 1⟩
        (fun _ _ _ => zero_le_one) ρ 0 0).2.1
      have h2 : 0 ≤ (circleVehicle P ⟨0, 0, 0, 0, 0, 0, 0, 0⟩).Abar := by simp only [circleVehicle, Vehicle.mk']; positivity
      have h3 : 0 ≤ (circleVehicle P ⟨0, 0, 0, 0, 0, 0, 0, 0⟩).CL := by norm_num [circleVehicle, Vehicle.mk']
      have h4 : 0 ≤ (circleVehicle P ⟨0, 0, 0, 0, 0, 0, 0, 0⟩).mbar := by simp only [circleVehicle, Vehicle.mk']; positivity
      have h5 : (0:ℝ) ≤ 0.5 := by norm_num
      have h6 : 0 ≤ (circleVehicle P ⟨0, 0, 0, 0, 0, 0, 0, 0⟩).planet.rhobar
        (circleVehicle P ⟨0, 0, 0, 0, 0, 0, 0, 0⟩).atm ρ 0 0 := h1
      unfold Vehicle.Lbar
      positivity
    · have a : (circleVehicle P st).Lbar ρ th 0 v = (circleVehicle P ⟨0, 0, 0, 0, 0, 0, 0, 0⟩).Lbar ρ 0 0 v := rfl
      have b : (circleVehicle P st).mbar = (circleVehicle P ⟨0, 0, 0, 0, 0, 0, 0, 0⟩).mbar := rfl
      rw [a, b]
      simp only [Vehicle.Lbar]
      ring
  set A := k + 1 / ρ with hA
  have hA0 : 0 < A := by positivity
  set C := P.OMEGAbar ^ 2 * ρ - (1 / ρ ^ 2 + 3 / 2 * P.J2 / ρ ^ 4) with hC
  have hC0 : C < 0 := by
    have h1 : 1 / 4 ≤ 1 / ρ ^ 2 := by
      rw [div_le_div_iff₀ (by norm_num) (by positivity)]; nlinarith
    have h2 : 0 ≤ 3 / 2 * P.J2 / ρ ^ 4 := by positivity
    have h3 : P.OMEGAbar ^ 2 * ρ ≤ 1 / 100 * 2 := by gcongr
    rw [hC]; linarith
  -- the positive root of `A v² + 2 Ω v + C = 0`
  have hdisc : 0 ≤ P.OMEGAbar ^ 2 - A * C := by nlinarith [sq_nonneg P.OMEGAbar, mul_pos hA0 (neg_pos.mpr hC0)]
  have hroot : P.OMEGAbar < √(P.OMEGAbar ^ 2 - A * C) := by
    refine lt_of_le_of_lt (le_abs_self _) ?_
    rw [← Real.sqrt_sq_eq_abs]
    exact Real.sqrt_lt_sqrt (sq_nonneg _) (by nlinarith [mul_pos hA0 (neg_pos.mpr hC0)])
  refine ⟨(√(P.OMEGAbar ^ 2 - A * C) - P.OMEGAbar) / A, div_pos (by linarith) hA0, fun st th => ?_⟩
  rw [hL]
  set q := √(P.OMEGAbar ^ 2 - A * C) with hq
  have hq2 : q ^ 2 = P.OMEGAbar ^ 2 - A * C := Real.sq_sqrt hdisc
  have e : A * ((q - P.OMEGAbar) / A) ^ 2 + 2 * P.OMEGAbar * ((q - P.OMEGAbar) / A) + C = 0 := by
    field_simp
    linear_combination hq2
  generalize (q - P.OMEGAbar) / A = v at e ⊢
  rw [hA, hC] at e
  linear_combination e

/-- The solver is exact on the circle. -/
theorem circle_follows_at (P : Planet) (hP : Planet.init "VENUS" = .ok P) (v0 : ℝ) (hv0 : 0 < v0)
    (hbal : ∀ st th,
      (circleVehicle P st).Lbar ((P.RP + 179500) / P.RP) th 0 v0 / (circleVehicle P st).mbar
        + v0 ^ 2 / ((P.RP + 179500) / P.RP) + 2 * P.OMEGAbar * v0 + P.OMEGAbar ^ 2 * ((P.RP + 179500) / P.RP)
        = 1 / ((P.RP + 179500) / P.RP) ^ 2 + 3 / 2 * P.J2 / ((P.RP + 179500) / P.RP) ^ 4)
    (W : Vehicle) (st : InitState) (hW : W = circleVehicle P st ∨ ∃ b, W = (circleVehicle P st).setBeta b)
    (x : InitState) (hx : OnCircle (v0 * P.Vref / 1000) x) (R : FState → Prop)
    (hR : ∀ s : FState, s.r = (P.RP + 179500) / P.RP → s.v = v0 → R s) (ε : ℝ) (hε : 0 ≤ ε) :
    FollowsFlight R ε (W.setInitialState x) circleIntegrator 1 0.1 0.0 := by
  have hpl : W.planet = P := by rcases hW with rfl | ⟨b, rfl⟩ <;> rfl
  have hinit : Planet.init "VENUS" = .ok (W.setInitialState x).planet := by
    show Planet.init "VENUS" = .ok W.planet
    rw [hpl]; exact hP
  obtain ⟨_, hRP, _, _, _, _, _, _, hV, _⟩ := C01_planet_consistent "VENUS" P hP
  have hJ3 : P.J3 = 0 := by simp [Planet.init] at hP; subst hP; rfl
  obtain ⟨S, T, e1, e2⟩ := samples_circle "VENUS" (W.setInitialState x) hinit 1 0.1 0.0 (by norm_num) (by norm_num)
  obtain ⟨c1, c2, c3, c4, c5⟩ := hx
  have hpl' : (W.setInitialState x).planet = P := hpl
  rw [hpl'] at e2
  set y0 := P.nonDimState (Vehicle.entryState P x) with hy0
  have l3 : (1.0e3:ℝ) = 1000 := by norm_num
  have l4 : (1.000e3:ℝ) = 1000 := by norm_num
  have r1 : y0.r = (P.RP + 179500) / P.RP := by
    simp only [hy0, Planet.nonDimState, Vehicle.entryState, Planet.computeR, c1]; norm_num
  have r2 : y0.v = v0 := by
    simp only [hy0, Planet.nonDimState, Vehicle.entryState, c3, l3, l4]; field_simp
  have r3 : y0.phi = 0 := by simp [hy0, Planet.nonDimState, Vehicle.entryState, c2]
  have r4 : y0.psi = 0 := by simp [hy0, Planet.nonDimState, Vehicle.entryState, c4]
  have r5 : y0.gamma = 0 := by simp [hy0, Planet.nonDimState, Vehicle.entryState, c5]
  have hr0 : 0 < y0.r := by rw [r1]; positivity
  have hsol : ∀ t, SolvesAt (fun s => (W.setInitialState x).EOM s t 0) (adv y0) t := by
    intro t
    refine circle_solution (W.setInitialState x) (by rw [hpl']; exact hJ3) y0 hr0 (by rw [r2]; exact hv0) r3 r4 r5 ?_ ?_ t
    · intro th
      rcases hW with rfl | ⟨b, rfl⟩ <;>
        simp [Vehicle.Dbar, circleVehicle, Vehicle.mk', Vehicle.setInitialState, Vehicle.setBeta]
    · intro th
      rw [hpl', r1, r2]
      have := hbal st th
      rcases hW with rfl | ⟨b, rfl⟩
      · exact this
      · exact this
  refine ⟨adv y0, T, ∅, ?_, ⟨?_, ?_, ?_, ?_, ?_, ?_, ?_, ?_⟩, ?_, e2⟩
  · rw [hpl', show adv y0 0 = y0 by simp [adv], hy0]
    exact samplePt_start "VENUS" P hP x
  · simp only [adv]; fun_prop
  · simp only [adv]; fun_prop
  · simp only [adv]; fun_prop
  · simp only [adv]; fun_prop
  · simp only [adv]; fun_prop
  · simp only [adv]; fun_prop
  · simp only [adv]; fun_prop
  · intro t _ _
    have h := hsol t
    refine ⟨(W.setInitialState x).EOM (adv y0 t) t 0, ⟨h.r, h.theta, h.phi, h.v, h.psi, h.gamma, h.drange⟩, ?_⟩
    rw [show (0.0:ℝ) * π / 180 = 0 by norm_num]
    constructor <;> simpa using hε
  · intro t _
    exact hR _ r1 r2

theorem circle_follows (P : Planet) (hP : Planet.init "VENUS" = .ok P) (v0 : ℝ) (hv0 : 0 < v0)
    (hbal : ∀ st th,
      (circleVehicle P st).Lbar ((P.RP + 179500) / P.RP) th 0 v0 / (circleVehicle P st).mbar
        + v0 ^ 2 / ((P.RP + 179500) / P.RP) + 2 * P.OMEGAbar * v0 + P.OMEGAbar ^ 2 * ((P.RP + 179500) / P.RP)
        = 1 / ((P.RP + 179500) / P.RP) ^ 2 + 3 / 2 * P.J2 / ((P.RP + 179500) / P.RP) ^ 4)
    (W : Vehicle) (st : InitState) (hW : W = circleVehicle P st ∨ ∃ b, W = (circleVehicle P st).setBeta b)
    (x : InitState) (hx : OnCircle (v0 * P.Vref / 1000) x) :
    FollowsFlight (fun s => s.r ≠ 0 ∧ 0 ≤ s.v) 0 (W.setInitialState x) circleIntegrator 1 0.1 0.0 := by
  obtain ⟨_, hRP, _⟩ := C01_planet_consistent "VENUS" P hP
  exact circle_follows_at P hP v0 hv0 hbal W st hW x hx _ (fun s h1 h2 => ⟨by rw [h1]; positivity, by rw [h2]; exact hv0.le⟩) 0
    le_rfl

/-- Case for `C111_lift_one_flight` and `C111_lift_energy_falls`: an entry with lift on the circle, of three cycles. -/
example : ∃ (P : Planet) (V : Vehicle) (G : GuideParams) (o : GuidedOut), Planet.init "VENUS" = .ok P ∧
    V = Vehicle.mk' 500 100 0.2 1 0 1 P ⟨fun _ => 1, fun _ => 1, fun _ => 1, fun _ => 1⟩ true (fun _ => 0) V.init ∧
    0 < V.init.v0Kms ∧
    Vehicle.propogateGuidedEntry G .strict circleIntegrator 3 V none 1 0.1 600 = some (.ok o) ∧
    o.fin.deltaDeg.length = 3 ∧
    (∀ x, StartsIn o.fin.hist x → ∀ δ ∈ o.fin.deltaDeg,
      FollowsFlight (fun s => s.r ≠ 0 ∧ 0 ≤ s.v) 0 (V.setInitialState x) circleIntegrator 1 0.1 δ) ∧
    EnergyFalls P o.fin.hist := by
  obtain ⟨P, hP⟩ := (C01_planet_names "VENUS").1.mpr (by simp [Spec.bodies])
  have hS : P.hSkip = 180000 := by simp [Planet.init] at hP; subst hP; rfl
  have hTh : P.hThres = 180000 := by simp [Planet.init] at hP; subst hP; rfl
  obtain ⟨v0, hv0, hbal⟩ := circle_speed P hP
  have hV : 0 < P.Vref := (C01_planet_consistent _ _ hP).2.2.2.2.2.2.2.2.1
  set w := v0 * P.Vref / 1000 with hw
  have hw0 : 0 < w := by positivity
  set V := circleVehicle P ⟨179.5, 0, 0, w, 0, 0, 0, 0⟩ with hVd
  let G : GuideParams := ⟨0, 75, 1, 0, 0, 20, 0, 250, 2000, 10, 50, 10⟩
  have hpc : ∀ cmd, (psuedoController G.maxRollRate cmd 0.0 1).1 = 0.0 := by
    intro cmd; unfold psuedoController; split_ifs <;> simp [G]
  obtain ⟨o, ho, hall, hdel⟩ := circle_run P hP V rfl w ⟨rfl, rfl, rfl, rfl, rfl⟩ G hw0 le_rfl
    (Vehicle.glide1 G .strict circleIntegrator) (Vehicle.exit1 G .strict circleIntegrator) (fun W => W) (fun _ => rfl) rfl rfl
    (by
      intro x hx
      obtain ⟨cmd, hc, _⟩ := C40_glide_command V G x (by norm_num [V, circleVehicle, Vehicle.mk'])
        (by norm_num [V, circleVehicle, Vehicle.mk']) (by
          obtain ⟨c1, -, c3, -⟩ := hx
          rw [c1, c3]
          simp only [V, circleVehicle, Vehicle.mk', Planet.density, hTh]; norm_num
          exact hw0.ne')
      exact ⟨_, by simp only [Vehicle.glide1, Vehicle.glideBank, hc, bind, Except.bind, pure, Except.pure, hpc]; rfl⟩)
    (hpc 0.0) (by simp only [Vehicle.glide1]; norm_num) (by simp only [Vehicle.exit1, hS]; norm_num)
  have hfly : ∀ x, StartsIn o.fin.hist x → ∀ δ ∈ o.fin.deltaDeg,
      FollowsFlight (fun s => s.r ≠ 0 ∧ 0 ≤ s.v) 0 (V.setInitialState x) circleIntegrator 1 0.1 δ := by
    intro x hx δ hδ
    have : δ = 0.0 := by rw [hdel] at hδ; simpa using hδ
    subst this
    exact circle_follows P hP v0 hv0 hbal V _ (Or.inl rfl) x (allOnCircle_starts hall hx)
  refine ⟨P, V, G, o, hP, rfl, hw0, ho, by rw [hdel]; rfl, hfly, ?_⟩
  exact C111_lift_energy_falls "VENUS" P hP 500 100 0.2 1 0 1 ⟨fun _ => 1, fun _ => 1, fun _ => 1, fun _ => 1⟩ true (fun _ => 0) _
    (by norm_num) (by norm_num) (by norm_num) (fun _ => le_rfl) (fun _ _ _ => zero_le_one) G .strict circleIntegrator
    (OdeintLike.toIvp circleIntegrator_ok) 3 none 1 0.1 600 (by norm_num) o V rfl (Or.inl ho)
    (fun x hx δ hδ => ⟨hfly x hx δ hδ, hfly x hx δ hδ⟩)

/-- Case for `C111_drag_one_flight` and `C111_drag_energy_falls`: a drag-modulated entry on the circle, with jettison. -/
example : ∃ (P : Planet) (V : Vehicle) (G : GuideParams) (o : GuidedOut), Planet.init "VENUS" = .ok P ∧
    V = Vehicle.mk' 500 100 0.2 1 0 1 P ⟨fun _ => 1, fun _ => 1, fun _ => 1, fun _ => 1⟩ true (fun _ => 0) V.init ∧
    0 < G.beta1 ∧ 1 < G.betaRatio ∧
    Vehicle.propogateGuidedEntryD G .strict circleIntegrator 3 V none 1 1 0.1 600 = some (.ok o) ∧
    o.fin.deltaDeg.length = 3 ∧
    (∀ x, StartsIn o.fin.hist x → ∀ δ ∈ o.fin.deltaDeg, ∀ b,
      FollowsFlight (fun s => s.r ≠ 0 ∧ 0 ≤ s.v) 0 ((V.setBeta b).setInitialState x) circleIntegrator 1 0.1 δ) ∧
    EnergyFalls P o.fin.hist := by
  obtain ⟨P, hP⟩ := (C01_planet_names "VENUS").1.mpr (by simp [Spec.bodies])
  have hS : P.hSkip = 180000 := by simp [Planet.init] at hP; subst hP; rfl
  obtain ⟨v0, hv0, hbal⟩ := circle_speed P hP
  have hV : 0 < P.Vref := (C01_planet_consistent _ _ hP).2.2.2.2.2.2.2.2.1
  set w := v0 * P.Vref / 1000 with hw
  have hw0 : 0 < w := by positivity
  set V := circleVehicle P ⟨179.5, 0, 0, w, 0, 0, 0, 0⟩ with hVd
  let G : GuideParams := ⟨30, 75, 1, 0, 0, 20, 0, 250, 2000, 10, 50, 10⟩
  obtain ⟨o, ho, hall, hdel⟩ := circle_run P hP (V.setBeta G.beta1) rfl w ⟨rfl, rfl, rfl, rfl, rfl⟩ G hw0 le_rfl
    (Vehicle.drag1 G .strict circleIntegrator) (Vehicle.exitD1 .strict circleIntegrator)
    (fun W => W.setBeta (G.beta1 * G.betaRatio)) (fun _ => rfl) rfl rfl
    (fun x _ => ⟨none, rfl⟩) rfl (by simp only [Vehicle.drag1]; norm_num) (by left; rw [hS]; norm_num)
  have hfly : ∀ x, StartsIn o.fin.hist x → ∀ δ ∈ o.fin.deltaDeg, ∀ b,
      FollowsFlight (fun s => s.r ≠ 0 ∧ 0 ≤ s.v) 0 ((V.setBeta b).setInitialState x) circleIntegrator 1 0.1 δ := by
    intro x hx δ hδ b
    have : δ = 0.0 := by rw [hdel] at hδ; simpa using hδ
    subst this
    exact circle_follows P hP v0 hv0 hbal _ _ (Or.inr ⟨b, rfl⟩) x (allOnCircle_starts hall hx)
  have hb : 0 < G.beta1 := by norm_num [G]
  have hr : 1 < G.betaRatio := by norm_num [G]
  refine ⟨P, V, G, o, hP, rfl, hb, hr, ho, by rw [hdel]; rfl, hfly, ?_⟩
  exact C111_drag_energy_falls "VENUS" P hP 500 100 0.2 1 0 1 ⟨fun _ => 1, fun _ => 1, fun _ => 1, fun _ => 1⟩ true (fun _ => 0) _
    (by norm_num) (by norm_num) (fun _ => le_rfl) (fun _ _ _ => zero_le_one) G hb (by linarith) .strict circleIntegrator
    (OdeintLike.toIvp circleIntegrator_ok) 3 none 1 1 0.1 600 (by norm_num) o V rfl (Or.inl ho)
    (fun x hx δ hδ => ⟨hfly x hx δ hδ _, hfly x hx δ hδ _, hfly x hx δ hδ _⟩)

end AMAT.Props
