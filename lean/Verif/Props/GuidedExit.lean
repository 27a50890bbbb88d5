import Verif.Props.GuidedSwitch

/-
C103: where a guided simulation ends.
-/

noncomputable section

namespace AMAT.Props

open Real AMAT.Spec

/-- The reasons to end the exit phase after a cycle that began at the altitude `h` (km): less than 10 km (drag modulation:
1 km) below the skip altitude; with drag modulation also lower than 20 km. -/
def Leaves (P : Planet) (drag : Bool) (h : ℝ) : Prop :=
  if drag then P.hSkip / 1000 - 1 < h ∨ h < 20 else P.hSkip / 1000 - 10 < h

/-- The exit phase of one of the four guided simulations. -/
def IsExitPhase (G : GuideParams) (mode : ScipyMode) (I I' : Integrator) (drag : Bool) (F : ExitPhase) : Prop :=
  if drag then F = Vehicle.exitD1 mode I ∨ F = Vehicle.exitD2 mode I'
  else F = Vehicle.exit1 G mode I ∨ F = Vehicle.exit2 G mode I'

theorem stop_iff {G : GuideParams} {mode : ScipyMode} {I I' : Integrator} {drag : Bool} {F : ExitPhase}
    (hF : IsExitPhase G mode I I' drag F) (P : Planet) (h : ℝ) : F.stop P (h * 1.0E3) ↔ Leaves P drag h := by
  have e1 : (1.0E3 : ℝ) = 1000 := by norm_num
  have e2 : (10.0E3 : ℝ) = 10000 := by norm_num
  have e3 : (20.0E3 : ℝ) = 20000 := by norm_num
  cases drag with
  | false =>
    have hs : F.stop = fun P h => h > P.hSkip - 10.0E3 := by
      rcases (show F = _ ∨ F = _ from hF) with rfl | rfl <;> rfl
    simp only [hs, Leaves, e1, e2, Bool.false_eq_true, if_false]
    constructor <;> intro h <;> linarith
  | true =>
    have hs : F.stop = fun P h => h > P.hSkip - 1.0E3 ∨ h < 20.0E3 := by
      rcases (show F = _ ∨ F = _ from hF) with rfl | rfl <;> rfl
    simp only [hs, Leaves, e1, e3, if_true]
    constructor <;> rintro (h | h)
    · left; linarith
    · right; linarith
    · left; linarith
    · right; linarith

/-- C103, one cycle: the exit phase is left after a cycle exactly if the cycle began where there is a reason to leave; so one
more cycle is flown from there. -/
theorem C103_cycle_leaves_iff (G : GuideParams) (mode : ScipyMode) (I I' : Integrator) (drag : Bool) (F : ExitPhase)
    (hF : IsExitPhase G mode I I' drag F) (ts dt J hdotRef : ℝ) (s s' : ExitState) (b : Bool)
    (h : exitCycle F ts dt J hdotRef s = .ok (s', b)) :
    ∃ h0 h1, s.hist.h.getLast? = some h0 ∧ s'.hist.h.getLast? = some h1 ∧ s'.hCur = h1 ∧ s'.V.planet = s.V.planet ∧
      (b = true ↔ Leaves s.V.planet drag h0) := by
  obtain ⟨x, out, tEnd, y, hd, tOld, hx, -, -, -, -, hy, rfl, hb⟩ := exitCycle_inv h
  exact ⟨x.h0Km, y.h0Km, (last_ok.mp hx).1, (last_ok.mp hy).1, rfl, rfl, by rw [hb]; exact stop_iff hF _ _⟩

/-- The cycles of a finished exit phase. -/
theorem exit_chain {F : ExitPhase} {ts dt J hr : ℝ} {s' : ExitState} : ∀ (fuel : ℕ) (s : ExitState),
    exitLoop F ts dt J hr fuel s = some (.ok s') → ∃ (n : ℕ) (st : ℕ → ExitState), st 0 = s ∧ st n = s' ∧
      (∀ i < n, (st i).hCur < (st i).V.planet.hSkip / 1.0E3 ∧ ∃ b, exitCycle F ts dt J hr (st i) = .ok (st (i + 1), b) ∧
        (i + 1 < n → b = false)) ∧
      (¬ s'.hCur < s'.V.planet.hSkip / 1.0E3 ∨ ∃ i, i + 1 = n ∧ exitCycle F ts dt J hr (st i) = .ok (st (i + 1), true)) := by
  intro fuel
  induction fuel with
  | zero => intro s h; simp [exitLoop] at h
  | succ k ih =>
    intro s h
    unfold exitLoop at h
    split_ifs at h with hc
    · split at h
      · simp at h
      · next u hu =>
        simp only [Option.some.injEq, Except.ok.injEq] at h
        subst h
        refine ⟨1, fun i => if i = 0 then s else u, by simp, by simp, ?_, Or.inr ⟨0, rfl, by simpa using hu⟩⟩
        intro i hi
        obtain rfl : i = 0 := by omega
        exact ⟨by simpa using hc, true, by simpa using hu, fun h => absurd h (by norm_num)⟩
      · next u hu =>
        obtain ⟨n, st, h0, hn, h1, h2⟩ := ih u h
        refine ⟨n + 1, fun i => if i = 0 then s else st (i - 1), by simp, by simp [hn], ?_, ?_⟩
        · intro i hi
          rcases Nat.eq_zero_or_pos i with rfl | hi0
          · exact ⟨by simpa using hc, false, by simpa [h0] using hu, fun _ => rfl⟩
          · obtain ⟨a, b, hb, hb'⟩ := h1 (i - 1) (by omega)
            have e : i - 1 + 1 = i := by omega
            rw [e] at hb
            refine ⟨by simpa [hi0.ne'] using a, b, ?_, fun h => hb' (by omega)⟩
            simp only [hi0.ne', if_false, Nat.add_eq_zero_iff, one_ne_zero, and_false, Nat.add_sub_cancel]
            exact hb
        · rcases h2 with h2 | ⟨i, hi, h2⟩
          · exact Or.inl h2
          · refine Or.inr ⟨i + 1, by omega, ?_⟩
            simpa using h2
    · simp only [Option.some.injEq, Except.ok.injEq] at h
      subst h
      exact ⟨0, fun _ => s, rfl, rfl, fun i hi => absurd hi (Nat.not_lt_zero i), Or.inl hc⟩

/-- C103, the whole simulation: its exit phase consists of `n` cycles.  `H i` is the recorded history when cycle `i` begins,
and that time is the one stored for the cycle.  Every cycle begins below the skip altitude; every cycle but the last begins
where there is no reason to leave; and in the end the vehicle is at or above the skip altitude, or the last cycle began where
there was a reason to leave. -/
theorem C103_runs_end (G : GuideParams) (mode : ScipyMode) (I I' : Integrator) (fuel : ℕ) (V : Vehicle)
    (hdotref : Option (List (Option ℝ))) (ts tsX dt maxTime : ℝ) (o : GuidedOut) (drag : Bool)
    (ho : if drag then Vehicle.propogateGuidedEntryD G mode I fuel V hdotref ts tsX dt maxTime = some (.ok o) ∨
        Vehicle.propogateGuidedEntryD2 G mode I' fuel V hdotref ts tsX dt maxTime = some (.ok o)
      else Vehicle.propogateGuidedEntry G mode I fuel V hdotref ts dt maxTime = some (.ok o) ∨
        Vehicle.propogateGuidedEntry2 G mode I I' fuel V hdotref ts dt maxTime = some (.ok o)) :
    ∃ (m n : ℕ) (H : ℕ → Hist) (alt : ℕ → ℝ), H n = o.fin.hist ∧ o.fin.tStep.length = m + n ∧
      (∀ i ≤ n, (H i).h.getLast? = some (alt i)) ∧
      (∀ i < n, (H i).h <+: (H (i + 1)).h ∧ (H i).t.getLast? = o.fin.tStep[m + i]? ∧ alt i < V.planet.hSkip / 1000) ∧
      (∀ i, i + 1 < n → ¬ Leaves V.planet drag (alt i)) ∧
      (V.planet.hSkip / 1000 ≤ alt n ∨ ∃ i, i + 1 = n ∧ Leaves V.planet drag (alt i)) := by
  have key : ∀ {FE FX prep V' tsE tsX'}, IsExitPhase G mode I I' drag FX → (∀ W : Vehicle, (prep W).planet = W.planet) →
      V'.planet = V.planet → (∀ W x, prep (Vehicle.setInitialState W x) = (prep W).setInitialState x) →
      Vehicle.guided G FE FX mode fuel V' hdotref prep tsE tsX' dt maxTime = some (.ok o) →
      ∃ (m n : ℕ) (H : ℕ → Hist) (alt : ℕ → ℝ), H n = o.fin.hist ∧ o.fin.tStep.length = m + n ∧
      (∀ i ≤ n, (H i).h.getLast? = some (alt i)) ∧
      (∀ i < n, (H i).h <+: (H (i + 1)).h ∧ (H i).t.getLast? = o.fin.tStep[m + i]? ∧ alt i < V.planet.hSkip / 1000) ∧
      (∀ i, i + 1 < n → ¬ Leaves V.planet drag (alt i)) ∧
      (V.planet.hSkip / 1000 ≤ alt n ∨ ∃ i, i + 1 = n ∧ Leaves V.planet drag (alt i)) := by
    intro FE FX prep V' tsE tsX' hF hpp hV hprep hg
    have k1 : (1.0E3 : ℝ) = 1000 := by norm_num
    have hfinP : o.fin.V.planet = V.planet := by
      rcases guided_vehicle hprep hg with h | ⟨x, h⟩ <;> rw [h]
      · rw [hpp, hV]
      · show (prep V').planet = _
        rw [hpp, hV]
    obtain ⟨s0, s, e, J, hr, h1, h2, h3, h4, h5⟩ := guided_inv hg
    obtain ⟨hk, p, hlast, -, -, -, he⟩ := exitStart_inv h3
    obtain ⟨n, st, st0, stn, hst, hend⟩ := exit_chain fuel e h4
    -- one step
    have step : ∀ i < n, (st (i + 1)).V.planet = (st i).V.planet ∧ (st i).hist.h <+: (st (i + 1)).hist.h ∧
        (st i).tStep <+: (st (i + 1)).tStep ∧ (st (i + 1)).tStep.length = (st i).tStep.length + 1 ∧
        (st (i + 1)).tStep[(st i).tStep.length]? = (st i).hist.t.getLast? ∧
        (st (i + 1)).hist.h.getLast? = some (st (i + 1)).hCur := by
      intro i hi
      obtain ⟨-, b, hb, -⟩ := hst i hi
      obtain ⟨x, out, tEnd, y, hd, tOld, hx, -, ht, -, -, hy, hs', -⟩ := exitCycle_inv hb
      refine ⟨by rw [hs']; rfl, ?_, ?_, by rw [hs']; simp, by rw [hs', ht]; simp, ?_⟩
      · rw [hs']; exact List.prefix_append _ _
      · rw [hs']; exact List.prefix_append _ _
      · rw [hs']; exact (last_ok.mp hy).1
    have hlen : ∀ i ≤ n, (st i).tStep.length = e.tStep.length + i := by
      intro i
      induction i with
      | zero => intro _; rw [st0]; rfl
      | succ j ih => intro hj; rw [(step j (by omega)).2.2.2.1, ih (by omega)]; rfl
    have hpref : ∀ k, ∀ i, i + k = n → (st i).tStep <+: o.fin.tStep := by
      intro k
      induction k with
      | zero => intro i hi; rw [← stn, ← hi]; exact List.prefix_rfl
      | succ j ih => intro i hi; exact (step i (by omega)).2.2.1.trans (ih (i + 1) (by omega))
    have hplk : ∀ k, ∀ i, i + k = n → (st i).V.planet = V.planet := by
      intro k
      induction k with
      | zero => intro i hi; rw [← hfinP, ← stn, ← hi]; rfl
      | succ j ih => intro i hi; rw [← (step i (by omega)).1]; exact ih (i + 1) (by omega)
    have hpl : ∀ i ≤ n, (st i).V.planet = V.planet := fun i hi => hplk (n - i) i (by omega)
    have halt : ∀ i ≤ n, (st i).hist.h.getLast? = some (st i).hCur := by
      intro i hi
      cases i with
      | zero => rw [st0, he]; exact hlast
      | succ j => exact (step j (by omega)).2.2.2.2.2
    have hleave : ∀ i < n, ∀ b, exitCycle FX tsX' dt J hr (st i) = .ok (st (i + 1), b) →
        (b = true ↔ Leaves V.planet drag (st i).hCur) := by
      intro i hi b hb
      obtain ⟨h0, -, e0, -, -, -, h⟩ := C103_cycle_leaves_iff G mode I I' drag FX hF _ _ _ _ _ _ _ hb
      rw [halt i hi.le] at e0
      simp only [Option.some.injEq] at e0
      rw [h, hpl i hi.le, ← e0]
    refine ⟨e.tStep.length, n, fun i => (st i).hist, fun i => (st i).hCur, by simp only [stn], ?_, halt, ?_, ?_, ?_⟩
    · rw [← hlen n le_rfl, stn]
    · intro i hi
      obtain ⟨-, a2, -, a4, a5, -⟩ := step i hi
      refine ⟨a2, ?_, ?_⟩
      · rw [← a5, hlen i hi.le]
        obtain ⟨r, hr'⟩ := hpref (n - (i + 1)) (i + 1) (by omega)
        rw [← hr', List.getElem?_append_left]
        rw [a4, hlen i hi.le]; omega
      · have := (hst i hi).1
        rw [hpl i hi.le, k1] at this
        exact this
    · intro i hi
      obtain ⟨-, b, hb, hb'⟩ := hst i (by omega)
      rw [← hleave i (by omega) b hb, hb' hi]
      decide
    · rcases hend with h | ⟨i, hi, h⟩
      · left
        rw [hfinP, k1, ← stn] at h
        exact not_lt.mp h
      · exact Or.inr ⟨i, hi, (hleave i (by omega) true h).mp rfl⟩
  cases drag with
  | false =>
    rcases (show _ ∨ _ from ho) with ho | ho
    · exact key (Or.inl rfl) (fun _ => rfl) rfl (fun _ _ => rfl) ho
    · exact key (Or.inr rfl) (fun _ => rfl) rfl (fun _ _ => rfl) ho
  | true =>
    rcases (show _ ∨ _ from ho) with ho | ho
    · exact key (V' := V.setBeta G.beta1) (prep := fun W => W.setBeta (G.beta1 * G.betaRatio)) (Or.inl rfl) (fun _ => rfl)
        rfl (fun _ _ => rfl) ho
    · exact key (V' := V.setBeta G.beta1) (prep := fun W => W.setBeta (G.beta1 * G.betaRatio)) (Or.inr rfl) (fun _ => rfl)
        rfl (fun _ _ => rfl) ho

/-- C103, the end of a lift-modulated simulation in terms of what it returns: the last recorded point is at or above the skip
altitude, or the point recorded at the stored time of the last cycle, where the last segment begins, is less than 10 km below
it. -/
theorem C103_lift_ends_high_partial (G : GuideParams) (mode : ScipyMode) (I I' : Integrator) (fuel : ℕ) (V : Vehicle)
    (hdotref : Option (List (Option ℝ))) (ts dt maxTime : ℝ) (o : GuidedOut)
    (ho : Vehicle.propogateGuidedEntry G mode I fuel V hdotref ts dt maxTime = some (.ok o) ∨
      Vehicle.propogateGuidedEntry2 G mode I I' fuel V hdotref ts dt maxTime = some (.ok o)) :
    ∃ h, o.fin.hist.h.getLast? = some h ∧ (V.planet.hSkip / 1000 ≤ h ∨
      ∃ H0 : Hist, H0.h <+: o.fin.hist.h ∧ H0.t.getLast? = o.fin.tStep.getLast? ∧
        ∃ h0, H0.h.getLast? = some h0 ∧ V.planet.hSkip / 1000 - 10 < h0) := by
  obtain ⟨m, n, H, alt, h1, h2, h3, h4, -, h6⟩ := C103_runs_end G mode I I' fuel V hdotref ts ts dt maxTime o false
    (by simpa using ho)
  refine ⟨alt n, by rw [← h1]; exact h3 n le_rfl, ?_⟩
  rcases h6 with h6 | ⟨i, hi, h6⟩
  · exact Or.inl h6
  · right
    obtain ⟨a1, a2, -⟩ := h4 i (by omega)
    refine ⟨H i, by rw [← h1, ← hi]; exact a1, ?_, alt i, h3 i (by omega), by simpa [Leaves] using h6⟩
    rw [a2, List.getLast?_eq_getElem?, h2]
    congr 1; omega

/-- Guidance parameters with a switch speed of 5 km/s. -/
def fastSwitch : GuideParams := { exampleGuide with vSwitchKms := 5 }

/-- A drag-modulation run at Mars whose entry phase has no cycle and whose vehicle is at 15 km when its exit phase begins. -/
theorem crash_run (P : Planet) (hP : Planet.init "MARS" = .ok P) (atm : Atmosphere) : ∃ (I : Integrator) (o : GuidedOut),
    OdeintLike I ∧ Vehicle.propogateGuidedEntryD fastSwitch .strict I 2 (exampleVehicle P atm 4) none 1 1 0.1 600
      = some (.ok o) ∧ o.fin.hist.last 0 = .ok ⟨15, 0, 0, 4, 0, -90, 0, 0⟩ := by
  have hR : P.RP = 3389.5e3 := by simp [Planet.init] at hP; subst hP; rfl
  have hT : P.hTrap = 10e3 := by simp [Planet.init] at hP; subst hP; rfl
  have hS : P.hSkip = 120e3 := by simp [Planet.init] at hP; subst hP; rfl
  have hVr : 0 < P.Vref := (C01_planet_consistent _ _ hP).2.2.2.2.2.2.2.2.1
  have hRp : P.RP ≠ 0 := by rw [hR]; norm_num
  let ρ := (P.RP + 15000) / P.RP
  let g : FState → FState := fun y => { y with r := ρ }
  have hρ : ρ * P.RP - P.RP = 15000 := by simp only [ρ, div_mul_cancel₀ _ hRp]; ring
  have seg : ∀ (W : Vehicle) (δ : ℝ), W.planet = P → 10 < W.init.h0Km → W.init.h0Km < 120 →
      ∃ out J, W.propogateEntry .strict (jumpIntegrator g) 1 0.1 δ = .ok out ∧ out.accNetG ≠ [] ∧ out.accDragG ≠ [] ∧
        out.heatload.getLast? = some J ∧ (Hist.ofOut out).t ≠ [] ∧
        ∀ J', (Hist.ofOut out).last J' = .ok { W.init with h0Km := 15, heatLoad0 := J' } := by
    intro W δ hW h1 h2
    have hPW : Planet.init "MARS" = .ok W.planet := by rw [hW]; exact hP
    obtain ⟨out, J, t, o1, o2, o3, o4, o5, o6⟩ := segment_jump "MARS" W hPW .strict g 1 0.1 δ (by norm_num) (by norm_num)
      (by rw [hW, hT]; linarith) (by rw [hW, hS]; linarith)
      (by rw [hW, hT]; simp only [g]; rw [hρ]; norm_num) (by rw [hW, hS]; simp only [g]; rw [hρ]; norm_num)
    refine ⟨out, J, o1, o2, o3, o4, o5, ?_⟩
    intro J'
    have := o6 J'
    have e : g (W.planet.nonDimState (Vehicle.entryState W.planet W.init)) =
      { W.planet.nonDimState (Vehicle.entryState W.planet W.init) with
        r := ρ, v := (W.planet.nonDimState (Vehicle.entryState W.planet W.init)).v } := rfl
    rw [e, samplePt_jump "MARS" W.planet hPW] at this
    rw [this]
    congr 1
    have l3 : (1.000e3:ℝ) = 1000 := by norm_num
    have l6 : (1e-3:ℝ) = 1 / 1000 := by norm_num
    ext <;> simp only [hW, Planet.nonDimState, Vehicle.entryState, l3, l6]
    · rw [hρ]; norm_num
    · field_simp
  set V := exampleVehicle P atm 4 with hV
  obtain ⟨o0, J0, a1, a2, a3, a4, a5, a6⟩ := seg (V.setBeta fastSwitch.beta1) 0 rfl
    (by norm_num [hV, exampleVehicle, Vehicle.mk', Vehicle.setBeta])
    (by norm_num [hV, exampleVehicle, Vehicle.mk', Vehicle.setBeta])
  have hi : (V.setBeta fastSwitch.beta1).init = ⟨100, 0, 0, 4, 0, -90, 0, 0⟩ := rfl
  obtain ⟨l1, l2, l3, l4, l5, l6, l7, _⟩ := last_ok.mp (a6 0)
  obtain ⟨tE, htE⟩ := getLast_of_ne_nil a5
  let s : EntryState :=
    { V := V.setBeta fastSwitch.beta1, hist := Hist.ofOut o0, accDragG := o0.accDragG, segHeat := o0.heatload, vAttr := 4,
      deltaIni := 0.0, densityFn := none, tStep := [0.0], deltaDeg := [0.0], hdot := [0.0], hddot := [some 0.0],
      qref := [0.0], q := [0.0], hStep := [0.0], accStep := [some 0.0], accDragStep := [0.0], densityMes := [some 0.0],
      hdotref := none }
  have hs : entryStart (Vehicle.drag1 fastSwitch .strict (jumpIntegrator g)) (V.setBeta fastSwitch.beta1) none 0.1 = .ok s := by
    unfold entryStart
    have e1 : (Vehicle.drag1 fastSwitch .strict (jumpIntegrator g)).prop (V.setBeta fastSwitch.beta1) 1.0 0.1 0.0 = .ok o0 := by
      rw [Lits.l10, Lits.l00]; exact a1
    simp only [e1, liftPy, bind, Except.bind, pyLast_ok.mpr l1, pyLast_ok.mpr l4, pure, Except.pure]
    rfl
  have hloop : entryLoop fastSwitch (Vehicle.drag1 fastSwitch .strict (jumpIntegrator g)) .strict 1 0.1 600 2 s
      = some (.ok s) := by
    unfold entryLoop
    rw [if_neg (by simp only [s, fastSwitch]; norm_num)]
  have hJ : (Hist.ofOut o0).heatload.getLast? = some J0 := a4
  obtain ⟨e, he, e1, e2, e3, e4, e5⟩ : ∃ e, exitStart (s.V.setBeta (fastSwitch.beta1 * fastSwitch.betaRatio)) s
      = .ok (e, J0, 0.0) ∧ e.V = V.setBeta (fastSwitch.beta1 * fastSwitch.betaRatio) ∧ e.hist = Hist.ofOut o0 ∧ e.hCur = 15 ∧
      e.tStep = [0.0] ∧ e.hdot = [0.0] := by
    unfold exitStart
    simp only [liftPy, bind, Except.bind, pyLast_ok.mpr htE, pyLast_ok.mpr l1, pyLast_ok.mpr l4, pyLast_ok.mpr hJ, s,
      pure, Except.pure]
    exact ⟨_, rfl, rfl, rfl, rfl, rfl, rfl⟩
  obtain ⟨o2, J2, d1, d2, d3, d4, d5, d6⟩ := seg ((V.setBeta (fastSwitch.beta1 * fastSwitch.betaRatio)).setInitialState
      { (V.setBeta fastSwitch.beta1).init with h0Km := 15, heatLoad0 := J0 })
    ((Vehicle.exitD1 .strict (jumpIntegrator g)).command e.deltaIni 1) rfl (by norm_num [Vehicle.setInitialState])
    (by norm_num [Vehicle.setInitialState])
  obtain ⟨f, f0, f1, -, -⟩ := exitCycle_forward (F := Vehicle.exitD1 .strict (jumpIntegrator g)) (ts := 1) (dt := 0.1)
    (J := J0) (hdotRef := 0.0) (s := e) (out := o2) (by rw [e2]; exact a6 J0) (by rw [e1]; exact d1) (by rw [e2]; exact a5)
    (by rw [e5]; simp) (by rw [e4]; simp) (d6 J0)
  have hstop : (Vehicle.exitD1 .strict (jumpIntegrator g)).stop e.V.planet
      (({ (V.setBeta fastSwitch.beta1).init with h0Km := 15, heatLoad0 := J0 } : InitState).h0Km * 1.0E3) := by
    right; norm_num
  have hpl : e.V.planet = P := by rw [e1]; rfl
  have hxl : exitLoop (Vehicle.exitD1 .strict (jumpIntegrator g)) 1 0.1 J0 0.0 2 e = some (.ok f) := by
    unfold exitLoop
    rw [if_pos (by rw [e3, hpl, hS]; norm_num), f0, @decide_eq_true _ (Classical.propDecidable _) hstop]
  have hz : f.hist.last 0 = .ok ⟨15, 0, 0, 4, 0, -90, 0, 0⟩ := by
    obtain ⟨l1, l2, l3, l4, l5, l6, l7, _⟩ := last_ok.mp f1
    exact last_ok.mpr ⟨l1, l2, l3, l4, l5, l6, l7, rfl⟩
  obtain ⟨o, ho, hof⟩ : ∃ o, exitResults fastSwitch f = .ok o ∧ o.fin = f := by
    unfold exitResults
    simp only [hz, liftPy, bind, Except.bind, pure, Except.pure]
    exact ⟨_, rfl, rfl⟩
  refine ⟨_, o, jumpIntegrator_ok g, ?_, by rw [hof]; exact hz⟩
  unfold Vehicle.propogateGuidedEntryD Vehicle.guided entryPhase
  simp only [hs, hloop, exitPhase, he, hxl, ho]

/-- C103 (finding): a drag-modulation simulation can end, and report an orbit and manoeuvre costs without any sign of failure,
with the vehicle 15 km above the surface, far below the skip altitude. -/
theorem C103_crash_reported : ∃ (V : Vehicle) (G : GuideParams) (I : Integrator) (o : GuidedOut) (A B c1 c2 : ℝ),
    Planet.init "MARS" = .ok V.planet ∧ OdeintLike I ∧
    Vehicle.propogateGuidedEntryD G .strict I 2 V none 1 1 0.1 600 = some (.ok o) ∧
    o.fin.hist.h.getLast? = some 15 ∧ V.planet.hSkip / 1000 = 120 ∧
    o.apoapsis = some A ∧ o.periapsis = some B ∧ o.periapsisRaiseDV = some c1 ∧ o.apoapsisRaiseDV = some c2 := by
  obtain ⟨P, hP⟩ := (C01_planet_names "MARS").1.mpr (by simp [Spec.bodies])
  obtain ⟨I, o, hI, ho, hl⟩ := crash_run P hP ⟨fun _ => 1, fun _ => 1, fun _ => 1, fun _ => 1⟩
  have hR : P.RP = 3389500 := by
    have : P.RP = 3389.5e3 := by simp [Planet.init] at hP; subst hP; rfl
    rw [this]; norm_num
  have hS : P.hSkip = 120e3 := by simp [Planet.init] at hP; subst hP; rfl
  obtain ⟨hG, hO⟩ := mars_constants hP
  obtain ⟨y, hy, hspec⟩ := C73_reported_orbit "MARS" fastSwitch .strict I I 2
    (exampleVehicle P ⟨fun _ => 1, fun _ => 1, fun _ => 1, fun _ => 1⟩ 4) hP none 1 1 0.1 600 o (Or.inr (Or.inr (Or.inl ho)))
  obtain ⟨l1, l2, l3, l4, l5, l6, _, _⟩ := last_ok.mp hl
  obtain ⟨m1, m2, m3, m4, m5, m6⟩ := hy
  rw [l1] at m1; rw [l2] at m2; rw [l3] at m3; rw [l4] at m4; rw [l5] at m5; rw [l6] at m6
  simp only [Option.some.injEq] at m1 m2 m3 m4 m5 m6
  have hp : recPos P y = ⟨3404500, 0, 0⟩ := by
    simp only [recPos, pos, up, ← m1, ← m2, ← m3, hR]
    ext
    · simp; norm_num
    · simp
    · simp
  have hv : recVel P y = ⟨-4000, P.OMEGA * 3404500, 0⟩ := by
    have e : (-90:ℝ) * (π / 180) = -(π / 2) := by ring
    simp only [recVel, hp, vel, along, up, horiz, east, north, spin, V3.cross, ← m2, ← m3, ← m4, ← m5, ← m6, e, sin_neg,
      cos_neg, sin_pi_div_two, cos_pi_div_two]
    ext <;> simp
    norm_num
  have hpn : V3.norm (recPos P y) = 3404500 := by
    rw [hp]; simp only [V3.norm, V3.dot]
    rw [show (3404500:ℝ) * 3404500 + 0 * 0 + 0 * 0 = 3404500 ^ 2 by norm_num, Real.sqrt_sq (by norm_num)]
  have hvn : V3.norm (recVel P y) ^ 2 = 4000 ^ 2 + (P.OMEGA * 3404500) ^ 2 := by
    rw [hv]; simp only [V3.norm, V3.dot]
    rw [Real.sq_sqrt (by nlinarith [mul_self_nonneg (P.OMEGA * 3404500)])]
    ring
  obtain ⟨A, B, hA, hB, -, -, h1, h2⟩ := hspec (by show 0 < P.RP + _; rw [hR, ← m1]; norm_num)
    (by
      intro h
      have := congrArg V3.x (hv.symm.trans h)
      simp at this)
    (by
      show energy P.GM (recPos P y) (recVel P y) < 0
      rw [energy, hvn, hpn, hG, hO]
      norm_num)
  have t1 : fastSwitch.targetPeriKm = 250 := rfl
  have t2 : fastSwitch.targetApoKm = 2000 := rfl
  exact ⟨_, fastSwitch, I, o, A, B, _, _, hP, hI, ho, l1, by show P.hSkip / 1000 = 120; rw [hS]; norm_num, hA, hB,
    h1 (by show 0 ≤ P.RP + _; rw [hR, t1]; norm_num),
    h2 (by show 0 < P.RP + _; rw [hR, t1]; norm_num) (by show 0 ≤ P.RP + _; rw [hR, t2]; norm_num)⟩

/-- Cases for `C103_cycle_leaves_iff`, `C103_runs_end` and `C103_lift_ends_high_partial`: the lift-modulated run of the guided
examples, which has one exit cycle, begun at 119 km; and the drag-modulated run of the finding. -/
example : (∃ (V : Vehicle) (G : GuideParams) (I : Integrator) (o : GuidedOut), Planet.init "MARS" = .ok V.planet ∧
      Vehicle.propogateGuidedEntry G .strict I 3 V none 1 0.1 600 = some (.ok o) ∧ o.fin.hist.h.getLast? = some 119 ∧
      V.planet.hSkip / 1000 = 120) ∧
    (∃ (V : Vehicle) (G : GuideParams) (I : Integrator) (o : GuidedOut), Planet.init "MARS" = .ok V.planet ∧
      Vehicle.propogateGuidedEntryD G .strict I 2 V none 1 1 0.1 600 = some (.ok o)) ∧
    ∃ (G : GuideParams) (I : Integrator) (F : ExitPhase) (J hr : ℝ) (s s' : ExitState) (b : Bool),
      IsExitPhase G .strict I I false F ∧ exitCycle F 1 0.1 J hr s = .ok (s', b) := by
  obtain ⟨V, G, I, o, hP, -, -, ho, -, hi, -, hl, -⟩ := guided_example 4 (by norm_num)
  rw [hi] at hl
  have hS : V.planet.hSkip = 120e3 := by
    generalize V.planet = P at hP
    simp [Planet.init] at hP; subst hP; rfl
  refine ⟨⟨V, G, I, o, hP, ho, (last_ok.mp hl).1, by rw [hS]; norm_num⟩, ?_, ?_⟩
  · obtain ⟨V, G, I, o, -, -, -, -, hP, -, ho, -⟩ := C103_crash_reported
    exact ⟨V, G, I, o, hP, ho⟩
  · obtain ⟨s0, s, e, J, hr, h1, h2, h3, h4, h5⟩ := guided_inv ho
    obtain ⟨n, st, st0, stn, hst, hend⟩ := exit_chain 3 e h4
    have hpl : o.fin.V.planet = V.planet := (guided_results (I' := I) (tsX := 1) (Or.inl ho)).2
    rcases hend with h | ⟨i, -, h⟩
    · exfalso
      apply h
      have : o.fin.hist.h.getLast? = some o.fin.hCur := by
        refine exitLoop_invariant (fun s => s.hist.h.getLast? = some s.hCur) ?_ 3 e o.fin ?_ h4
        · intro s s' b _ hc
          obtain ⟨h0, h1, -, e1, e2, -⟩ := C103_cycle_leaves_iff G .strict I I false _ (Or.inl rfl) _ _ _ _ _ _ _ hc
          rw [e1, e2]
        · obtain ⟨hk, p, e1, -, -, -, rfl⟩ := exitStart_inv h3
          exact e1
      rw [(last_ok.mp hl).1] at this
      simp only [Option.some.injEq] at this
      rw [← this, hpl, hS]; norm_num
    · exact ⟨G, I, _, J, hr, _, _, true, Or.inl rfl, h⟩

end AMAT.Props
