import Verif.Props.GuidedHistory

/-
Property C42 (termination of guided entries), the C41 counterexample, and a complete concrete guided run.
-/

noncomputable section

open Classical

namespace AMAT.Props

open Real

/-! ### Running the loops forwards -/

theorem getLast_of_ne_nil {α : Type} {l : List α} (h : l ≠ []) : ∃ a, l.getLast? = some a :=
  ⟨_, List.getLast?_eq_some_getLast h⟩

theorem extend_last {a b : Hist} {J t : ℝ} {x : InitState} (h : b.last J = .ok x) : (a.extend b t).last J = .ok x := by
  obtain ⟨h1, h2, h3, h4, h5, h6, h7, h8⟩ := last_ok.mp h
  rw [last_ok]
  simp [Hist.extend, List.getLast?_append, h1, h2, h3, h4, h5, h6, h7, h8]

/-- A cycle in descending flight, run forwards. -/
theorem entryCycle_descending {G : GuideParams} {F : EntryPhase} {mode : ScipyMode} {ts dt maxTime : ℝ}
    {s : EntryState} {J : ℝ} {x : InitState} {delta : ℝ} {qref : Option ℝ} {out : PropOut} {J' : ℝ} {y : InitState}
    (hJ : s.segHeat.getLast? = some J) (hx : s.hist.last J = .ok x)
    (hcmd : F.command s.V x s.deltaIni ts = .ok (delta, qref))
    (hprop : F.prop (s.V.setInitialState x) ts dt delta = .ok out)
    (ht : s.hist.t ≠ []) (hh : s.hdot ≠ []) (hts : s.tStep ≠ []) (hn : out.accNetG ≠ []) (hd : out.accDragG ≠ [])
    (hJ' : out.heatload.getLast? = some J') (hy : (Hist.ofOut out).last J' = .ok y)
    (hdesc : x.v0Kms * 1.000E3 * sin (x.gamma0Deg * π / 180.0) ≤ G.hdotThreshold) :
    ∃ s' : EntryState, entryCycle G F mode ts dt maxTime s =
        .ok (s', decide (entryBreak G s.V.planet F.margin (some 0.0) y.h0Km)) ∧
      s'.V = s.V.setInitialState x ∧ s'.segHeat = out.heatload ∧ s'.hist.last J' = .ok y ∧ s'.hist.t ≠ [] ∧
      s'.hdot ≠ [] ∧ s'.tStep ≠ [] ∧ s'.vAttr = s.vAttr ∧ s'.hist.heatload.getLast? = some J' ∧
      s'.deltaDeg = s.deltaDeg ++ [delta] ∧ s'.hdotref.isSome := by
  obtain ⟨tEnd, htE⟩ := getLast_of_ne_nil ht
  obtain ⟨hdO, hhO⟩ := getLast_of_ne_nil hh
  obtain ⟨tO, htO⟩ := getLast_of_ne_nil hts
  obtain ⟨an, han⟩ := getLast_of_ne_nil hn
  obtain ⟨ad, had⟩ := getLast_of_ne_nil hd
  have e1 : (s.hist.extend (Hist.ofOut out) tEnd).heatload.getLast? = some J' := by
    simp [Hist.extend, Hist.ofOut, List.getLast?_append, hJ']
  have e2 := extend_last (a := s.hist) (t := tEnd) hy
  have hnot : ¬ (x.v0Kms * 1.000E3 * sin (x.gamma0Deg * π / 180.0) > G.hdotThreshold) := not_lt.mpr hdesc
  unfold entryCycle
  simp only [pyLast_ok.mpr hJ, hx, liftPy, hcmd, hprop, pyLast_ok.mpr htE, pyLast_ok.mpr hhO, pyLast_ok.mpr htO,
    pyLast_ok.mpr han, pyLast_ok.mpr had, pyLast_ok.mpr e1, e2, bind, Except.bind, pure, Except.pure, hnot,
    false_and, if_false]
  refine ⟨_, rfl, rfl, rfl, e2, ?_, ?_, ?_, rfl, e1, rfl, rfl⟩
  · simp [Hist.extend, ht]
  · simp
  · simp

/-- If a property of the current state is kept by every cycle, the flight is descending and below the skip altitude in
all such states, and no target is "met" by the dummy apoapsis 0, the loop never ends. -/
theorem entryLoop_forever {G : GuideParams} {F : EntryPhase} {mode : ScipyMode} {ts dt maxTime : ℝ}
    (Inv : Vehicle → InitState → Prop)
    (hcmd : ∀ W x d, Inv W x → ∃ r, F.command W x d ts = .ok r)
    (hstep : ∀ W x d r, Inv W x → F.command W x d ts = .ok r →
      ∃ out J' y, F.prop (W.setInitialState x) ts dt r.1 = .ok out ∧ out.accNetG ≠ [] ∧ out.accDragG ≠ [] ∧ out.heatload.getLast? = some J' ∧ (Hist.ofOut out).last J' = .ok y ∧
      Inv (W.setInitialState x) y)
    (hflight : ∀ W x, Inv W x → x.v0Kms * 1.000E3 * sin (x.gamma0Deg * π / 180.0) ≤ G.hdotThreshold ∧
      x.h0Km ≤ W.planet.hSkip / 1000 - F.margin)
    (htol : G.targetApoKmTol ≤ |G.targetApoKm|) :
    ∀ (fuel : ℕ) (s : EntryState) (J : ℝ) (x : InitState), s.segHeat.getLast? = some J → s.hist.last J = .ok x →
      Inv s.V x → s.hist.t ≠ [] → s.hdot ≠ [] → s.tStep ≠ [] → G.vSwitchKms < s.vAttr →
      entryLoop G F mode ts dt maxTime fuel s = none := by
  intro fuel
  induction fuel with
  | zero => intros; rfl
  | succ k ih =>
    intro s J x hJ hx hinv ht hh hts hv
    obtain ⟨⟨delta, qref⟩, hc⟩ := hcmd s.V x s.deltaIni hinv
    obtain ⟨out, J', y, hp, hn, hd, hJ', hy, hinv'⟩ := hstep s.V x _ _ hinv hc
    obtain ⟨s', hs', e1, e2, e3, e4, e5, e6, e7, _⟩ :=
      entryCycle_descending (mode := mode) (maxTime := maxTime) hJ hx hc hp ht hh hts hn hd hJ' hy (hflight _ _ hinv).1
    have hb : ¬ entryBreak G s.V.planet F.margin (some 0.0) y.h0Km := by
      rintro (⟨a, ha, h⟩ | h)
      · simp only [Option.some.injEq] at ha
        subst ha
        rcases h with ⟨h, _⟩ | h
        · norm_num at h
        · rw [show (0.0 : ℝ) - G.targetApoKm = -G.targetApoKm by norm_num, abs_neg] at h
          linarith
      · have := (hflight _ _ hinv').2
        change y.h0Km ≤ s.V.planet.hSkip / 1000 - F.margin at this
        linarith
    unfold entryLoop
    rw [if_pos hv, hs', decide_eq_false hb]
    simp only
    refine ih s' J' y (by rw [e2]; exact hJ') e3 (by rw [e1]; exact hinv') e4 e5 e6 (by rw [e7]; exact hv)

/-! ### A family of simple integrators -/

/-- An integrator that jumps from the initial state `y` to `g y` and stays there. -/
def jumpIntegrator (g : FState → FState) : Integrator := fun _ y0 grid =>
  match grid with
  | [] => []
  | t :: ts => (t, y0) :: ts.map (fun u => (u, g y0))

theorem jumpIntegrator_ok (g : FState → FState) : OdeintLike (jumpIntegrator g) := by
  intro f y0 grid
  cases grid with
  | nil => simp [jumpIntegrator]
  | cons t ts => simp [jumpIntegrator, Function.comp_def]

theorem samples_jump (name : String) (V : Vehicle) (hP : Planet.init name = .ok V.planet) (g : FState → FState)
    (tSec dt deltaDeg : ℝ) (ht : 0 < tSec) (hdt : 0 < dt) :
    ∃ S, samples V (jumpIntegrator g) tSec dt deltaDeg =
        (0, V.planet.nonDimState (Vehicle.entryState V.planet V.init)) :: S ∧ S ≠ [] ∧
      ∀ q ∈ S, q.2 = g (V.planet.nonDimState (Vehicle.entryState V.planet V.init)) := by
  obtain ⟨_, _, _, _, _, _, _, _, _, htau, _⟩ := C01_planet_consistent name _ hP
  unfold samples Vehicle.tGrid arange0
  have h1 : 1 < ((tSec + dt) / V.planet.tau) / (dt / V.planet.tau) := by
    rw [div_div_div_cancel_right₀ htau.ne', lt_div_iff₀ hdt]; linarith
  obtain ⟨n, hn⟩ : ∃ n, ⌈((tSec + dt) / V.planet.tau) / (dt / V.planet.tau)⌉₊ = n + 2 := by
    have : 1 < ⌈((tSec + dt) / V.planet.tau) / (dt / V.planet.tau)⌉₊ := Nat.lt_ceil.mpr (by exact_mod_cast h1)
    exact ⟨⌈((tSec + dt) / V.planet.tau) / (dt / V.planet.tau)⌉₊ - 2, by omega⟩
  rw [hn, List.range_succ_eq_map]
  refine ⟨_, by simp only [List.map_cons, Nat.cast_zero, zero_mul, jumpIntegrator]; rfl, ?_, ?_⟩
  · simp
  · intro q hq
    simp only [List.map_map, List.mem_map] at hq
    obtain ⟨a, _, rfl⟩ := hq
    rfl

theorem records_last {H : Hist} {pts : List Spec.Pt} {p : Spec.Pt} (hr : Spec.Records H pts)
    (hl : pts.getLast? = some p) (J : ℝ) :
    H.last J = .ok { h0Km := p.h, theta0Deg := p.theta, phi0Deg := p.phi, v0Kms := p.v, psi0Deg := p.psi,
                     gamma0Deg := p.gamma, drange0Km := p.drange, heatLoad0 := J } := by
  rw [last_ok]
  simp [hr.h, hr.theta, hr.phi, hr.v, hr.psi, hr.gamma, hr.drange, hl]

theorem records_nonempty {out : PropOut} {S : List (ℝ × FState)} {V : Vehicle} {mode : ScipyMode} {d hi : ℝ}
    (h : V.postProcess mode (TrajArrays.ofSamples S) d hi = .ok out) :
    out.accNetG ≠ [] ∧ out.accDragG ≠ [] ∧ out.heatload ≠ [] ∧ (Hist.ofOut out).t ≠ [] := by
  obtain ⟨a1, a2, _, _, _, _, _, _, _, _, a3, a4⟩ := postProcess_aligned h
  have key : ∀ {α : Type} {l : List α}, l.length = out.index → l ≠ [] := by
    intro α l hl hn
    rw [hn, List.length_nil] at hl
    omega
  exact ⟨key a4, key (a3 _ (by simp)), key (a3 _ (by simp)), key (a3 out.plotc.t (by simp))⟩

/-- A segment whose samples after the first are all below `h_trap` keeps only its first point. -/
theorem segment_trapped (name : String) (V : Vehicle) (hP : Planet.init name = .ok V.planet) (mode : ScipyMode)
    (I : Integrator) (hI : SolveIvpLike I) (tSec dt deltaDeg : ℝ) (hdt : 0 < dt)
    (h0 : V.planet.hTrap < V.init.h0Km * 1000) (h1 : V.init.h0Km * 1000 < V.planet.hSkip)
    (p : ℝ × FState) (S : List (ℝ × FState)) (hS : samples V I tSec dt deltaDeg = p :: S) (hne : S ≠ [])
    (hlow : ∀ q ∈ S, q.2.r * V.planet.RP - V.planet.RP < V.planet.hTrap) :
    ∃ out, V.propogateEntry mode I tSec dt deltaDeg = .ok out ∧ out.accNetG ≠ [] ∧ out.accDragG ≠ [] ∧
      out.heatload.getLast? = some 0 ∧ (Hist.ofOut out).t ≠ [] ∧ (Hist.ofOut out).v.getLast? = some V.init.v0Kms ∧
      (Hist.ofOut out).last 0 = .ok { V.init with heatLoad0 := 0 } := by
  obtain ⟨_, hR, _, _, _, _, _, _, _, _, _⟩ := C01_planet_consistent name _ hP
  have hp : p.2 = V.planet.nonDimState (Vehicle.entryState V.planet V.init) :=
    (hI (fun t y => V.EOM y t (deltaDeg * π / 180.0)) _ (Vehicle.tGrid V.planet tSec dt)).2.2 p (by
      change (samples V I tSec dt deltaDeg).head? = some p
      rw [hS]; rfl)
  have hpr : p.2.r * V.planet.RP - V.planet.RP = V.init.h0Km * 1000 := by
    rw [hp]
    simp only [Planet.nonDimState, Vehicle.entryState, Planet.computeR, div_mul_cancel₀ _ hR.ne']
    rw [show (1.0e3:ℝ) = 1000 by norm_num]; ring
  obtain ⟨out, ho⟩ := C24_returns name V hP mode I tSec dt deltaDeg p S hS (by rw [hpr]; exact h0)
    (by rw [hpr]; exact h1) (fun q hq => (hlow q hq).ne)
  have hpp : V.postProcess mode (TrajArrays.ofSamples (p :: S)) (deltaDeg * π / 180.0) 0 = .ok out := by
    rw [← hS]; exact ho
  obtain ⟨r1, r2, r3, r4⟩ := records_nonempty hpp
  obtain ⟨pts, hrec, hcont⟩ := segment_continuous name V hP mode I hI tSec dt deltaDeg hdt out (Or.inl ho)
  -- the index is 1
  have hidx : out.index = 1 ∧ out.heatload.length = out.index ∧ (∃ l, out.heatload = 0 :: l) := by
    obtain ⟨a1, a2, _, _, _, _, _, _, _, _, a3, a4⟩ := postProcess_aligned hpp
    simp only [List.mem_cons, List.not_mem_nil, or_false, forall_eq_or_imp, forall_eq] at a3
    obtain ⟨idx, flag, qc, qr, heat, hc, hq, hq2, hh, rfl⟩ := postProcess_inv hpp
    obtain ⟨_, hheat, _⟩ := cumTrapz_ok hh
    refine ⟨?_, by tauto, ⟨_, hheat⟩⟩
    set si := V.planet.dimensionalizeArr (TrajArrays.ofSamples (p :: S)) with hsi
    have hr : si.r = (p :: S).map (fun q => q.2.r * V.planet.RP) := by
      simp [hsi, Planet.dimensionalizeArr, TrajArrays.ofSamples, Function.comp_def]
    obtain ⟨idx', flag', hc', hle, hfl, hf0, hf1, hf2, hf3⟩ := C22_classification name V.planet hP si.r (by rw [hr]; simp)
    rw [hc] at hc'
    simp only [Except.ok.injEq, Prod.mk.injEq] at hc'
    obtain ⟨rfl, rfl⟩ := hc'
    obtain ⟨q, S', rfl⟩ := List.exists_cons_of_ne_nil hne
    have hq1 := hlow q (by simp)
    simp only at a1 a2 ⊢
    rcases hfl with h | h | h
    · rw [hf0, hr] at h
      obtain ⟨_, x, hx, hxs⟩ := h
      obtain ⟨w, hw, rfl⟩ := List.mem_map.mp hx
      rcases List.mem_cons.mp hw with rfl | hw
      · linarith
      · have := hlow w hw
        linarith [(C01_planet_consistent name _ hP).2.2.2.2.2.2.1]
    · have := (hf3 h).2 (q.2.r * V.planet.RP) (by rw [hr]; simp)
      linarith
    · by_contra hcon
      obtain ⟨n, hn⟩ : ∃ n, idx = n + 2 := ⟨idx - 2, by omega⟩
      have := (hf2 h).2 (q.2.r * V.planet.RP) (by rw [hr, hn]; simp)
      linarith
  obtain ⟨hi1, hi2, l, hl⟩ := hidx
  have hl0 : out.heatload = [0] := by
    rw [hl, hi1] at hi2
    rw [hl]
    simp at hi2
    rw [hi2]
  have hlen : pts.length = 1 := by rw [← hrec.heatload]; simp [Hist.ofOut, hl0]
  obtain ⟨pt, rfl⟩ := List.length_eq_one_iff.mp hlen
  have hpt : pt = Spec.ptOf 0 V.init := by simpa using hcont.1
  refine ⟨out, ho, r1, r2, by rw [hl0]; rfl, r4, ?_, ?_⟩
  · rw [hrec.v]; simp [hpt, Spec.ptOf]
  · rw [records_last hrec (p := pt) rfl 0, hpt]; simp [Spec.ptOf]

/-! ### C42 -/

/-- C42 (finding): guided flight does not always come to an end.  If, in descending flight, the samples of a guidance
cycle after the first one lie below the trap altitude — whatever bank angle is flown — `propogateGuidedEntry` runs for
ever: the cycle keeps only its initial point, so the next cycle starts in exactly the same state.  There is no limit on
the number of cycles. -/
theorem C42_trapped_never_ends (name : String) (G : GuideParams) (mode : ScipyMode) (I : Integrator)
    (hI : SolveIvpLike I) (V : Vehicle) (hP : Planet.init name = .ok V.planet) (hdotref : Option (List (Option ℝ)))
    (ts dt maxTime : ℝ) (hdt : 0 < dt)
    (hlift : V.CL ≠ 0) (hA : V.A ≠ 0) (hv : V.init.v0Kms ≠ 0)
    (hrho : V.planet.density V.atm (V.init.h0Km * 1000) ≠ 0)
    (h0 : V.planet.hTrap < V.init.h0Km * 1000) (h1 : V.init.h0Km ≤ V.planet.hSkip / 1000 - 2)
    (hdesc : V.init.v0Kms * 1000 * sin (V.init.gamma0Deg * (π / 180)) ≤ G.hdotThreshold)
    (htol : G.targetApoKmTol ≤ |G.targetApoKm|) (hsw : G.vSwitchKms < V.init.v0Kms)
    (hlow : ∀ tSec δ, (tSec = 1 ∨ tSec = ts) → ∃ p S, samples V I tSec dt δ = p :: S ∧ S ≠ [] ∧
      ∀ q ∈ S, q.2.r * V.planet.RP - V.planet.RP < V.planet.hTrap) :
    ∀ fuel, Vehicle.propogateGuidedEntry G mode I fuel V hdotref ts dt maxTime = none := by
  intro fuel
  set x : InitState := { V.init with heatLoad0 := 0 } with hx
  have h1' : V.init.h0Km * 1000 < V.planet.hSkip := by linarith
  have seg : ∀ (W : Vehicle) (tSec δ : ℝ), W.setInitialState x = V.setInitialState x →
      { W.init with heatLoad0 := 0 } = x → (tSec = 1 ∨ tSec = ts) →
      ∃ out, W.propogateEntry mode I tSec dt δ = .ok out ∧ out.accNetG ≠ [] ∧ out.accDragG ≠ [] ∧
        out.heatload.getLast? = some 0 ∧ (Hist.ofOut out).t ≠ [] ∧ (Hist.ofOut out).v.getLast? = some x.v0Kms ∧
        (Hist.ofOut out).last 0 = .ok x := by
    intro W tSec δ hW hWi ht
    have hpl : W.planet = V.planet := (congrArg Vehicle.planet hW :)
    have hs : samples W I tSec dt δ = samples V I tSec dt δ := by
      have e1 : W.EOM = V.EOM := by
        have a : W.EOM = (W.setInitialState x).EOM := rfl
        have b : V.EOM = (V.setInitialState x).EOM := rfl
        rw [a, b, hW]
      have e2 : Vehicle.entryState W.planet W.init = Vehicle.entryState V.planet V.init := by
        have a : Vehicle.entryState W.planet W.init = Vehicle.entryState W.planet { W.init with heatLoad0 := 0 } := rfl
        have b : Vehicle.entryState V.planet V.init = Vehicle.entryState V.planet x := rfl
        rw [a, b, hWi, hpl]
      unfold samples
      rw [e1, e2, hpl]
    obtain ⟨p, S, hS, hne, hq⟩ := hlow tSec δ ht
    have hh : W.init.h0Km = V.init.h0Km := by
      have := congrArg InitState.h0Km hWi; simpa [hx] using this
    have hvv : W.init.v0Kms = x.v0Kms := by
      have := congrArg InitState.v0Kms hWi; simpa [hx] using this
    obtain ⟨out, o1, o2, o3, o4, o5, o6, o7⟩ := segment_trapped name W (by rw [hpl]; exact hP) mode I hI tSec dt δ hdt
      (by rw [hpl, hh]; exact h0) (by rw [hpl, hh]; exact h1') p S (by rw [hs]; exact hS) hne (by rw [hpl]; exact hq)
    exact ⟨out, o1, o2, o3, o4, o5, by rw [o6, hvv], by rw [o7, hWi]⟩
  obtain ⟨out, o1, o2, o3, o4, o5, o6, o7⟩ := seg V 1 0 rfl rfl (Or.inl rfl)
  have hstart : ∃ s, entryStart (Vehicle.glide1 G mode I) V hdotref dt = .ok s ∧ s.segHeat.getLast? = some 0 ∧
      s.hist.last 0 = .ok x ∧ s.V = V ∧ s.hist.t ≠ [] ∧ s.hdot ≠ [] ∧ s.tStep ≠ [] ∧ s.vAttr = x.v0Kms := by
    unfold entryStart
    have e1 : (Vehicle.glide1 G mode I).prop V 1.0 dt 0.0 = .ok out := by
      rw [Lits.l10, Lits.l00]; exact o1
    obtain ⟨l1, _⟩ := last_ok.mp o7
    simp only [e1, liftPy, bind, Except.bind, pyLast_ok.mpr l1, pyLast_ok.mpr o6, pure, Except.pure]
    refine ⟨_, rfl, o4, o7, rfl, o5, by simp, by simp, rfl⟩
  obtain ⟨s, hs, s1, s2, s3, s4, s5, s6, s7⟩ := hstart
  have hloop : entryLoop G (Vehicle.glide1 G mode I) mode ts dt maxTime fuel s = none := by
    refine entryLoop_forever (fun W y => W.setInitialState x = V.setInitialState x ∧ y = x) ?_ ?_ ?_ htol fuel s 0 x s1 s2
      ⟨by rw [s3], rfl⟩ s4 s5 s6 (by rw [s7]; exact hsw)
    · rintro W y d ⟨hW, rfl⟩
      have hCL : W.CL = V.CL := (congrArg Vehicle.CL hW :)
      have hAA : W.A = V.A := (congrArg Vehicle.A hW :)
      have hat : W.atm = V.atm := (congrArg Vehicle.atm hW :)
      have hpl : W.planet = V.planet := (congrArg Vehicle.planet hW :)
      obtain ⟨cmd, hc, _⟩ := C40_glide_command W G x (by rw [hCL]; exact hlift) (by rw [hAA]; exact hA) (by
        rw [hat, hpl, show (1000:ℝ) * x.h0Km = V.init.h0Km * 1000 by simp [hx]; ring]
        have : 1000 * x.v0Kms ≠ 0 := mul_ne_zero (by norm_num) hv
        positivity)
      exact ⟨_, by simp only [Vehicle.glide1, Vehicle.glideBank, hc, bind, Except.bind, pure, Except.pure]; rfl⟩
    · rintro W y d r ⟨hW, rfl⟩ -
      obtain ⟨out, o1, o2, o3, o4, o5, o6, o7⟩ := seg (W.setInitialState x) ts r.1 hW (by simp [Vehicle.setInitialState, hx])
        (Or.inr rfl)
      exact ⟨out, 0, x, o1, o2, o3, o4, o7, hW, rfl⟩
    · rintro W y ⟨hW, rfl⟩
      have hpl : W.planet = V.planet := (congrArg Vehicle.planet hW :)
      refine ⟨?_, ?_⟩
      · rw [show (1.000E3:ℝ) = 1000 by norm_num, show (180.0:ℝ) = 180 by norm_num, mul_div_assoc]; exact hdesc
      · rw [hpl, show (Vehicle.glide1 G mode I).margin = 2 by simp only [Vehicle.glide1]; norm_num]; exact h1
  unfold Vehicle.propogateGuidedEntry Vehicle.guided entryPhase
  rw [hs]
  simp only [hloop]

/-- C42 (finding), case for `C42_trapped_never_ends`: Mars, vehicle with lift at 12 km altitude in steep descent, trajectories that reach
the ground within one output step. -/
theorem C42_trapped_witness : ∃ (V : Vehicle) (G : GuideParams) (I : Integrator), Planet.init "MARS" = .ok V.planet ∧
    OdeintLike I ∧ 0 < V.CL ∧ 0 < V.beta ∧
    ∀ fuel, Vehicle.propogateGuidedEntry G .strict I fuel V none 1 0.1 600 = none := by
  obtain ⟨P, hP⟩ := (C01_planet_names "MARS").1.mpr (by simp [Spec.bodies])
  have hR : P.RP = 3389.5e3 := by simp [Planet.init] at hP; subst hP; rfl
  have hT : P.hTrap = 10e3 := by simp [Planet.init] at hP; subst hP; rfl
  have hS : P.hSkip = 120e3 := by simp [Planet.init] at hP; subst hP; rfl
  have hTh : P.hThres = 120e3 := by simp [Planet.init] at hP; subst hP; rfl
  let V := Vehicle.mk' 500 100 0.2 1 0 1 P ⟨fun _ => 1, fun _ => 1, fun _ => 1, fun _ => 1⟩ false (fun _ => 1)
    ⟨12, 0, 0, 1, 0, -90, 0, 0⟩
  let G : GuideParams := ⟨30, 75, 1, 0.5, 10, 20, 0, 250, 2000, 10, 50, 10⟩
  let g : FState → FState := fun y => { y with r := 1 }
  refine ⟨V, G, jumpIntegrator g, hP, jumpIntegrator_ok g, by simp [V, Vehicle.mk']; norm_num,
    by simp [V, Vehicle.mk'], ?_⟩
  refine C42_trapped_never_ends "MARS" G .strict _ (OdeintLike.toIvp (jumpIntegrator_ok g)) V hP none 1 0.1 600 (by norm_num)
    (by simp [V, Vehicle.mk']; norm_num) (by simp [V, Vehicle.mk']) (by simp [V, Vehicle.mk']) ?_ ?_ ?_ ?_ ?_ ?_ ?_
  · simp only [V, Vehicle.mk', Planet.density, hTh]
    norm_num
  · simp only [V, Vehicle.mk', hT]; norm_num
  · simp only [V, Vehicle.mk', hS]; norm_num
  · simp only [V, Vehicle.mk', G]
    rw [show (-90:ℝ) * (π / 180) = -(π / 2) by ring, sin_neg, sin_pi_div_two]; norm_num
  · simp [G]; norm_num
  · simp only [G, V, Vehicle.mk']; norm_num
  · intro tSec δ ht
    have ht0 : 0 < tSec := by rcases ht with rfl | rfl <;> norm_num
    obtain ⟨S, e1, e2, e3⟩ := samples_jump "MARS" V hP g tSec 0.1 δ ht0 (by norm_num)
    refine ⟨_, S, e1, e2, ?_⟩
    intro q hq
    rw [e3 q hq]
    have hPl : V.planet = P := rfl
    simp only [g, hPl, hT, one_mul, sub_self]
    norm_num

theorem entryLoop_mono {G : GuideParams} {F : EntryPhase} {mode : ScipyMode} {ts dt maxTime : ℝ} {r : Run EntryState} :
    ∀ {fuel : ℕ} {s : EntryState}, entryLoop G F mode ts dt maxTime fuel s = some r →
      ∀ fuel', fuel ≤ fuel' → entryLoop G F mode ts dt maxTime fuel' s = some r := by
  intro fuel
  induction fuel with
  | zero => intro s h; simp [entryLoop] at h
  | succ k ih =>
    intro s h fuel' hf
    obtain ⟨m, rfl⟩ : ∃ m, fuel' = m + 1 := ⟨fuel' - 1, by omega⟩
    unfold entryLoop at h ⊢
    split_ifs at h ⊢ with hc
    · split at h
      · exact h
      · exact h
      · exact ih h m (by omega)
    · exact h

theorem exitLoop_mono {F : ExitPhase} {ts dt J hr : ℝ} {r : Run ExitState} :
    ∀ {fuel : ℕ} {s : ExitState}, exitLoop F ts dt J hr fuel s = some r →
      ∀ fuel', fuel ≤ fuel' → exitLoop F ts dt J hr fuel' s = some r := by
  intro fuel
  induction fuel with
  | zero => intro s h; simp [exitLoop] at h
  | succ k ih =>
    intro s h fuel' hf
    obtain ⟨m, rfl⟩ : ∃ m, fuel' = m + 1 := ⟨fuel' - 1, by omega⟩
    unfold exitLoop at h ⊢
    split_ifs at h ⊢ with hc
    · split at h
      · exact h
      · exact h
      · exact ih h m (by omega)
    · exact h

/-- The entry loop ends if from cycle `n0` on every cycle gains at least `ε` km. -/
theorem entryLoop_ends {G : GuideParams} {F : EntryPhase} {mode : ScipyMode} {ts dt maxTime : ℝ} (P : Planet)
    (n0 : ℕ) (ε : ℝ) (hε : 0 < ε)
    (climb : ∀ s s' h h', n0 ≤ s.tStep.length → entryCycle G F mode ts dt maxTime s = .ok (s', false) →
      s.hist.h.getLast? = some h → s'.hist.h.getLast? = some h' → h + ε ≤ h') :
    ∀ s : EntryState, s.V.planet = P → ∃ fuel, entryLoop G F mode ts dt maxTime fuel s ≠ none := by
  have step : ∀ s s', entryCycle G F mode ts dt maxTime s = .ok (s', false) → s.V.planet = P →
      s'.V.planet = P ∧ s'.tStep.length = s.tStep.length + 1 ∧ (∃ h, s.hist.h.getLast? = some h) ∧
      ∃ h', s'.hist.h.getLast? = some h' ∧ h' ≤ P.hSkip / 1000 - F.margin := by
    intro s s' hc hP
    obtain ⟨J, x, delta, qref, out, tEnd, J', y, hd, tOld, an, ad, fn, apo, -, hx, -, -, -, -, -, -, -, -, hy, -, -, rfl, hb⟩ :=
      entryCycle_inv hc
    refine ⟨hP, by simp, ⟨_, (last_ok.mp hx).1⟩, _, (last_ok.mp hy).1, ?_⟩
    by_contra hcon
    push Not at hcon
    have := hb.mpr (Or.inr (by rw [hP]; exact hcon))
    simp at this
  -- climbing part
  have rise : ∀ (n : ℕ) (s : EntryState) (h : ℝ), s.V.planet = P → n0 ≤ s.tStep.length →
      s.hist.h.getLast? = some h → P.hSkip / 1000 - F.margin - h < n * ε →
      entryLoop G F mode ts dt maxTime (n + 1) s ≠ none := by
    intro n
    induction n with
    | zero =>
      intro s h hP hn hh hlt
      unfold entryLoop
      split_ifs with hc
      · split
        · simp
        · simp
        · next s' hs' =>
          obtain ⟨_, _, _, h', hh', hle⟩ := step s s' hs' hP
          have := climb s s' h h' hn hs' hh hh'
          simp only [Nat.cast_zero, zero_mul] at hlt
          linarith
      · simp
    | succ n ih =>
      intro s h hP hn hh hlt
      unfold entryLoop
      split_ifs with hc
      · split
        · simp
        · simp
        · next s' hs' =>
          obtain ⟨hP', hl, _, h', hh', hle⟩ := step s s' hs' hP
          have := climb s s' h h' hn hs' hh hh'
          refine ih s' h' hP' (by omega) hh' ?_
          push_cast at hlt
          linarith
      · simp
  have rise' : ∀ s : EntryState, s.V.planet = P → n0 ≤ s.tStep.length → ∃ fuel, entryLoop G F mode ts dt maxTime fuel s ≠ none := by
    intro s hP hn
    by_cases hc : ∃ s', entryCycle G F mode ts dt maxTime s = .ok (s', false)
    · obtain ⟨s', hs'⟩ := hc
      obtain ⟨_, _, ⟨h, hh⟩, _⟩ := step s s' hs' hP
      obtain ⟨n, hn'⟩ := exists_nat_gt ((P.hSkip / 1000 - F.margin - h) / ε)
      exact ⟨_, rise n s h hP hn hh (by rwa [div_lt_iff₀ hε] at hn')⟩
    · refine ⟨1, ?_⟩
      unfold entryLoop
      split_ifs
      · split
        · simp
        · simp
        · next s' hs' => exact absurd ⟨s', hs'⟩ hc
      · simp
  have first : ∀ (k : ℕ) (s : EntryState), s.V.planet = P → n0 ≤ s.tStep.length + k →
      ∃ fuel, entryLoop G F mode ts dt maxTime fuel s ≠ none := by
    intro k
    induction k with
    | zero => intro s hP hn; exact rise' s hP hn
    | succ k ih =>
      intro s hP hn
      by_cases hc : ∃ s', entryCycle G F mode ts dt maxTime s = .ok (s', false)
      · obtain ⟨s', hs'⟩ := hc
        obtain ⟨hP', hl, _⟩ := step s s' hs' hP
        obtain ⟨fuel, hf⟩ := ih s' hP' (by omega)
        refine ⟨fuel + 1, ?_⟩
        unfold entryLoop
        split_ifs
        · simp only [hs']; exact hf
        · simp
      · refine ⟨1, ?_⟩
        unfold entryLoop
        split_ifs
        · split
          · simp
          · simp
          · next s' hs' => exact absurd ⟨s', hs'⟩ hc
        · simp
  intro s hP
  exact first n0 s hP (by omega)

/-- The exit loop ends if from cycle `n0` on every cycle gains at least `ε` km. -/
theorem exitLoop_ends {F : ExitPhase} {ts dt J hr : ℝ} (P : Planet) (n0 : ℕ) (ε : ℝ) (hε : 0 < ε)
    (climb : ∀ s s' h h', n0 ≤ s.tStep.length → exitCycle F ts dt J hr s = .ok (s', false) →
      s.hist.h.getLast? = some h → s'.hist.h.getLast? = some h' → h + ε ≤ h') :
    ∀ s : ExitState, s.V.planet = P → s.hist.h.getLast? = some s.hCur → ∃ fuel, exitLoop F ts dt J hr fuel s ≠ none := by
  have l3 : (1.0E3:ℝ) = 1000 := by norm_num
  have step : ∀ s s', exitCycle F ts dt J hr s = .ok (s', false) → s.V.planet = P →
      s'.V.planet = P ∧ s'.tStep.length = s.tStep.length + 1 ∧ s'.hist.h.getLast? = some s'.hCur := by
    intro s s' hc hP
    obtain ⟨x, out, tEnd, y, hd, tOld, -, -, -, -, -, hy, rfl, -⟩ := exitCycle_inv hc
    exact ⟨hP, by simp, (last_ok.mp hy).1⟩
  have rise : ∀ (n : ℕ) (s : ExitState), s.V.planet = P → n0 ≤ s.tStep.length →
      s.hist.h.getLast? = some s.hCur → P.hSkip / 1000 - s.hCur ≤ n * ε →
      exitLoop F ts dt J hr (n + 1) s ≠ none := by
    intro n
    induction n with
    | zero =>
      intro s hP hn hh hle
      unfold exitLoop
      rw [if_neg]
      · simp
      · rw [hP, l3]; simp only [Nat.cast_zero, zero_mul] at hle; linarith
    | succ n ih =>
      intro s hP hn hh hle
      unfold exitLoop
      split_ifs with hc
      · split
        · simp
        · simp
        · next s' hs' =>
          obtain ⟨hP', hl, hh'⟩ := step s s' hs' hP
          have := climb s s' _ _ hn hs' hh hh'
          refine ih s' hP' (by omega) hh' ?_
          push_cast at hle
          linarith
      · simp
  have first : ∀ (k : ℕ) (s : ExitState), s.V.planet = P → s.hist.h.getLast? = some s.hCur → n0 ≤ s.tStep.length + k →
      ∃ fuel, exitLoop F ts dt J hr fuel s ≠ none := by
    intro k
    induction k with
    | zero =>
      intro s hP hh hn
      obtain ⟨n, hn'⟩ := exists_nat_ge ((P.hSkip / 1000 - s.hCur) / ε)
      exact ⟨_, rise n s hP hn hh (by rwa [div_le_iff₀ hε] at hn')⟩
    | succ k ih =>
      intro s hP hh hn
      by_cases hc : ∃ s', exitCycle F ts dt J hr s = .ok (s', false)
      · obtain ⟨s', hs'⟩ := hc
        obtain ⟨hP', hl, hh'⟩ := step s s' hs' hP
        obtain ⟨fuel, hf⟩ := ih s' hP' hh' (by omega)
        refine ⟨fuel + 1, ?_⟩
        unfold exitLoop
        split_ifs
        · simp only [hs']; exact hf
        · simp
      · refine ⟨1, ?_⟩
        unfold exitLoop
        split_ifs
        · split
          · simp
          · simp
          · next s' hs' => exact absurd ⟨s', hs'⟩ hc
        · simp
  intro s hP hh
  exact first n0 s hP hh (by omega)

/-- C42, the part that holds: a guided entry (any of the four, they are all instances of `Vehicle.guided`) comes to an
end — with a result or an exception — if from some cycle `n0` on every further cycle of either phase ends at least `ε` km
above its start.  Missing: trajectories that do not leave the atmosphere (`C42_trapped_never_ends`). -/
theorem C42_ends_when_climbing_partial (G : GuideParams) (FE : EntryPhase) (FX : ExitPhase) (mode : ScipyMode)
    (V : Vehicle) (hdotref : Option (List (Option ℝ))) (prep : Vehicle → Vehicle) (hprep : ∀ W, (prep W).planet = W.planet)
    (tsE tsX dt maxTime : ℝ) (n0 : ℕ) (ε : ℝ) (hε : 0 < ε)
    (climbE : ∀ s s' h h', n0 ≤ s.tStep.length → entryCycle G FE mode tsE dt maxTime s = .ok (s', false) →
      s.hist.h.getLast? = some h → s'.hist.h.getLast? = some h' → h + ε ≤ h')
    (climbX : ∀ J hr s s' h h', n0 ≤ s.tStep.length → exitCycle FX tsX dt J hr s = .ok (s', false) →
      s.hist.h.getLast? = some h → s'.hist.h.getLast? = some h' → h + ε ≤ h') :
    ∃ N, ∀ fuel, N ≤ fuel → Vehicle.guided G FE FX mode fuel V hdotref prep tsE tsX dt maxTime ≠ none := by
  unfold Vehicle.guided entryPhase
  cases hs : entryStart FE V hdotref dt with
  | error e => exact ⟨0, fun _ _ => by simp⟩
  | ok s0 =>
    obtain ⟨out, v, _, _, rfl⟩ := entryStart_inv hs
    obtain ⟨f1, hf1⟩ := entryLoop_ends V.planet n0 ε hε climbE
      { V := V, hist := Hist.ofOut out, accDragG := out.accDragG, segHeat := out.heatload, vAttr := v,
        deltaIni := 0.0, densityFn := none, tStep := [0.0], deltaDeg := [0.0], hdot := [0.0], hddot := [some 0.0],
        qref := [0.0], q := [0.0], hStep := [0.0], accStep := [some 0.0], accDragStep := [0.0],
        densityMes := [some 0.0], hdotref := hdotref } rfl
    cases hr : entryLoop G FE mode tsE dt maxTime f1 _ with
    | none => exact absurd hr hf1
    | some r =>
      cases r with
      | error e =>
        refine ⟨f1, fun fuel hf => ?_⟩
        simp only [entryLoop_mono hr fuel hf]
        simp
      | ok s =>
        have hPs : s.V.planet = V.planet := by
          refine entryLoop_invariant (fun s => s.V.planet = V.planet) ?_ f1 _ s rfl hr
          intro s s' b hs hc
          obtain ⟨J, x, delta, qref, out, tEnd, J', y, hd, tOld, an, ad, fn, apo, -, hx, -, -, -, -, -, -, -, -, hy, -, -, rfl, hb⟩ :=
            entryCycle_inv hc
          exact hs
        cases he : exitStart (prep s.V) s with
        | error e =>
          refine ⟨f1, fun fuel hf => ?_⟩
          simp only [entryLoop_mono hr fuel hf, exitPhase, he]
          simp
        | ok t =>
          obtain ⟨e, J, hdr⟩ := t
          have hex : e.V.planet = V.planet ∧ e.hist.h.getLast? = some e.hCur := by
            obtain ⟨hk, p, h1, _, _, _, rfl⟩ := exitStart_inv he
            exact ⟨(hprep s.V).trans hPs, h1⟩
          obtain ⟨f2, hf2⟩ := exitLoop_ends (F := FX) (ts := tsX) (dt := dt) (J := J) (hr := hdr)
            V.planet n0 ε hε (climbX J hdr) e hex.1 hex.2
          refine ⟨max f1 f2, fun fuel hf => ?_⟩
          simp only [entryLoop_mono hr fuel ((le_max_left _ _).trans hf), exitPhase, he]
          cases hx : exitLoop FX tsX dt J hdr f2 e with
          | none => exact absurd hx hf2
          | some r =>
            rw [exitLoop_mono hx fuel ((le_max_right _ _).trans hf)]
            cases r <;> simp

/-- A segment at constant speed that ends 5 km above its start. -/
def climbOut (W : Vehicle) : PropOut :=
  let a : TrajArrays := ⟨[0, 1], [W.init.h0Km, W.init.h0Km + 5], [0, 0], [0, 0], [4, 4], [0, 0], [0, 0], [0, 0]⟩
  ⟨2, 1, a, a, [some 0, some 0], [0, 0], [0, 0], [0, 0], [0, 0], [0, 0], [0, 0], [0, 0]⟩

/-- Case for `C42_ends_when_climbing_partial`: a vehicle that gains 5 km in every segment of both phases. -/
example (V : Vehicle) (G : GuideParams) : ∃ N, ∀ fuel, N ≤ fuel →
    Vehicle.guided G ⟨fun W _ _ _ => .ok (climbOut W), fun _ _ _ _ => .ok (0, none), fun _ _ _ _ _ => .ok none, 2⟩
      ⟨fun W _ _ _ => .ok (climbOut W), fun _ _ => 0, fun P h => h > P.hSkip - 10.0E3⟩ .strict fuel V none (fun W => W)
      1 1 0.1 600 ≠ none := by
  refine C42_ends_when_climbing_partial G _ _ .strict V none (fun W => W) (fun _ => rfl) 1 1 0.1 600 0 5 (by norm_num) ?_ ?_
  · intro s s' h h' _ hc hh hh'
    obtain ⟨J, x, delta, qref, out, tEnd, J', y, hd, tOld, an, ad, fn, apo, -, hx, -, ho, -, -, -, -, -, -, -, -, -, rfl, -⟩ :=
      entryCycle_inv hc
    rw [(last_ok.mp hx).1, Option.some.injEq] at hh
    simp only [Except.ok.injEq] at ho
    subst ho hh
    simp [Hist.extend, Hist.ofOut, climbOut, Vehicle.setInitialState] at hh'
    linarith
  · intro J hr s s' h h' _ hc hh hh'
    obtain ⟨x, out, tEnd, y, hdO, tOld, hx, ho, -, -, -, -, rfl, -⟩ := exitCycle_inv hc
    rw [(last_ok.mp hx).1, Option.some.injEq] at hh
    simp only [Except.ok.injEq] at ho
    subst ho hh
    simp [Hist.extend, Hist.ofOut, climbOut, Vehicle.setInitialState] at hh'
    linarith

/-! ### C41 counterexample and a complete run -/

/-- A segment of the jump integrator that stays between trap and skip altitude is kept completely. -/
theorem segment_jump (name : String) (V : Vehicle) (hP : Planet.init name = .ok V.planet) (mode : ScipyMode)
    (g : FState → FState) (tSec dt deltaDeg : ℝ) (ht : 0 < tSec) (hdt : 0 < dt)
    (h0 : V.planet.hTrap < V.init.h0Km * 1000) (h1 : V.init.h0Km * 1000 < V.planet.hSkip)
    (g0 : V.planet.hTrap < (g (V.planet.nonDimState (Vehicle.entryState V.planet V.init))).r * V.planet.RP - V.planet.RP)
    (g1 : (g (V.planet.nonDimState (Vehicle.entryState V.planet V.init))).r * V.planet.RP - V.planet.RP < V.planet.hSkip) :
    ∃ out J t, V.propogateEntry mode (jumpIntegrator g) tSec dt deltaDeg = .ok out ∧ out.accNetG ≠ [] ∧ out.accDragG ≠ [] ∧
      out.heatload.getLast? = some J ∧ (Hist.ofOut out).t ≠ [] ∧
      (let p := samplePt V.planet (t, g (V.planet.nonDimState (Vehicle.entryState V.planet V.init)))
       ∀ J', (Hist.ofOut out).last J' = .ok ⟨p.h, p.theta, p.phi, p.v, p.psi, p.gamma, p.drange, J'⟩) := by
  obtain ⟨_, hR, _, _, _, _, _, _, _, _, _⟩ := C01_planet_consistent name _ hP
  obtain ⟨S, hS, hne, hq⟩ := samples_jump name V hP g tSec dt deltaDeg ht hdt
  set y0 := V.planet.nonDimState (Vehicle.entryState V.planet V.init) with hy0
  have hpr : y0.r * V.planet.RP - V.planet.RP = V.init.h0Km * 1000 := by
    simp only [hy0, Planet.nonDimState, Vehicle.entryState, Planet.computeR, div_mul_cancel₀ _ hR.ne']
    rw [show (1.0e3:ℝ) = 1000 by norm_num]; ring
  obtain ⟨out, ho⟩ := C24_returns name V hP mode (jumpIntegrator g) tSec dt deltaDeg _ S hS (by rw [hpr]; exact h0)
    (by rw [hpr]; exact h1) (fun q hq' => by rw [hq q hq']; exact g0.ne')
  have hpp : V.postProcess mode (TrajArrays.ofSamples ((0, y0) :: S)) (deltaDeg * π / 180.0) 0 = .ok out := by
    rw [← hS]; exact ho
  obtain ⟨r1, r2, r3, r4⟩ := records_nonempty hpp
  obtain ⟨_, _, hrec⟩ := postProcess_records hpp
  have hall : ∀ q ∈ ((0, y0) :: S : List (ℝ × FState)), V.planet.hTrap < q.2.r * V.planet.RP - V.planet.RP ∧
      q.2.r * V.planet.RP - V.planet.RP < V.planet.hSkip := by
    intro q hq'
    rcases List.mem_cons.mp hq' with rfl | hq'
    · simp only [hpr]; exact ⟨h0, h1⟩
    · rw [hq q hq']; exact ⟨g0, g1⟩
  have hidx : out.index = ((0, y0) :: S : List (ℝ × FState)).length := by
    obtain ⟨idx, flag, qc, qr, heat, hc, hq, hq2, hh, rfl⟩ := postProcess_inv hpp
    set si := V.planet.dimensionalizeArr (TrajArrays.ofSamples ((0, y0) :: S)) with hsi
    have hr : si.r = ((0, y0) :: S : List (ℝ × FState)).map (fun q => q.2.r * V.planet.RP) := by
      simp [hsi, Planet.dimensionalizeArr, TrajArrays.ofSamples, Function.comp_def]
    obtain ⟨idx', flag', hc', hle, hfl, hf0, hf1, hf2, hf3⟩ := C22_classification name V.planet hP si.r (by rw [hr]; simp)
    rw [hc] at hc'
    simp only [Except.ok.injEq, Prod.mk.injEq] at hc'
    obtain ⟨rfl, rfl⟩ := hc'
    rcases hfl with h | h | h
    · rw [hf0, hr] at h
      obtain ⟨_, x, hx, hxs⟩ := h
      obtain ⟨w, hw, rfl⟩ := List.mem_map.mp hx
      linarith [(hall w hw).2]
    · have := (hf3 h).1
      simp only
      rw [this, hr]; simp
    · obtain ⟨x, hx, hxs⟩ := (hf2 h).1
      rw [hr] at hx
      obtain ⟨w, hw, rfl⟩ := List.mem_map.mp hx
      linarith [(hall w hw).1]
  obtain ⟨J, hJ⟩ := getLast_of_ne_nil r3
  obtain ⟨q, hql⟩ := getLast_of_ne_nil hne
  have hqm : q ∈ S := List.mem_of_getLast? hql
  refine ⟨out, J, q.1, ho, r1, r2, hJ, r4, ?_⟩
  intro p J'
  rw [hidx, List.take_length] at hrec
  have hlast : (((0, y0) :: S : List (ℝ × FState)).map (samplePt V.planet)).getLast? = some p := by
    rw [List.getLast?_map]
    have : ((0, y0) :: S : List (ℝ × FState)).getLast? = some q := by
      rw [List.getLast?_cons, hql]; rfl
    rw [this]
    simp only [Option.map_some, p]
    rw [← hq q hqm]
  exact records_last hrec hlast J'

/-- The state reached by a jump that changes radius and speed only. -/
theorem samplePt_jump (name : String) (P : Planet) (hP : Planet.init name = .ok P) (x : InitState) (t r v : ℝ) :
    samplePt P (t, { P.nonDimState (Vehicle.entryState P x) with r := r, v := v }) =
      { t := P.tau * t / 60.0, h := (r * P.RP - P.RP) * 1E-3, theta := x.theta0Deg, phi := x.phi0Deg,
        v := v * P.Vref * 1E-3, psi := x.psi0Deg, gamma := x.gamma0Deg, drange := x.drange0Km } := by
  obtain ⟨_, hR, _⟩ := C01_planet_consistent name _ hP
  have l60 : (180.0:ℝ) = 180 := by norm_num
  have l5 : (1e3:ℝ) = 1000 := by norm_num
  have l7 : (1.0e-3:ℝ) = 1 / 1000 := by norm_num
  have hpi := pi_ne_zero
  simp only [samplePt, Planet.nonDimState, Vehicle.entryState, l60, l5, l7, div_mul_cancel₀ _ hR.ne']
  ext <;> simp only <;> field_simp

/-- An exit cycle, run forwards. -/
theorem exitCycle_forward {F : ExitPhase} {ts dt J hdotRef : ℝ} {s : ExitState} {x : InitState} {out : PropOut} {y : InitState}
    (hx : s.hist.last J = .ok x)
    (hprop : F.prop (s.V.setInitialState x) ts dt (F.command s.deltaIni ts) = .ok out)
    (ht : s.hist.t ≠ []) (hh : s.hdot ≠ []) (hts : s.tStep ≠ []) (hy : (Hist.ofOut out).last J = .ok y) :
    ∃ s' : ExitState, exitCycle F ts dt J hdotRef s = .ok (s', decide (F.stop s.V.planet (x.h0Km * 1.0E3))) ∧
      s'.hist.last J = .ok y ∧ s'.deltaDeg = s.deltaDeg ++ [F.command s.deltaIni ts] ∧
      s'.V = s.V.setInitialState x := by
  obtain ⟨tEnd, htE⟩ := getLast_of_ne_nil ht
  obtain ⟨hdO, hhO⟩ := getLast_of_ne_nil hh
  obtain ⟨tO, htO⟩ := getLast_of_ne_nil hts
  have e2 := extend_last (a := s.hist) (t := tEnd) hy
  unfold exitCycle
  simp only [hx, liftPy, hprop, pyLast_ok.mpr htE, pyLast_ok.mpr hhO, pyLast_ok.mpr htO, e2, bind, Except.bind, pure,
    Except.pure]
  exact ⟨_, rfl, e2, rfl, rfl⟩

/-- Guidance parameters of the examples. -/
def exampleGuide : GuideParams := ⟨30, 75, 1, 1, 10, 20, 0, 250, 2000, 10, 50, 10⟩

/-- A vehicle descending vertically at 100 km, for the examples. -/
def exampleVehicle (P : Planet) (atm : Atmosphere) (v0 : ℝ) : Vehicle :=
  Vehicle.mk' 500 100 0.2 1 0 1 P atm false (fun _ => 1) ⟨100, 0, 0, v0, 0, -90, 0, 0⟩

/-- An integrator that lifts the vehicle to 119 km after the first sample, for the examples. -/
def exampleIntegrator (P : Planet) : Integrator := jumpIntegrator (fun y => { y with r := (P.RP + 119000) / P.RP })

/-- What the examples need of a segment propagator: every segment of one second that starts between 10 and 120 km ends in
the same state at 119 km. -/
def LiftsTo119 (P : Planet) (prop : Vehicle → ℝ → ℝ → ℝ → Py PropOut) : Prop :=
  ∀ (W : Vehicle) (δ : ℝ), W.planet = P → 10 < W.init.h0Km → W.init.h0Km < 120 →
    ∃ out J, prop W 1 0.1 δ = .ok out ∧ out.accNetG ≠ [] ∧ out.accDragG ≠ [] ∧
      out.heatload.getLast? = some J ∧ (Hist.ofOut out).t ≠ [] ∧
      ∀ J', (Hist.ofOut out).last J' = .ok { W.init with h0Km := 119, heatLoad0 := J' }

/-- The first propagator with the integrator of the examples. -/
theorem lifts_entry (P : Planet) (hP : Planet.init "MARS" = .ok P) (mode : ScipyMode) :
    LiftsTo119 P (fun V t dt delta => V.propogateEntry mode (exampleIntegrator P) t dt delta) := by
  have hR : P.RP = 3389.5e3 := by simp [Planet.init] at hP; subst hP; rfl
  have hT : P.hTrap = 10e3 := by simp [Planet.init] at hP; subst hP; rfl
  have hS : P.hSkip = 120e3 := by simp [Planet.init] at hP; subst hP; rfl
  have hVr : 0 < P.Vref := (C01_planet_consistent _ _ hP).2.2.2.2.2.2.2.2.1
  let ρ := (P.RP + 119000) / P.RP
  let g : FState → FState := fun y => { y with r := ρ }
  have hρ : ρ * P.RP - P.RP = 119000 := by
    have : P.RP ≠ 0 := by rw [hR]; norm_num
    simp only [ρ, div_mul_cancel₀ _ this]; ring
  intro W δ hW h1 h2
  have hPW : Planet.init "MARS" = .ok W.planet := by rw [hW]; exact hP
  obtain ⟨out, J, t, o1, o2, o3, o4, o5, o6⟩ := segment_jump "MARS" W hPW mode g 1 0.1 δ (by norm_num) (by norm_num)
    (by rw [hW, hT]; linarith) (by rw [hW, hS]; linarith)
    (by rw [hW, hT]; simp only [g]; rw [hρ]; norm_num) (by rw [hW, hS]; simp only [g]; rw [hρ]; norm_num)
  refine ⟨out, J, o1, o2, o3, o4, o5, ?_⟩
  intro J'
  have := o6 J'
  have e : g (W.planet.nonDimState (Vehicle.entryState W.planet W.init)) =
    { W.planet.nonDimState (Vehicle.entryState W.planet W.init) with
      r := ρ, v := (W.planet.nonDimState (Vehicle.entryState W.planet W.init)).v } := rfl
  rw [e, samplePt_jump "MARS" W.planet hPW] at this
  rw [this]
  congr 1
  have l3 : (1.000e3:ℝ) = 1000 := by norm_num
  have l6 : (1e-3:ℝ) = 1 / 1000 := by norm_num
  ext <;> simp only [hW, Planet.nonDimState, Vehicle.entryState, l3, l6]
  · rw [hρ]; norm_num
  · field_simp

/-- Where the propagation succeeds with zero initial heat load, older SciPy versions accept any. -/
theorem postProcess_legacy {V : Vehicle} {mode : ScipyMode} {bar : TrajArrays} {delta hi : ℝ} {out : PropOut}
    (h : V.postProcess mode bar delta hi = .ok out) (hi' : ℝ) :
    V.postProcess .legacy bar delta hi' = .ok { out with heatload := hi' :: out.heatload.tail } := by
  obtain ⟨idx, flag, qc, qr, heat, hc, hq, hq2, hh, rfl⟩ := postProcess_inv h
  obtain ⟨hne, rfl, -⟩ := cumTrapz_ok hh
  unfold Vehicle.postProcess
  simp only [bind, Except.bind, pure, Except.pure, TrajArrays.truncate, hc, hq, hq2, needNumber]
  cases hz : List.zip ((V.planet.dimensionalizeArr bar).t.take idx) (List.zipWith (· + ·) qc qr) with
  | nil => exact absurd hz hne
  | cons p l => simp [cumTrapz]

/-- The second propagator with the integrator of the examples and an older SciPy version. -/
theorem lifts_entry2 (P : Planet) (hP : Planet.init "MARS" = .ok P) :
    LiftsTo119 P (fun V t dt delta => V.propogateEntry2 .legacy (exampleIntegrator P) t dt delta) := by
  intro W δ hW h1 h2
  obtain ⟨out, J, o1, o2, o3, o4, o5, o6⟩ := lifts_entry P hP .legacy W δ hW h1 h2
  have := postProcess_legacy o1 W.init.heatLoad0
  exact ⟨_, (W.init.heatLoad0 :: out.heatload.tail).getLast (by simp), this, o2, o3, List.getLast?_eq_some_getLast _, o5, o6⟩

/-- A complete guided run at Mars with one cycle of equilibrium glide and one exit cycle, at any speed above 1 km/s and in
any atmosphere with air at 119 km. -/
theorem guided_run_of (P : Planet) (hP : Planet.init "MARS" = .ok P) (v0 : ℝ) (hv0 : 1 < v0) (atm : Atmosphere)
    (hatm : 0 < atm.densityInt 119000) (FE : EntryPhase) (FX : ExitPhase) (mode : ScipyMode)
    (seg : LiftsTo119 P FE.prop) (segX : LiftsTo119 P FX.prop) (fc : FE.command = Vehicle.glideBank exampleGuide)
    (fm : FE.margin = 2.0) (fs : FX.stop = fun P h => h > P.hSkip - 10.0E3) : ∃ o : GuidedOut,
    Vehicle.guided exampleGuide FE FX mode 3 (exampleVehicle P atm v0) none (fun W => W) 1 1 0.1 600
      = some (.ok o) ∧ o.fin.deltaDeg.length = 3 ∧
    o.fin.hist.last 0 = .ok ⟨119, 0, 0, v0, 0, -90, 0, 0⟩ ∧ o.fin.V.initRef.h0Km = 119 := by
  have hS : P.hSkip = 120e3 := by simp [Planet.init] at hP; subst hP; rfl
  have hTh : P.hThres = 120e3 := by simp [Planet.init] at hP; subst hP; rfl
  let V := Vehicle.mk' 500 100 0.2 1 0 1 P atm false (fun _ => 1) ⟨100, 0, 0, v0, 0, -90, 0, 0⟩
  let G : GuideParams := ⟨30, 75, 1, 1, 10, 20, 0, 250, 2000, 10, 50, 10⟩
  -- first second
  obtain ⟨o0, J0, a1, a2, a3, a4, a5, a6⟩ := seg V 0 rfl (by norm_num [V, Vehicle.mk']) (by norm_num [V, Vehicle.mk'])
  have hstart : ∃ s, entryStart FE V none 0.1 = .ok s ∧
      s.segHeat.getLast? = some J0 ∧ (∀ J', s.hist.last J' = .ok { V.init with h0Km := 119, heatLoad0 := J' }) ∧ s.V = V ∧
      s.hist.t ≠ [] ∧ s.hdot ≠ [] ∧ s.tStep ≠ [] ∧ s.vAttr = v0 ∧ s.deltaDeg = [0.0] := by
    unfold entryStart
    have e1 : FE.prop V 1.0 0.1 0.0 = .ok o0 := by
      rw [Lits.l10, Lits.l00]; exact a1
    obtain ⟨l1, _, _, l4, _⟩ := last_ok.mp (a6 0)
    simp only [e1, liftPy, bind, Except.bind, pyLast_ok.mpr l1, pyLast_ok.mpr l4, pure, Except.pure]
    refine ⟨_, rfl, a4, a6, rfl, a5, by simp, by simp, rfl, rfl⟩
  obtain ⟨s, hs, s1, s2, s3, s4, s5, s6, s7, s8⟩ := hstart
  set x : InitState := { V.init with h0Km := 119, heatLoad0 := J0 } with hx
  -- the glide cycle
  obtain ⟨cmd, hc, _⟩ := C40_glide_command V G x (by simp [V, Vehicle.mk']; norm_num) (by simp [V, Vehicle.mk']) (by
    simp only [V, Vehicle.mk', Planet.density, hTh, hx]; norm_num; exact ⟨hatm.ne', by linarith⟩)
  obtain ⟨o1, J1, b1, b2, b3, b4, b5, b6⟩ := seg (V.setInitialState x)
    (psuedoController G.maxRollRate cmd s.deltaIni 1).1 rfl (by norm_num [Vehicle.setInitialState, hx])
    (by norm_num [Vehicle.setInitialState, hx])
  have hcmd : ∃ q, FE.command s.V x s.deltaIni 1 =
      .ok ((psuedoController G.maxRollRate cmd s.deltaIni 1).1, q) := by
    rw [s3]
    exact ⟨_, by simp only [fc, Vehicle.glideBank, G, exampleGuide] at *; simp only [hc, bind, Except.bind, pure, Except.pure]; rfl⟩
  obtain ⟨qr, hcmd⟩ := hcmd
  obtain ⟨s', c0, c1, c2, c3, c4, c5, c6, c7, c8, c9, c10⟩ := entryCycle_descending (mode := mode) (maxTime := 600) (dt := 0.1)
    (G := G) s1 (s2 J0) hcmd (by rw [s3]; exact b1) s4 s5 s6 b2 b3 b4 (b6 J1) (by
      simp only [V, Vehicle.mk', G]
      rw [show (-90:ℝ) * π / 180.0 = -(π / 2) by norm_num; ring, sin_neg, sin_pi_div_two]; norm_num; linarith)
  have hbr : entryBreak G s.V.planet FE.margin (some 0.0)
      ({ (V.setInitialState x).init with h0Km := 119, heatLoad0 := J1 } : InitState).h0Km := by
    right
    rw [s3]
    simp only [fm, V, Vehicle.mk', hS]; norm_num
  have hloop : entryLoop G FE mode 1 0.1 600 3 s = some (.ok s') := by
    unfold entryLoop
    rw [if_pos (by rw [s7]; norm_num [G]; exact hv0), c0, decide_eq_true hbr]
  -- the exit phase
  have hlast : ∀ J', s'.hist.last J' = .ok { V.init with h0Km := 119, heatLoad0 := J' } := by
    intro J'
    obtain ⟨l1, l2, l3, l4, l5, l6, l7, _⟩ := last_ok.mp c3
    exact last_ok.mpr ⟨l1, l2, l3, l4, l5, l6, l7, rfl⟩
  obtain ⟨tE, htE⟩ := getLast_of_ne_nil c4
  obtain ⟨hE, hhE⟩ := getLast_of_ne_nil c5
  have hdd : s'.deltaDeg.getLast? = some (psuedoController G.maxRollRate cmd s.deltaIni 1).1 := by rw [c9]; simp
  obtain ⟨l1, _, _, l4, _⟩ := last_ok.mp (hlast 0)
  have hex : ∃ e, exitStart s'.V s' = .ok (e, J1, hE) ∧ e.V = s'.V ∧ e.hist = s'.hist ∧ e.hCur = 119 ∧
      e.tStep = s'.tStep ∧ e.hdot = s'.hdot ∧ e.deltaDeg = s'.deltaDeg := by
    unfold exitStart
    simp only [liftPy, bind, Except.bind, pyLast_ok.mpr htE, pyLast_ok.mpr l1, pyLast_ok.mpr l4, pyLast_ok.mpr hdd,
      pyLast_ok.mpr hhE, pyLast_ok.mpr c8, pure, Except.pure]
    exact ⟨_, rfl, rfl, rfl, rfl, rfl, rfl, rfl⟩
  obtain ⟨e, he, e1, e2, e3, e4, e5, e6⟩ := hex
  have hsV : ∀ z, s'.V.setInitialState z = V.setInitialState z := by
    intro z; rw [c1, s3]; rfl
  obtain ⟨o2, J2, d1, d2, d3, d4, d5, d6⟩ := segX (V.setInitialState { V.init with h0Km := 119, heatLoad0 := J1 })
    (FX.command e.deltaIni 1) rfl (by norm_num [Vehicle.setInitialState])
    (by norm_num [Vehicle.setInitialState])
  obtain ⟨f, f0, f1, f2, f3⟩ := exitCycle_forward (F := FX) (ts := 1) (dt := 0.1)
    (J := J1) (hdotRef := hE) (s := e) (out := o2) (by rw [e2]; exact hlast J1) (by rw [e1, hsV]; exact d1) (by rw [e2]; exact c4)
    (by rw [e5]; exact c5) (by rw [e4]; exact c6) (d6 J1)
  have hpl : s'.V.planet = P := by rw [c1, s3]; rfl
  have hstop : FX.stop e.V.planet
      (({ V.init with h0Km := 119, heatLoad0 := J1 } : InitState).h0Km * 1.0E3) := by
    simp only [fs, e1, hpl, hS]; norm_num
  have hxl : exitLoop FX 1 0.1 J1 hE 3 e = some (.ok f) := by
    unfold exitLoop
    rw [if_pos (by rw [e3, e1, hpl, hS]; norm_num), f0, decide_eq_true hstop]
  have hz : f.hist.last 0 = .ok { V.init with h0Km := 119 } := by
    obtain ⟨l1, l2, l3, l4, l5, l6, l7, _⟩ := last_ok.mp f1
    exact last_ok.mpr ⟨l1, l2, l3, l4, l5, l6, l7, rfl⟩
  have hres : ∃ o, exitResults G f = .ok o ∧ o.fin = f := by
    unfold exitResults
    simp only [hz, liftPy, bind, Except.bind, pure, Except.pure]
    exact ⟨_, rfl, rfl⟩
  obtain ⟨o, ho, hof⟩ := hres
  refine ⟨o, ?_, ?_, ?_, ?_⟩
  · show Vehicle.guided G FE FX mode 3 V none (fun W => W) 1 1 0.1 600 = some (.ok o)
    unfold Vehicle.guided entryPhase
    simp only [hs, hloop, exitPhase, he, hxl, ho]
  · rw [hof, f2, e6, c9, s8]; simp
  · rw [hof]; exact hz
  · rw [hof, f3]; rfl

/-- A complete guided run with the first integrator and the SciPy version of the lock file. -/
theorem guided_run (P : Planet) (hP : Planet.init "MARS" = .ok P) (v0 : ℝ) (hv0 : 1 < v0) (atm : Atmosphere)
    (hatm : 0 < atm.densityInt 119000) : ∃ o : GuidedOut,
    Vehicle.propogateGuidedEntry exampleGuide .strict (exampleIntegrator P) 3 (exampleVehicle P atm v0) none 1 0.1 600
      = some (.ok o) ∧ o.fin.deltaDeg.length = 3 ∧
    o.fin.hist.last 0 = .ok ⟨119, 0, 0, v0, 0, -90, 0, 0⟩ ∧ o.fin.V.initRef.h0Km = 119 :=
  guided_run_of P hP v0 hv0 atm hatm (Vehicle.glide1 exampleGuide .strict (exampleIntegrator P))
    (Vehicle.exit1 exampleGuide .strict (exampleIntegrator P)) .strict (lifts_entry P hP .strict) (lifts_entry P hP .strict)
    rfl rfl rfl

/-- A complete guided run with the second integrator and an older SciPy version. -/
theorem guided_run2 (P : Planet) (hP : Planet.init "MARS" = .ok P) (v0 : ℝ) (hv0 : 1 < v0) (atm : Atmosphere)
    (hatm : 0 < atm.densityInt 119000) (I : Integrator) : ∃ o : GuidedOut,
    Vehicle.propogateGuidedEntry2 exampleGuide .legacy I (exampleIntegrator P) 3 (exampleVehicle P atm v0) none 1 0.1 600
      = some (.ok o) ∧ o.fin.deltaDeg.length = 3 ∧
    o.fin.hist.last 0 = .ok ⟨119, 0, 0, v0, 0, -90, 0, 0⟩ ∧ o.fin.V.initRef.h0Km = 119 :=
  guided_run_of P hP v0 hv0 atm hatm (Vehicle.glide2 exampleGuide .legacy I (exampleIntegrator P))
    (Vehicle.exit2 exampleGuide .legacy (exampleIntegrator P)) .legacy (lifts_entry2 P hP) (lifts_entry2 P hP)
    rfl rfl rfl

/-- `guided_run` in air of constant density. -/
theorem guided_example (v0 : ℝ) (hv0 : 1 < v0) : ∃ (V : Vehicle) (G : GuideParams) (I : Integrator) (o : GuidedOut),
    Planet.init "MARS" = .ok V.planet ∧ OdeintLike I ∧ 0 < G.maxRollRate ∧
    Vehicle.propogateGuidedEntry G .strict I 3 V none 1 0.1 600 = some (.ok o) ∧ o.fin.deltaDeg.length = 3 ∧
    V.init = ⟨100, 0, 0, v0, 0, -90, 0, 0⟩ ∧ V.initRef = V.init ∧ o.fin.hist.last 0 = .ok { V.init with h0Km := 119 } ∧
    o.fin.V.initRef.h0Km = 119 ∧ G.targetPeriKm = 250 ∧ G.targetApoKm = 2000 := by
  obtain ⟨P, hP⟩ := (C01_planet_names "MARS").1.mpr (by simp [Spec.bodies])
  obtain ⟨o, h1, h2, h3, h4⟩ := guided_run P hP v0 hv0 ⟨fun _ => 1, fun _ => 1, fun _ => 1, fun _ => 1⟩ one_pos
  exact ⟨_, exampleGuide, exampleIntegrator P, o, hP, jumpIntegrator_ok _, by norm_num [exampleGuide], h1, h2, rfl, rfl, h3,
    h4, rfl, rfl⟩

/-- Non-vacuity of C38-C43: a complete guided run at Mars with one cycle of equilibrium glide and one exit cycle. -/
theorem C43_example : ∃ (V : Vehicle) (G : GuideParams) (I : Integrator) (o : GuidedOut),
    Planet.init "MARS" = .ok V.planet ∧ OdeintLike I ∧ 0 < G.maxRollRate ∧
    Vehicle.propogateGuidedEntry G .strict I 3 V none 1 0.1 600 = some (.ok o) ∧ o.fin.deltaDeg.length = 3 := by
  obtain ⟨V, G, I, o, h1, h2, h3, h4, h5, _⟩ := guided_example 4 (by norm_num)
  exact ⟨V, G, I, o, h1, h2, h3, h4, h5⟩

/-- Cases for `C38_guided_history`, `C43_histories_continuous` and `C43_step_histories`: that run. -/
example : ∃ (V : Vehicle) (G : GuideParams) (o : GuidedOut) (pts : List Spec.Pt) (s : EntryState) (n : ℕ),
    Planet.init "MARS" = .ok V.planet ∧ o.fin.deltaDeg.length = 3 ∧
    o.fin.deltaDeg.IsChain (fun a b => |b - a| ≤ G.maxRollRate * 1) ∧
    Spec.Records o.fin.hist pts ∧ Spec.Continuous V.init pts ∧
    s.tStep.length = n + 1 ∧ s.accStep.length = 2 * n + 1 := by
  obtain ⟨V, G, I, o, h1, h2, h3, h4, h5⟩ := C43_example
  obtain ⟨pts, p1, p2⟩ := C43_histories_continuous "MARS" G .strict I I (OdeintLike.toIvp h2) (OdeintLike.toIvp h2) 3 V h1 none 1 1 0.1 600
    (by norm_num) o (Or.inl h4)
  obtain ⟨s0, s, e, J, hr, a1, a2, -⟩ := guided_inv h4
  obtain ⟨n, b1, -, -, -, -, -, -, -, b9, -⟩ := C43_step_histories G (Vehicle.glide1 G .strict I) .strict 3 V none 1 0.1 600 s
    (by unfold entryPhase; rw [a1]; exact a2)
  exact ⟨V, G, o, pts, s, n, h1, h5,
    C38_guided_history G .strict I I 3 V none 1 0.1 600 (by linarith) o (Or.inl h4), p1, p2, b1, b9⟩

/-- Case for `C41_immediate_switch_partial`: the example vehicle with switch speed above its entry speed; the phase
ends after the first second. -/
example : ∃ (V : Vehicle) (G : GuideParams) (I : Integrator) (s : EntryState), Planet.init "MARS" = .ok V.planet ∧
    OdeintLike I ∧ entryStart (Vehicle.glide1 G .strict I) V none 0.1 = .ok s ∧ s.vAttr = 4 ∧ G.vSwitchKms = 5 ∧
    entryLoop G (Vehicle.glide1 G .strict I) .strict 1 0.1 600 1 s = some (.ok s) := by
  obtain ⟨P, hP⟩ := (C01_planet_names "MARS").1.mpr (by simp [Spec.bodies])
  obtain ⟨out, J, o1, o2, o3, o4, o5, o6⟩ := lifts_entry P hP .strict
    (exampleVehicle P ⟨fun _ => 1, fun _ => 1, fun _ => 1, fun _ => 1⟩ 4) 0 rfl (by norm_num [exampleVehicle, Vehicle.mk'])
    (by norm_num [exampleVehicle, Vehicle.mk'])
  obtain ⟨l1, _, _, l4, _⟩ := last_ok.mp (o6 0)
  have hst : ∃ s, entryStart (Vehicle.glide1 { exampleGuide with vSwitchKms := 5 } .strict (exampleIntegrator P))
      (exampleVehicle P ⟨fun _ => 1, fun _ => 1, fun _ => 1, fun _ => 1⟩ 4) none 0.1 = .ok s ∧ s.vAttr = 4 := by
    unfold entryStart
    have e1 : (Vehicle.glide1 { exampleGuide with vSwitchKms := 5 } .strict (exampleIntegrator P)).prop
        (exampleVehicle P ⟨fun _ => 1, fun _ => 1, fun _ => 1, fun _ => 1⟩ 4) 1.0 0.1 0.0 = .ok out := by
      rw [Lits.l10, Lits.l00]; exact o1
    simp only [e1, liftPy, bind, Except.bind, pyLast_ok.mpr l1, pyLast_ok.mpr l4, pure, Except.pure]
    exact ⟨_, rfl, rfl⟩
  obtain ⟨s, hs, hv⟩ := hst
  exact ⟨_, _, _, s, hP, jumpIntegrator_ok _, hs, hv, rfl,
    C41_immediate_switch_partial _ _ _ _ _ _ 0 s (by rw [hv]; norm_num)⟩

/-- The run of `C41_loop_continues_below_switch_speed`, for any drag curve. -/
theorem halving_run (ud : Bool) (f : ℝ → ℝ) : ∃ (V : Vehicle) (G : GuideParams) (I : Integrator) (s s1 : EntryState),
    Planet.init "MARS" = .ok V.planet ∧ OdeintLike I ∧ (0 < V.mass ∧ 0 < V.CD ∧ 0 < V.A ∧ V.userDefinedCDMach = ud ∧
      (∀ h, V.atm.densityInt h = 1) ∧ s.V = V ∧ s.hist.v.getLast? = some 2 ∧
      V.CDMach = f ∧ V.CD = 5) ∧
    entryStart (Vehicle.glide1 G .strict I) V none 0.1 = .ok s ∧
    entryCycle G (Vehicle.glide1 G .strict I) .strict 1 0.1 600 s = .ok (s1, false) ∧
    s1.hist.v.getLast? = some 1 ∧ (1:ℝ) < G.vSwitchKms ∧
    ∀ fuel, entryLoop G (Vehicle.glide1 G .strict I) .strict 1 0.1 600 fuel s = none := by
  obtain ⟨P, hP⟩ := (C01_planet_names "MARS").1.mpr (by simp [Spec.bodies])
  have hR : P.RP = 3389.5e3 := by simp [Planet.init] at hP; subst hP; rfl
  have hT : P.hTrap = 10e3 := by simp [Planet.init] at hP; subst hP; rfl
  have hS : P.hSkip = 120e3 := by simp [Planet.init] at hP; subst hP; rfl
  have hTh : P.hThres = 120e3 := by simp [Planet.init] at hP; subst hP; rfl
  have hVr : 0 < P.Vref := (C01_planet_consistent _ _ hP).2.2.2.2.2.2.2.2.1
  have hRp : P.RP ≠ 0 := by rw [hR]; norm_num
  let V := Vehicle.mk' 500 100 0.2 1 0 1 P ⟨fun _ => 1, fun _ => 1, fun _ => 1, fun _ => 1⟩ ud f
    ⟨100, 0, 0, 4, 0, -90, 0, 0⟩
  let G : GuideParams := ⟨30, 75, 1, 1.5, 10, 20, 0, 250, 2000, 10, 50, 10⟩
  let g : FState → FState := fun y => { y with v := y.v / 2 }
  have seg : ∀ (W : Vehicle) (δ : ℝ), W.planet = P → W.init.h0Km = 100 →
      ∃ out J, W.propogateEntry .strict (jumpIntegrator g) 1 0.1 δ = .ok out ∧ out.accNetG ≠ [] ∧ out.accDragG ≠ [] ∧
        out.heatload.getLast? = some J ∧ (Hist.ofOut out).t ≠ [] ∧
        ∀ J', (Hist.ofOut out).last J' = .ok { W.init with v0Kms := W.init.v0Kms / 2, heatLoad0 := J' } := by
    intro W δ hW h1
    have hPW : Planet.init "MARS" = .ok W.planet := by rw [hW]; exact hP
    have hr : (W.planet.nonDimState (Vehicle.entryState W.planet W.init)).r * P.RP - P.RP = 100000 := by
      simp only [hW, Planet.nonDimState, Vehicle.entryState, Planet.computeR, div_mul_cancel₀ _ hRp, h1]; norm_num
    obtain ⟨out, J, t, o1, o2, o3, o4, o5, o6⟩ := segment_jump "MARS" W hPW .strict g 1 0.1 δ (by norm_num) (by norm_num)
      (by rw [hW, hT, h1]; norm_num) (by rw [hW, hS, h1]; norm_num)
      (by rw [hW] at hr ⊢; rw [hT]; simp only [g]; rw [hr]; norm_num)
      (by rw [hW] at hr ⊢; rw [hS]; simp only [g]; rw [hr]; norm_num)
    refine ⟨out, J, o1, o2, o3, o4, o5, ?_⟩
    intro J'
    have := o6 J'
    have e : g (W.planet.nonDimState (Vehicle.entryState W.planet W.init)) =
      { W.planet.nonDimState (Vehicle.entryState W.planet W.init) with
        r := (W.planet.nonDimState (Vehicle.entryState W.planet W.init)).r,
        v := (W.planet.nonDimState (Vehicle.entryState W.planet W.init)).v / 2 } := rfl
    rw [e, samplePt_jump "MARS" W.planet hPW] at this
    rw [this]
    congr 1
    have l3 : (1.000e3:ℝ) = 1000 := by norm_num
    have l6 : (1e-3:ℝ) = 1 / 1000 := by norm_num
    rw [hW] at hr ⊢
    rw [hr]
    ext <;> simp only [Planet.nonDimState, Vehicle.entryState, l3, l6]
    · rw [h1]; norm_num
    · field_simp
  obtain ⟨o0, J0, a1, a2, a3, a4, a5, a6⟩ := seg V 0 rfl (by norm_num [V, Vehicle.mk'])
  have hstart : ∃ s, entryStart (Vehicle.glide1 G .strict (jumpIntegrator g)) V none 0.1 = .ok s ∧
      s.segHeat.getLast? = some J0 ∧ (∀ J', s.hist.last J' = .ok { V.init with v0Kms := 4 / 2, heatLoad0 := J' }) ∧ s.V = V ∧
      s.hist.t ≠ [] ∧ s.hdot ≠ [] ∧ s.tStep ≠ [] ∧ s.vAttr = 4 / 2 := by
    unfold entryStart
    have e1 : (Vehicle.glide1 G .strict (jumpIntegrator g)).prop V 1.0 0.1 0.0 = .ok o0 := by
      rw [Lits.l10, Lits.l00]; exact a1
    obtain ⟨l1, _, _, l4, _⟩ := last_ok.mp (a6 0)
    simp only [e1, liftPy, bind, Except.bind, pyLast_ok.mpr l1, pyLast_ok.mpr l4, pure, Except.pure]
    refine ⟨_, rfl, a4, a6, rfl, a5, by simp, by simp, rfl⟩
  obtain ⟨s, hs, s1, s2, s3, s4, s5, s6, s7⟩ := hstart
  have desc : ∀ v : ℝ, 0 < v → v * 1.000E3 * sin ((-90:ℝ) * π / 180.0) ≤ 0 := by
    intro v hv
    rw [show (-90:ℝ) * π / 180.0 = -(π / 2) by norm_num; ring, sin_neg, sin_pi_div_two, show (1.000e3:ℝ) = 1000 by norm_num]
    linarith
  -- what stays true
  let Inv : Vehicle → InitState → Prop := fun W y => W.setInitialState V.init = V ∧
    ∃ v J, 0 < v ∧ y = { V.init with v0Kms := v, heatLoad0 := J }
  have icmd : ∀ W x d, Inv W x → ∃ r, (Vehicle.glide1 G .strict (jumpIntegrator g)).command W x d 1 = .ok r := by
    rintro W x d ⟨hW, v, J, hv, rfl⟩
    have hCL : W.CL = V.CL := (congrArg Vehicle.CL hW :)
    have hAA : W.A = V.A := (congrArg Vehicle.A hW :)
    have hat : W.atm = V.atm := (congrArg Vehicle.atm hW :)
    have hpl : W.planet = V.planet := (congrArg Vehicle.planet hW :)
    obtain ⟨cmd, hc, _⟩ := C40_glide_command W G { V.init with v0Kms := v, heatLoad0 := J }
      (by rw [hCL]; simp [V, Vehicle.mk']; norm_num) (by rw [hAA]; simp [V, Vehicle.mk']) (by
        rw [hat, hpl]
        simp only [V, Vehicle.mk', Planet.density, hTh]
        rw [if_pos (by norm_num)]
        positivity)
    exact ⟨_, by simp only [Vehicle.glide1, Vehicle.glideBank, hc, bind, Except.bind, pure, Except.pure]; rfl⟩
  have istep : ∀ W x d, Inv W x → ∃ out J' y, (Vehicle.glide1 G .strict (jumpIntegrator g)).prop (W.setInitialState x) 1 0.1 d
      = .ok out ∧ out.accNetG ≠ [] ∧ out.accDragG ≠ [] ∧ out.heatload.getLast? = some J' ∧
      (Hist.ofOut out).last J' = .ok y ∧ Inv (W.setInitialState x) y := by
    rintro W x d ⟨hW, v, J, hv, rfl⟩
    have hpl : W.planet = V.planet := (congrArg Vehicle.planet hW :)
    obtain ⟨out, J', b1, b2, b3, b4, b5, b6⟩ := seg (W.setInitialState { V.init with v0Kms := v, heatLoad0 := J }) d
      (by show W.planet = P; rw [hpl]; rfl) (by norm_num [Vehicle.setInitialState, V, Vehicle.mk'])
    exact ⟨out, J', _, b1, b2, b3, b4, b6 J', hW, v / 2, J', by positivity, rfl⟩
  have iflight : ∀ W x, Inv W x → x.v0Kms * 1.000E3 * sin (x.gamma0Deg * π / 180.0) ≤ G.hdotThreshold ∧
      x.h0Km ≤ W.planet.hSkip / 1000 - (Vehicle.glide1 G .strict (jumpIntegrator g)).margin := by
    rintro W x ⟨hW, v, J, hv, rfl⟩
    have hpl : W.planet = V.planet := (congrArg Vehicle.planet hW :)
    refine ⟨desc v hv, ?_⟩
    rw [hpl]
    simp only [V, Vehicle.mk', Vehicle.glide1, hS]; norm_num
  have i0 : Inv s.V { V.init with v0Kms := 4 / 2, heatLoad0 := J0 } := by
    rw [s3]; exact ⟨rfl, 4 / 2, J0, by norm_num, rfl⟩
  have hsw : G.vSwitchKms < s.vAttr := by rw [s7]; simp only [G]; norm_num
  obtain ⟨⟨δ, qr⟩, hc⟩ := icmd _ _ s.deltaIni i0
  obtain ⟨out, J', b1, b2, b3, b4, b5, b6⟩ := seg (s.V.setInitialState { V.init with v0Kms := 4 / 2, heatLoad0 := J0 }) δ
    (by rw [s3]; rfl) (by norm_num [Vehicle.setInitialState, V, Vehicle.mk'])
  obtain ⟨s', c0, c1, c2, c3, c4, c5, c6, c7, c8, _⟩ := entryCycle_descending (mode := .strict) (maxTime := 600) (dt := 0.1)
    (G := G) (F := Vehicle.glide1 G .strict (jumpIntegrator g)) s1 (s2 J0) hc b1 s4 s5 s6 b2 b3 b4 (b6 J') (iflight _ _ i0).1
  have hnb : ¬ entryBreak G s.V.planet (Vehicle.glide1 G .strict (jumpIntegrator g)).margin (some 0.0) (100:ℝ) := by
    rintro (⟨a, ha, h⟩ | h)
    · simp only [Option.some.injEq] at ha
      subst ha
      rcases h with ⟨h, _⟩ | h
      · norm_num at h
      · norm_num [G] at h
    · rw [s3] at h
      simp only [V, Vehicle.mk', Vehicle.glide1, hS] at h
      norm_num at h
  have hD : 0 < V.CD := by
    simp only [V, Vehicle.mk']; norm_num
  refine ⟨V, G, jumpIntegrator g, s, s', hP, jumpIntegrator_ok g, ⟨by norm_num [V, Vehicle.mk'], hD,
    by norm_num [V, Vehicle.mk'], rfl, fun _ => rfl, s3, ?_, rfl, by norm_num [V, Vehicle.mk']⟩, hs, ?_, ?_, by norm_num [G], ?_⟩
  · rw [(last_ok.mp (s2 0)).2.2.2.1]; norm_num
  · rw [c0]
    have : decide (entryBreak G s.V.planet (Vehicle.glide1 G .strict (jumpIntegrator g)).margin (some 0.0) (100:ℝ)) = false :=
      decide_eq_false hnb
    simp only [Vehicle.setInitialState, V, Vehicle.mk'] at this ⊢
    rw [this]
  · rw [(last_ok.mp c3).2.2.2.1]
    norm_num [Vehicle.setInitialState]
  · intro fuel
    exact entryLoop_forever Inv icmd (fun W x _ r hi _ => istep W x r.1 hi) iflight (by norm_num [G]) fuel s J0 _ s1 (s2 J0) i0 s4 s5 s6 hsw

/-- C41 (finding), the claim is false: at Mars, with the switch speed set to 1.5 km/s, speed halving in every cycle at
constant altitude: the loop goes on for ever although the speed is below 1.5 km/s after the first cycle. -/
theorem C41_loop_continues_below_switch_speed : ∃ (V : Vehicle) (G : GuideParams) (I : Integrator) (s s1 : EntryState),
    Planet.init "MARS" = .ok V.planet ∧ OdeintLike I ∧ (0 < V.mass ∧ 0 < V.CD ∧ 0 < V.A ∧ V.userDefinedCDMach = false ∧
      (∀ h, V.atm.densityInt h = 1) ∧ s.V = V ∧ s.hist.v.getLast? = some 2) ∧
    entryStart (Vehicle.glide1 G .strict I) V none 0.1 = .ok s ∧
    entryCycle G (Vehicle.glide1 G .strict I) .strict 1 0.1 600 s = .ok (s1, false) ∧
    s1.hist.v.getLast? = some 1 ∧ (1:ℝ) < G.vSwitchKms ∧
    ∀ fuel, entryLoop G (Vehicle.glide1 G .strict I) .strict 1 0.1 600 fuel s = none := by
  obtain ⟨V, G, I, s, s1, h1, h2, ⟨a1, a2, a3, a4, a5, a6, a7, -⟩, h3⟩ := halving_run false (fun _ => 1)
  exact ⟨V, G, I, s, s1, h1, h2, ⟨a1, a2, a3, a4, a5, a6, a7⟩, h3⟩

end AMAT.Props
