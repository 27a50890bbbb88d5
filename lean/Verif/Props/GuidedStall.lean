import Verif.Props.DiveEvent
import Verif.Props.GuidedTermination

/-
C42, continued: guided flights propagated with `solve_ivp` stall when the vehicle dives.
-/

noncomputable section

open Classical

namespace AMAT.Props

open AMAT Real AMAT.Spec AMAT.Data AMAT.Lits

/-- The flight from `x` at bank angle `δ` (degrees) passes 88° below the horizontal before the first output step of `dt`
seconds is over, and the solver stops there. -/
def DivesWithin (W : Vehicle) (I' : Integrator) (x : InitState) (tSec dt δ : ℝ) : Prop :=
  ∃ (y : ℝ → FState) (T te : ℝ),
    StopsAtEvent hitEFPA90 I' (fun t s => W.EOM2 t s (δ * π / 180.0))
      (W.planet.nonDimState (Vehicle.entryState W.planet x)) (Vehicle.tGrid W.planet tSec dt) y T ∧
    0 < te ∧ te ≤ T ∧ te * W.planet.tau < dt ∧
    (∀ t ∈ Set.Ico 0 te, -(88 * (π / 180)) < (y t).gamma) ∧ (y te).gamma = -(88 * (π / 180)) ∧
    ∀ᶠ t in nhdsWithin te (Set.Ioi te), (y t).gamma < -(88 * (π / 180))

/-- Such a segment has one sample. -/
theorem dives_samples {name : String} {W : Vehicle} (hP : Planet.init name = .ok W.planet) {I' : Integrator}
    {x : InitState} {tSec dt δ : ℝ} (ht : 0 ≤ tSec) (hdt : 0 < dt) (h : DivesWithin W I' x tSec dt δ) :
    ∃ p, samples (W.setInitialState x) I' tSec dt δ = [p] := by
  obtain ⟨_, hR, _, _, _, _, _, _, _, htau, _⟩ := C01_planet_consistent name W.planet hP
  obtain ⟨y, T, te, hI, t0, tT, tdt, h1, h2, h3⟩ := h
  have hg : ∀ t, hitEFPA90 (y t) = (y t).gamma - -(88 * (π / 180)) := fun t => by unfold hitEFPA90; ring
  have hc := hI.cut te ⟨t0.le, tT⟩ (fun t ht => by rw [hg]; linarith [h1 t ht]) (by rw [hg, h2, sub_self])
    (h3.mono fun t ht => by rw [hg]; linarith)
  obtain ⟨g1, g2⟩ := tGrid_get name W.planet hP tSec dt ht hdt
  obtain ⟨a, l, hl⟩ : ∃ a l, Vehicle.tGrid W.planet tSec dt = a :: l :=
    List.exists_cons_of_length_pos (by omega)
  have ha : a = 0 := by
    have := g2 0 (by omega)
    rw [hl] at this
    simpa using this
  have hlt : ∀ t ∈ l, ¬ t ≤ te := by
    intro t htl
    obtain ⟨i, hi, rfl⟩ := List.mem_iff_getElem.mp htl
    have hlen : l.length + 1 = ⌈tSec / dt⌉₊ + 1 := by rw [← g1, hl]; rfl
    have := g2 (i + 1) (by omega)
    rw [hl, List.getElem?_cons_succ, List.getElem?_eq_getElem hi, Option.some.injEq] at this
    rw [this, not_le, lt_div_iff₀ htau]
    push_cast
    nlinarith [Nat.cast_nonneg (α := ℝ) i]
  refine ⟨(0, y 0), ?_⟩
  change I' (fun t s => W.EOM2 t s (δ * π / 180.0)) (W.planet.nonDimState (Vehicle.entryState W.planet x))
    (Vehicle.tGrid W.planet tSec dt) = _
  rw [hc, hl, ha, List.filter_cons_of_pos (by simpa using t0.le), List.filter_eq_nil_iff.mpr (by simpa using hlt)]
  rfl

/-- A segment with one sample returns its initial state as its only point. -/
theorem segment_single (name : String) (V : Vehicle) (hP : Planet.init name = .ok V.planet) (mode : ScipyMode)
    (I : Integrator) (hI : SolveIvpLike I) (tSec dt deltaDeg : ℝ) (hdt : 0 < dt)
    (hmode : mode = .legacy ∨ V.init.heatLoad0 = 0)
    (h0 : V.planet.hTrap < V.init.h0Km * 1000) (h1 : V.init.h0Km * 1000 < V.planet.hSkip)
    (p : ℝ × FState) (hS : samples V I tSec dt deltaDeg = [p]) :
    ∃ out, V.propogateEntry2 mode I tSec dt deltaDeg = .ok out ∧ out.accNetG ≠ [] ∧ out.accDragG ≠ [] ∧
      out.heatload.getLast? = some V.init.heatLoad0 ∧ (Hist.ofOut out).t ≠ [] ∧
      ∀ J, (Hist.ofOut out).last J = .ok { V.init with heatLoad0 := J } := by
  obtain ⟨_, hR, _, _, _, _, _, _, _, _, _⟩ := C01_planet_consistent name _ hP
  have hp : p.2 = V.planet.nonDimState (Vehicle.entryState V.planet V.init) :=
    (hI (fun t y => V.EOM y t (deltaDeg * π / 180.0)) _ (Vehicle.tGrid V.planet tSec dt)).2.2 p (by
      change (samples V I tSec dt deltaDeg).head? = some p
      rw [hS]; rfl)
  have hpr : p.2.r * V.planet.RP - V.planet.RP = V.init.h0Km * 1000 := by
    rw [hp]
    simp only [Planet.nonDimState, Vehicle.entryState, Planet.computeR, div_mul_cancel₀ _ hR.ne']
    rw [show (1.0e3:ℝ) = 1000 by norm_num]; ring
  obtain ⟨out, hpp⟩ := postProcess_returns name V hP mode (deltaDeg * π / 180.0) V.init.heatLoad0 hmode p []
    (by rw [hpr]; exact h0) (by rw [hpr]; exact h1) (by simp)
  have ho : V.propogateEntry2 mode I tSec dt deltaDeg = .ok out := by
    rw [← hS] at hpp; exact hpp
  obtain ⟨r1, r2, r3, r4⟩ := records_nonempty hpp
  obtain ⟨pts, hrec, hcont⟩ := segment_continuous name V hP mode I hI tSec dt deltaDeg hdt out (Or.inr ho)
  have hidx : out.index = 1 := (inside_flag hpp (by
    intro q hq
    rw [List.mem_singleton.mp hq, hpr]
    exact ⟨h0, h1⟩)).2
  have hheat : ∃ l, out.heatload = V.init.heatLoad0 :: l := by
    obtain ⟨idx, flag, qc, qr, heat, hc, hq, hq2, hh, rfl⟩ := postProcess_inv hpp
    exact ⟨_, (cumTrapz_ok hh).2.1⟩
  obtain ⟨_, _, _, _, _, _, _, _, _, _, a3, _⟩ := postProcess_aligned hpp
  have hlen1 : out.heatload.length = 1 := by rw [a3 _ (by simp), hidx]
  obtain ⟨l, hl⟩ := hheat
  have hl0 : out.heatload = [V.init.heatLoad0] := by
    rw [hl] at hlen1 ⊢
    simp at hlen1
    rw [hlen1]
  have hlen : pts.length = 1 := by rw [← hrec.heatload]; simp [Hist.ofOut, hl0]
  obtain ⟨pt, rfl⟩ := List.length_eq_one_iff.mp hlen
  have hpt : pt = Spec.ptOf 0 V.init := by simpa using hcont.1
  refine ⟨out, ho, r1, r2, by rw [hl0]; rfl, r4, fun J => ?_⟩
  rw [records_last hrec (p := pt) rfl J, hpt]; simp [Spec.ptOf]

/-- The two together: the segment from `x` leads back to `x`. -/
theorem segment_stalls {name : String} {W : Vehicle} (hP : Planet.init name = .ok W.planet) {mode : ScipyMode}
    {I' : Integrator} (hI : SolveIvpLike I') {x : InitState} {tSec dt δ : ℝ} (ht : 0 ≤ tSec) (hdt : 0 < dt)
    (hmode : mode = .legacy ∨ x.heatLoad0 = 0) (h0 : W.planet.hTrap < x.h0Km * 1000)
    (h1 : x.h0Km * 1000 < W.planet.hSkip) (h : DivesWithin W I' x tSec dt δ) :
    ∃ out, (W.setInitialState x).propogateEntry2 mode I' tSec dt δ = .ok out ∧ out.accNetG ≠ [] ∧ out.accDragG ≠ [] ∧
      out.heatload.getLast? = some x.heatLoad0 ∧ (Hist.ofOut out).t ≠ [] ∧
      ∀ J, (Hist.ofOut out).last J = .ok { x with heatLoad0 := J } := by
  obtain ⟨p, hp⟩ := dives_samples hP ht hdt h
  exact segment_single name (W.setInitialState x) hP mode I' hI tSec dt δ hdt hmode h0 h1 p hp

/-- The equations of motion do not read the initial state. -/
theorem dives_congr {W W' : Vehicle} {I' : Integrator} {x z : InitState} {tSec dt δ : ℝ}
    (hW : W.setInitialState z = W'.setInitialState z) (h : DivesWithin W' I' x tSec dt δ) :
    DivesWithin W I' x tSec dt δ := by
  have e : DivesWithin W I' x tSec dt δ = DivesWithin (W.setInitialState z) I' x tSec dt δ := rfl
  rw [e, hW]
  exact h

/-! ### The entry phases -/

/-- C42 (finding): in the entry phases that use `solve_ivp`, whenever the current state is one from which the flight passes
88° below the horizontal within the first output step — at zero bank, which drag modulation flies, or for the glide phase at any
bank angle — the loop never ends.  The solver returns the initial point only, so that the next cycle begins at the same time
and in the same state. -/
theorem C42_steep_entry_never_ends (name : String) (G : GuideParams) (mode : ScipyMode) (F : EntryPhase) (I I' : Integrator)
    (hI : SolveIvpLike I') (ts dt maxTime : ℝ) (hts : 0 ≤ ts) (hdt : 0 < dt) (s : EntryState)
    (hP : Planet.init name = .ok s.V.planet) (x : InitState)
    (hJ : s.segHeat.getLast? = some x.heatLoad0) (hx : s.hist.last x.heatLoad0 = .ok x)
    (ht : s.hist.t ≠ []) (hh : s.hdot ≠ []) (htS : s.tStep ≠ []) (hv : G.vSwitchKms < s.vAttr)
    (hmode : mode = .legacy ∨ x.heatLoad0 = 0)
    (h0 : s.V.planet.hTrap < x.h0Km * 1000) (h1 : x.h0Km ≤ s.V.planet.hSkip / 1000 - 2)
    (hdesc : x.v0Kms * 1000 * sin (x.gamma0Deg * (π / 180)) ≤ G.hdotThreshold)
    (htol : G.targetApoKmTol ≤ |G.targetApoKm|)
    (hF : F = Vehicle.drag2 G mode I' ∧ DivesWithin s.V I' x ts dt 0 ∨
      F = Vehicle.glide2 G mode I I' ∧ (∀ δ, DivesWithin s.V I' x ts dt δ) ∧ s.V.CL ≠ 0 ∧ s.V.A ≠ 0 ∧ x.v0Kms ≠ 0 ∧
        s.V.planet.density s.V.atm (x.h0Km * 1000) ≠ 0) :
    ∀ fuel, entryLoop G F mode ts dt maxTime fuel s = none := by
  intro fuel
  have h1' : x.h0Km * 1000 < s.V.planet.hSkip := by linarith
  have hprop : F.prop = fun V t dt delta => V.propogateEntry2 mode I' t dt delta := by
    rcases hF with ⟨rfl, -⟩ | ⟨rfl, -⟩ <;> rfl
  have hmar : F.margin ≤ 2 := by
    rcases hF with ⟨rfl, -⟩ | ⟨rfl, -⟩
    · change (1.0:ℝ) ≤ 2
      norm_num
    · change (2.0:ℝ) ≤ 2
      norm_num
  refine entryLoop_forever (fun W y => W.setInitialState x = s.V.setInitialState x ∧ y = x) ?_ ?_ ?_ htol fuel s _ x hJ hx
      ⟨rfl, rfl⟩ ht hh htS hv
  · rintro W y d ⟨hW, rfl⟩
    rcases hF with ⟨rfl, -⟩ | ⟨rfl, -, k1, k2, k3, k4⟩
    · exact ⟨_, rfl⟩
    · have hCL : W.CL = s.V.CL := (congrArg Vehicle.CL hW :)
      have hAA : W.A = s.V.A := (congrArg Vehicle.A hW :)
      have hat : W.atm = s.V.atm := (congrArg Vehicle.atm hW :)
      have hpl : W.planet = s.V.planet := (congrArg Vehicle.planet hW :)
      obtain ⟨cmd, hc, _⟩ := C40_glide_command W G y (by rw [hCL]; exact k1) (by rw [hAA]; exact k2) (by
        rw [hat, hpl, show (1000:ℝ) * y.h0Km = y.h0Km * 1000 by ring]
        have : 1000 * y.v0Kms ≠ 0 := mul_ne_zero (by norm_num) k3
        positivity)
      exact ⟨_, by simp only [Vehicle.glide2, Vehicle.glideBank, hc, bind, Except.bind, pure, Except.pure]; rfl⟩
  · rintro W y d r ⟨hW, rfl⟩ hr
    have hpl : W.planet = s.V.planet := (congrArg Vehicle.planet hW :)
    have hd : DivesWithin s.V I' y ts dt r.1 := by
      rcases hF with ⟨rfl, h⟩ | ⟨-, h, -⟩
      · have hr0 : ((0.0:ℝ), (none : Option ℝ)) = r := Except.ok.inj hr
        rw [← hr0, l00]
        exact h
      · exact h _
    obtain ⟨out, o1, o2, o3, o4, -, o6⟩ := segment_stalls (W := W) (by rw [hpl]; exact hP) hI hts hdt hmode
      (by rw [hpl]; exact h0) (by rw [hpl]; exact h1') (dives_congr hW hd)
    exact ⟨out, _, _, by rw [hprop]; exact o1, o2, o3, o4, o6 _, hW, rfl⟩
  · rintro W y ⟨hW, rfl⟩
    have hpl : W.planet = s.V.planet := (congrArg Vehicle.planet hW :)
    refine ⟨?_, ?_⟩
    · rw [show (1.000E3:ℝ) = 1000 by norm_num, show (180.0:ℝ) = 180 by norm_num, mul_div_assoc]; exact hdesc
    · rw [hpl]; linarith

/-! ### The exit phases -/

/-- If every cycle of an exit phase leads back to the state `x`, below the altitude where it stops, the loop never ends. -/
theorem exitLoop_forever {F : ExitPhase} {ts dt J hdotRef : ℝ} {x : InitState} {V₀ : Vehicle}
    (hprop : ∀ (W : Vehicle) (d : ℝ), W.setInitialState x = V₀.setInitialState x →
      ∃ out, F.prop (W.setInitialState x) ts dt (F.command d ts) = .ok out ∧ (Hist.ofOut out).last J = .ok x)
    (hstop : ¬ F.stop V₀.planet (x.h0Km * 1.0E3)) (hh : x.h0Km < V₀.planet.hSkip / 1.0E3) :
    ∀ (fuel : ℕ) (s : ExitState), s.V.setInitialState x = V₀.setInitialState x → s.hist.last J = .ok x →
      s.hCur = x.h0Km → s.hist.t ≠ [] → s.hdot ≠ [] → s.tStep ≠ [] → exitLoop F ts dt J hdotRef fuel s = none := by
  intro fuel
  induction fuel with
  | zero => intros; rfl
  | succ k ih =>
    intro s hV hx hc ht hhd htS
    have hpl : s.V.planet = V₀.planet := (congrArg Vehicle.planet hV :)
    obtain ⟨out, ho, hl⟩ := hprop s.V s.deltaIni hV
    obtain ⟨tEnd, htE⟩ := getLast_of_ne_nil ht
    obtain ⟨hdO, hhO⟩ := getLast_of_ne_nil hhd
    obtain ⟨tO, htO⟩ := getLast_of_ne_nil htS
    have e2 := extend_last (a := s.hist) (t := tEnd) hl
    have hs : ¬ F.stop (s.V.setInitialState x).planet (x.h0Km * 1.0E3) := by
      rw [hV]; exact hstop
    unfold exitLoop
    rw [if_pos (by rw [hc, hpl]; exact hh)]
    unfold exitCycle
    simp only [hx, liftPy, ho, pyLast_ok.mpr htE, pyLast_ok.mpr hhO, pyLast_ok.mpr htO, e2, Bind.bind, Except.bind,
      Pure.pure, Except.pure, decide_eq_false hs]
    refine ih _ ?_ e2 rfl ?_ ?_ ?_
    · exact hV
    · simp [Hist.extend, ht]
    · simp
    · simp

/-- C42 (finding): the same for the exit phases that use `solve_ivp`: in a state at least 10 km below the skip altitude, and
for `propogateExitPhaseD2` not below 20 km, from which the flight passes 88° below the horizontal within the first output step,
the loop never ends. -/
theorem C42_steep_exit_never_ends (name : String) (G : GuideParams) (mode : ScipyMode) (F : ExitPhase) (I' : Integrator)
    (hI : SolveIvpLike I') (ts dt hdotRef : ℝ) (hts : 0 ≤ ts) (hdt : 0 < dt) (s : ExitState)
    (hP : Planet.init name = .ok s.V.planet) (x : InitState) (hx : s.hist.last x.heatLoad0 = .ok x)
    (hc : s.hCur = x.h0Km) (ht : s.hist.t ≠ []) (hh : s.hdot ≠ []) (htS : s.tStep ≠ [])
    (hF : F = Vehicle.exit2 G mode I' ∧ (∀ δ, DivesWithin s.V I' x ts dt δ) ∨
      F = Vehicle.exitD2 mode I' ∧ DivesWithin s.V I' x ts dt 0 ∧ 20000 ≤ x.h0Km * 1000)
    (hmode : mode = .legacy ∨ x.heatLoad0 = 0)
    (h0 : s.V.planet.hTrap < x.h0Km * 1000) (h1 : x.h0Km * 1000 ≤ s.V.planet.hSkip - 10000) :
    ∀ fuel, exitLoop F ts dt x.heatLoad0 hdotRef fuel s = none := by
  intro fuel
  have hprop : F.prop = fun V t dt delta => V.propogateEntry2 mode I' t dt delta := by
    rcases hF with ⟨rfl, -⟩ | ⟨rfl, -⟩ <;> rfl
  refine exitLoop_forever (V₀ := s.V) (fun W d hW => ?_) ?_ ?_ fuel s rfl hx hc ht hh htS
  · have hpl : W.planet = s.V.planet := (congrArg Vehicle.planet hW :)
    have hd : DivesWithin s.V I' x ts dt (F.command d ts) := by
      rcases hF with ⟨-, h⟩ | ⟨rfl, h, -⟩
      · exact h _
      · change DivesWithin s.V I' x ts dt 0.0
        rw [l00]
        exact h
    obtain ⟨out, o1, -, -, -, -, o6⟩ := segment_stalls (W := W) (by rw [hpl]; exact hP) hI hts hdt hmode
      (by rw [hpl]; exact h0) (by rw [hpl]; linarith) (dives_congr hW hd)
    exact ⟨out, by rw [hprop]; exact o1, o6 _⟩
  · rcases hF with ⟨rfl, -⟩ | ⟨rfl, -, h20⟩
    · change ¬ (x.h0Km * 1.0E3 > s.V.planet.hSkip - 10.0E3)
      rw [show (1.0E3:ℝ) = 1000 by norm_num, show (10.0E3:ℝ) = 10000 by norm_num]
      linarith
    · change ¬ (x.h0Km * 1.0E3 > s.V.planet.hSkip - 1.0E3 ∨ x.h0Km * 1.0E3 < 20.0E3)
      rw [show (1.0E3:ℝ) = 1000 by norm_num, show (20.0E3:ℝ) = 20000 by norm_num]
      rintro (h | h) <;> linarith
  · rw [show (1.0E3:ℝ) = 1000 by norm_num, lt_div_iff₀ (by norm_num)]
    linarith

/-! ### Whole flights -/

/-- C42 (finding): a drag-modulation flight whose initial state is such a state never ends. -/
theorem C42_steep_flight_never_ends (name : String) (G : GuideParams) (mode : ScipyMode) (I' : Integrator)
    (hI : SolveIvpLike I') (V : Vehicle) (hP : Planet.init name = .ok V.planet) (hdotref : Option (List (Option ℝ)))
    (tsE tsX dt maxTime : ℝ) (hts : 0 ≤ tsE) (hdt : 0 < dt) (hmode : mode = .legacy ∨ V.init.heatLoad0 = 0)
    (h0 : V.planet.hTrap < V.init.h0Km * 1000) (h1 : V.init.h0Km ≤ V.planet.hSkip / 1000 - 2)
    (hdesc : V.init.v0Kms * 1000 * sin (V.init.gamma0Deg * (π / 180)) ≤ G.hdotThreshold)
    (htol : G.targetApoKmTol ≤ |G.targetApoKm|) (hsw : G.vSwitchKms < V.init.v0Kms)
    (hdive : ∀ tSec, (tSec = 1 ∨ tSec = tsE) → DivesWithin (V.setBeta G.beta1) I' V.init tSec dt 0) :
    ∀ fuel, Vehicle.propogateGuidedEntryD2 G mode I' fuel V hdotref tsE tsX dt maxTime = none := by
  intro fuel
  set W := V.setBeta G.beta1 with hW
  obtain ⟨p, hp⟩ := dives_samples (W := W) hP zero_le_one hdt (hdive 1 (Or.inl rfl))
  obtain ⟨out, o1, o2, o3, o4, o5, o6⟩ := segment_single name W hP mode I' hI 1 dt 0 hdt hmode h0
    (by change V.init.h0Km * 1000 < V.planet.hSkip; linarith) p hp
  have hstart : ∃ s, entryStart (Vehicle.drag2 G mode I') W hdotref dt = .ok s ∧
      s.segHeat.getLast? = some V.init.heatLoad0 ∧ s.hist.last V.init.heatLoad0 = .ok V.init ∧ s.V = W ∧ s.hist.t ≠ [] ∧
      s.hdot ≠ [] ∧ s.tStep ≠ [] ∧ s.vAttr = V.init.v0Kms := by
    unfold entryStart
    have e1 : (Vehicle.drag2 G mode I').prop W 1.0 dt 0.0 = .ok out := by
      rw [Lits.l10, Lits.l00]; exact o1
    obtain ⟨l1, -, -, l4, -⟩ := last_ok.mp (o6 V.init.heatLoad0)
    simp only [e1, liftPy, bind, Except.bind, pyLast_ok.mpr l1, pyLast_ok.mpr l4, pure, Except.pure]
    refine ⟨_, rfl, o4, o6 _, rfl, o5, by simp, by simp, rfl⟩
  obtain ⟨s, hs, s1, s2, s3, s4, s5, s6, s7⟩ := hstart
  have hpl : s.V.planet = V.planet := by rw [s3]; rfl
  have hloop := C42_steep_entry_never_ends name G mode (Vehicle.drag2 G mode I') I' I' hI tsE dt maxTime hts hdt s
    (by rw [hpl]; exact hP) V.init s1 s2 s4 s5 s6 (by rw [s7]; exact hsw) hmode (by rw [hpl]; exact h0) (by rw [hpl]; exact h1)
    hdesc htol (Or.inl ⟨rfl, by rw [s3]; exact hdive tsE (Or.inr rfl)⟩) fuel
  unfold Vehicle.propogateGuidedEntryD2 Vehicle.guided entryPhase
  rw [hs]
  simp only [hloop]

/-- C42 (finding), a case: at Mars, in the shipped atmosphere, a ballistic drag-modulation vehicle at about 50 km altitude on
a flight that passes 88° below the horizontal; `y` solves the equations of motion and the solver is exact. -/
theorem C42_steep_witness : ∃ (V : Vehicle) (G : GuideParams) (I' : Integrator) (y : ℝ → FState) (b dt : ℝ),
    Planet.init "MARS" = .ok V.planet ∧ LoadedCubic V.planet mars.km (fileRows mars) V.atm ∧ 0 < b ∧ 0 < dt ∧
    V.planet.nonDimState (Vehicle.entryState V.planet V.init) = y 0 ∧
    (∀ t ∈ Set.Icc 0 (2 * b), SolvesAt (fun x => (V.setBeta G.beta1).EOM x t (0 * π / 180.0)) y t) ∧
    StopsAtEvent hitEFPA90 I' (fun t s => (V.setBeta G.beta1).EOM2 t s (0 * π / 180.0)) (y 0)
      (Vehicle.tGrid V.planet 1 dt) y (2 * b) ∧
    SolveIvpLike I' ∧ (∀ δ, DivesWithin V I' V.init 1 dt δ) ∧ V.init.heatLoad0 = 0 ∧ 40 < V.init.h0Km ∧ V.init.h0Km < 60 ∧
    ∀ (mode : ScipyMode) (fuel : ℕ), Vehicle.propogateGuidedEntryD2 G mode I' fuel V none 1 1 dt 600 = none := by
  obtain ⟨P, atm, y, b, hP, hatm, hb, hsol, hyg, hys, hlow⟩ := mars_dive_flight
  obtain ⟨_, hR, _, _, _, _, _, _, hV, htau, -⟩ := C01_planet_consistent "MARS" P hP
  have hSk : P.hSkip = 120000 := by simp [Planet.init] at hP; subst hP; norm_num [Planet.withScales]
  have hTr : P.hTrap = 10000 := by simp [Planet.init] at hP; subst hP; norm_num [Planet.withScales]
  have hgv : ∀ t, hitEFPA90 (y t) = (y t).gamma - -(88 * (π / 180)) := fun t => by unfold hitEFPA90; ring
  set V := Vehicle.mk' 1000 100 0 10 0 1 P atm false demoCurve (startAt P (y 0)) with hVd
  let G : GuideParams := ⟨30, 75, 1, 0, 10, 20, 0, 250, 2000, 10, 100, 10⟩
  have hVb : V.setBeta G.beta1 = V := by
    simp only [hVd, G, Vehicle.setBeta, Vehicle.mk']
  have hstart : P.nonDimState (Vehicle.entryState P (startAt P (y 0))) = y 0 := startAt_ok hR hV (y 0)
  set I' : Integrator := fun _ y0 grid => match grid with
    | [] => []
    | a :: l => (a, y0) :: (l.takeWhile fun t => t ≤ 3 / 2 * b).map fun t => (t, y t) with hI'
  have hI : SolveIvpLike I' := by
    intro f y0 grid
    cases grid with
    | nil => simp [hI']
    | cons a l =>
      refine ⟨?_, by simp [hI'], by simp [hI']⟩
      simp only [hI', List.map_cons, List.map_map, Function.comp_def, List.map_id']
      exact List.prefix_cons_inj a |>.mpr (List.takeWhile_prefix _)
  have hbt : 0 < 2 * b * P.tau := by positivity
  have hgrid : ∃ l, Vehicle.tGrid P 1 (2 * b * P.tau) = 0 :: l ∧ ∀ t ∈ l, ¬ t ≤ 3 / 2 * b := by
    obtain ⟨g1, g2⟩ := tGrid_get "MARS" P hP 1 (2 * b * P.tau) zero_le_one hbt
    obtain ⟨a, l, hl⟩ : ∃ a l, Vehicle.tGrid P 1 (2 * b * P.tau) = a :: l :=
      List.exists_cons_of_length_pos (by omega)
    have ha : a = 0 := by
      have := g2 0 (by omega)
      rw [hl] at this
      simpa using this
    refine ⟨l, by rw [hl, ha], fun t htl => ?_⟩
    obtain ⟨i, hi, rfl⟩ := List.mem_iff_getElem.mp htl
    have hlen : l.length + 1 = ⌈1 / (2 * b * P.tau)⌉₊ + 1 := by rw [← g1, hl]; rfl
    have := g2 (i + 1) (by omega)
    rw [hl, List.getElem?_cons_succ, List.getElem?_eq_getElem hi, Option.some.injEq] at this
    rw [this, not_le, ← mul_assoc, mul_div_cancel_right₀ _ htau.ne']
    push_cast
    nlinarith [Nat.cast_nonneg (α := ℝ) i]
  obtain ⟨l, hl, hlt⟩ := hgrid
  have hse : ∀ δ, StopsAtEvent hitEFPA90 I' (fun t s => V.EOM2 t s (δ * π / 180.0)) (y 0)
      (Vehicle.tGrid P 1 (2 * b * P.tau)) y (2 * b) := by
    intro δ
    refine ⟨fun h => ?_, ?_⟩
    · have := h (3 / 2 * b) ⟨by positivity, by linarith⟩
      rw [hgv, hys] at this
      linarith
    · intro ts hts _ p2 _
      have : ts = 3 / 2 * b := by
        obtain ⟨q1, q2⟩ := hyg ts hts
        rw [hgv] at p2
        rcases lt_trichotomy ts (3 / 2 * b) with h | h | h
        · linarith [q1 h]
        · exact h
        · linarith [q2 h]
      rw [this, hl, List.filter_cons_of_pos (by simpa using hb.le), List.filter_eq_nil_iff.mpr (by simpa using hlt)]
      have : l.takeWhile (fun t => decide (t ≤ 3 / 2 * b)) = [] := by
        cases l with
        | nil => rfl
        | cons c l => rw [List.takeWhile_cons_of_neg (by simpa using hlt c (by simp))]
      simp only [hI', this, List.map_nil, List.map_cons]
  have m0 : (0:ℝ) ∈ Set.Icc 0 (2 * b) := ⟨le_rfl, by positivity⟩
  obtain ⟨k1, k2, k3⟩ := hlow 0 m0
  have hh : V.init.h0Km * 1000 = (y 0).r * P.RP - P.RP := by
    change ((y 0).r * P.RP - P.RP) / 1000 * 1000 = _
    rw [div_mul_cancel₀ _ (by norm_num)]
  have hv0 : 0 < V.init.v0Kms := by
    change 0 < (y 0).v * P.Vref / 1000
    have := (hsol 0 m0 (startAt P (y 0))).2.v
    positivity
  have hc0 := (hsol 0 m0 (startAt P (y 0))).2.gamma
  have hdive : ∀ δ, DivesWithin V I' V.init 1 (2 * b * P.tau) δ := by
    intro δ
    refine ⟨y, 2 * b, 3 / 2 * b, ?_, by positivity, by linarith, ?_, fun t ht => (hyg t ⟨ht.1, by linarith [ht.2]⟩).1 ht.2,
      hys, ?_⟩
    · have := hse δ
      rw [← hstart] at this
      exact this
    · change 3 / 2 * b * P.tau < 2 * b * P.tau
      nlinarith
    · rw [eventually_nhdsWithin_iff]
      filter_upwards [gt_mem_nhds (show 3 / 2 * b < 2 * b by linarith)] with t h1 h2
      have h2' : 3 / 2 * b < t := h2
      exact (hyg t ⟨by linarith, h1.le⟩).2 h2'
  refine ⟨V, G, I', y, b, 2 * b * P.tau, hP, hatm, hb, hbt, hstart, fun t ht => ?_, by rw [hVb]; exact hse 0, hI, hdive, rfl,
    by linarith, by linarith, fun mode => ?_⟩
  · rw [hVb]
    exact (hsol t ht (startAt P (y 0))).1
  · refine C42_steep_flight_never_ends "MARS" G mode I' hI V hP none 1 1 _ 600 zero_le_one hbt (Or.inr rfl)
      (by rw [hh]; change P.hTrap < _; rw [hTr]; linarith) (by change _ ≤ P.hSkip / 1000 - 2; rw [hSk]; linarith)
      ?_ (by norm_num [G]) hv0 (fun tSec ht => by
        obtain rfl : tSec = 1 := by simpa using ht
        rw [hVb]; exact hdive 0)
    have hs : sin (V.init.gamma0Deg * (π / 180)) ≤ 0 := by
      change sin ((y 0).gamma * 180 / π * (π / 180)) ≤ 0
      have hpi := pi_pos.ne'
      rw [show (y 0).gamma * 180 / π * (π / 180) = (y 0).gamma by field_simp]
      refine (sin_neg_of_neg_of_neg_pi_lt k1 ?_).le
      linarith [(hyg 0 m0).1 (by positivity), pi_pos]
    change _ ≤ (0:ℝ)
    exact mul_nonpos_of_nonneg_of_nonpos (by positivity) hs

/-- Case for `C42_steep_exit_never_ends`: the same vehicle as it begins an exit phase there. -/
example : ∃ (G : GuideParams) (I' : Integrator) (s : ExitState) (dt : ℝ), Planet.init "MARS" = .ok s.V.planet ∧ 0 < dt ∧
    ∀ (mode : ScipyMode) (fuel : ℕ), exitLoop (Vehicle.exitD2 mode I') 1 dt 0 0 fuel s = none ∧
      exitLoop (Vehicle.exit2 G mode I') 1 dt 0 0 fuel s = none := by
  obtain ⟨V, G, I', y, b, dt, hP, -, -, hdt, -, -, -, hI, hdive, hJ, ha, hb, -⟩ := C42_steep_witness
  have hSk : V.planet.hSkip = 120000 := by
    generalize V.planet = P at hP
    simp [Planet.init] at hP; subst hP; norm_num [Planet.withScales]
  have hTr : V.planet.hTrap = 10000 := by
    generalize V.planet = P at hP
    simp [Planet.init] at hP; subst hP; norm_num [Planet.withScales]
  let x := V.init
  let H : Hist := ⟨[0], [x.h0Km], [x.v0Kms], [x.phi0Deg], [x.psi0Deg], [x.theta0Deg], [x.gamma0Deg], [x.drange0Km], [some 0],
    [0], [0], [0], [0]⟩
  refine ⟨G, I', ⟨V, H, x.h0Km, 0, [0], [0], [0], [some 0], [some 0]⟩, dt, hP, hdt, fun mode fuel => ⟨?_, ?_⟩⟩
  · have := C42_steep_exit_never_ends "MARS" G mode (Vehicle.exitD2 mode I') I' hI 1 dt 0 zero_le_one hdt
      ⟨V, H, x.h0Km, 0, [0], [0], [0], [some 0], [some 0]⟩ hP x (by rw [last_ok]; simp [H]) rfl (by simp [H]) (by simp)
      (by simp) (Or.inr ⟨rfl, hdive 0, by linarith⟩) (Or.inr hJ) (by rw [hTr]; linarith) (by rw [hSk]; linarith) fuel
    rwa [hJ] at this
  · have := C42_steep_exit_never_ends "MARS" G mode (Vehicle.exit2 G mode I') I' hI 1 dt 0 zero_le_one hdt
      ⟨V, H, x.h0Km, 0, [0], [0], [0], [some 0], [some 0]⟩ hP x (by rw [last_ok]; simp [H]) rfl (by simp [H]) (by simp)
      (by simp) (Or.inl ⟨rfl, hdive⟩) (Or.inr hJ) (by rw [hTr]; linarith) (by rw [hSk]; linarith) fuel
    rwa [hJ] at this

end AMAT.Props
