import Verif.Model.MonteCarlo
import Verif.Props.GuidedResults

/-
C44: Monte Carlo runs.
-/

noncomputable section

namespace AMAT.Props

open Real AMAT

/-- The result of a guided simulation without the reference altitude-rate history. -/
def forget (o : GuidedOut) : GuidedOut := { o with fin := { o.fin with hdotref := [] } }

/-- A possibly unfinished result without that history. -/
def forgetRun (r : Option (Run GuidedOut)) : Option (Run GuidedOut) := r.map (fun x => x.map forget)

/-- An exit state without that history. -/
def forgetX (s : ExitState) : ExitState := { s with hdotref := [] }

theorem exitCycle_forget (F : ExitPhase) (ts dt J hr : ℝ) (s : ExitState) (l : List (Option ℝ)) :
    exitCycle F ts dt J hr { s with hdotref := l } =
      (exitCycle F ts dt J hr s).map (fun p => ({ p.1 with hdotref := l ++ [some hr] }, p.2)) := by
  unfold exitCycle
  simp only [bind, Except.bind]
  cases liftPy (s.hist.last J) with
  | error e => rfl
  | ok x =>
  simp only
  cases liftPy (F.prop (s.V.setInitialState x) ts dt (F.command s.deltaIni ts)) with
  | error e => rfl
  | ok out =>
  simp only
  cases liftPy (pyLast s.hist.t) with
  | error e => rfl
  | ok tEnd =>
  simp only
  cases liftPy (pyLast s.hdot) with
  | error e => rfl
  | ok a =>
  simp only
  cases liftPy (pyLast s.tStep) with
  | error e => rfl
  | ok b =>
  simp only
  cases liftPy ((s.hist.extend (Hist.ofOut out) tEnd).last J) with
  | error e => rfl
  | ok y => rfl

theorem exitLoop_forget (F : ExitPhase) (ts dt J hr : ℝ) : ∀ (fuel : ℕ) (s : ExitState) (l : List (Option ℝ)),
    (exitLoop F ts dt J hr fuel { s with hdotref := l }).map (fun x => x.map forgetX) =
      (exitLoop F ts dt J hr fuel s).map (fun x => x.map forgetX) := by
  intro fuel
  induction fuel with
  | zero => intro s l; rfl
  | succ k ih =>
    intro s l
    unfold exitLoop
    simp only
    split_ifs with hc
    · rw [exitCycle_forget]
      cases exitCycle F ts dt J hr s with
      | error e => rfl
      | ok p =>
        obtain ⟨s', b⟩ := p
        cases b with
        | true => rfl
        | false =>
          simp only [Except.map]
          exact ih s' _
    · rfl

theorem exitPhase_forget (G : GuideParams) (F : ExitPhase) (fuel : ℕ) (V : Vehicle) (s : EntryState)
    (h : Option (List (Option ℝ))) (ts dt : ℝ) :
    forgetRun (exitPhase G F fuel V { s with hdotref := h } ts dt) = forgetRun (exitPhase G F fuel V s ts dt) := by
  unfold exitPhase
  have e : exitStart V { s with hdotref := h } =
      (exitStart V s).map (fun p => ({ p.1 with hdotref := h.getD [none] }, p.2)) := by
    unfold exitStart
    simp only [bind, Except.bind]
    cases liftPy (pyLast s.hist.t) with
    | error e => rfl
    | ok tEnd =>
    cases liftPy (pyLast s.hist.h) with
    | error e => rfl
    | ok a =>
    cases liftPy (pyLast s.hist.v) with
    | error e => rfl
    | ok a =>
    cases liftPy (pyLast s.deltaDeg) with
    | error e => rfl
    | ok a =>
    cases liftPy (pyLast s.hdot) with
    | error e => rfl
    | ok a =>
    cases liftPy (pyLast s.hist.heatload) with
    | error e => rfl
    | ok a => rfl
  rw [e]
  cases exitStart V s with
  | error e => rfl
  | ok p =>
    obtain ⟨x, J, hr⟩ := p
    simp only [Except.map]
    have hl := exitLoop_forget F ts dt J hr fuel x (h.getD [none])
    have key : ∀ a b : ExitState, forgetX a = forgetX b →
        (exitResults G a).map forget = (exitResults G b).map forget := by
      intro a b hab
      have h1 : a.hist = b.hist := by simpa [forgetX] using congrArg ExitState.hist hab
      have h2 : a.V = b.V := by simpa [forgetX] using congrArg ExitState.V hab
      unfold exitResults
      rw [h1, h2]
      cases liftPy (b.hist.last 0) with
      | error e => rfl
      | ok y =>
        simp only [bind, Except.bind, pure, Except.pure, Except.map, forget]
        change ({ a with hdotref := [] } : ExitState) = { b with hdotref := [] } at hab
        rw [hab]
    revert hl
    cases h1 : exitLoop F ts dt J hr fuel { x with hdotref := h.getD [none] } with
    | none =>
      cases h2 : exitLoop F ts dt J hr fuel x with
      | none => intro _; rfl
      | some r => intro hl; simp at hl
    | some r =>
      cases h2 : exitLoop F ts dt J hr fuel x with
      | none => intro hl; simp at hl
      | some r' =>
        intro hl
        simp only [Option.map_some, Option.some.injEq] at hl
        cases r with
        | error e =>
          cases r' with
          | error e' => simp only [Except.map, Except.error.injEq] at hl; subst hl; rfl
          | ok b => simp [Except.map] at hl
        | ok a =>
          cases r' with
          | error e' => simp [Except.map] at hl
          | ok b =>
            simp only [Except.map, Except.ok.injEq] at hl
            simp only [forgetRun, Option.map_some]
            exact congrArg some (key a b hl)

theorem entryLoop_forget (G : GuideParams) (F : EntryPhase) (mode : ScipyMode) (ts dt mt : ℝ) (fuel : ℕ) (s : EntryState)
    (h : Option (List (Option ℝ))) :
    entryLoop G F mode ts dt mt fuel { s with hdotref := h } = entryLoop G F mode ts dt mt fuel s ∨
      entryLoop G F mode ts dt mt fuel { s with hdotref := h } = some (.ok { s with hdotref := h }) ∧
        entryLoop G F mode ts dt mt fuel s = some (.ok s) := by
  cases fuel with
  | zero => left; rfl
  | succ k =>
    by_cases hc : s.vAttr > G.vSwitchKms
    · left
      unfold entryLoop
      have : entryCycle G F mode ts dt mt { s with hdotref := h } = entryCycle G F mode ts dt mt s := rfl
      simp only [if_pos hc, this]
    · right
      unfold entryLoop
      simp only [if_neg hc, and_self]

/-- A guided simulation does not depend on the reference altitude-rate history left by an earlier one. -/
theorem guided_forget (G : GuideParams) (FE : EntryPhase) (FX : ExitPhase) (mode : ScipyMode) (fuel : ℕ) (V : Vehicle)
    (h h' : Option (List (Option ℝ))) (prep : Vehicle → Vehicle) (tsE tsX dt mt : ℝ) :
    forgetRun (Vehicle.guided G FE FX mode fuel V h prep tsE tsX dt mt) =
      forgetRun (Vehicle.guided G FE FX mode fuel V h' prep tsE tsX dt mt) := by
  unfold Vehicle.guided entryPhase
  have e : ∀ k, entryStart FE V k dt = (entryStart FE V none dt).map (fun s => { s with hdotref := k }) := by
    intro k
    unfold entryStart
    simp only [bind, Except.bind]
    cases liftPy (FE.prop V 1.0 dt 0.0) with
    | error e => rfl
    | ok out =>
    simp only
    cases liftPy (pyLast (Hist.ofOut out).h) with
    | error e => rfl
    | ok a =>
    simp only
    cases liftPy (pyLast (Hist.ofOut out).v) with
    | error e => rfl
    | ok a => rfl
  rw [e h, e h']
  cases entryStart FE V none dt with
  | error e => rfl
  | ok s =>
    simp only [Except.map]
    have step : ∀ k, forgetRun (match entryLoop G FE mode tsE dt mt fuel { s with hdotref := k } with
        | none => none
        | some (.error e) => some (.error e)
        | some (.ok s) => exitPhase G FX fuel (prep s.V) s tsX dt) =
        forgetRun (match entryLoop G FE mode tsE dt mt fuel s with
        | none => none
        | some (.error e) => some (.error e)
        | some (.ok s) => exitPhase G FX fuel (prep s.V) s tsX dt) := by
      intro k
      rcases entryLoop_forget G FE mode tsE dt mt fuel s k with h1 | ⟨h1, h2⟩
      · rw [h1]
      · rw [h1, h2]
        exact exitPhase_forget G FX fuel (prep s.V) s k tsX dt
    exact (step h).trans (step h').symm

/-! ### Independence of the runs -/

/-- The vehicle with its entry state, density profile and (`drag`) ballistic and drag coefficient blanked out: what is left
is what a run does not set itself. -/
def fixedPart (drag : Bool) (V : Vehicle) : Vehicle :=
  { V with
    init := ⟨0, 0, 0, 0, 0, 0, 0, 0⟩
    initRef := ⟨0, 0, 0, 0, 0, 0, 0, 0⟩
    atm := { V.atm with densityInt := fun _ => 0 }
    beta := if drag then 0 else V.beta
    CD := if drag then 0 else V.CD }

/-- The density profile of a run. -/
def mcDensity (S : MCSetup) (x : MCSample) : Py (ℝ → ℝ) :=
  (S.files x.file).bind fun rows => loadAtmosphereModel5 rows x.sigma S.NPOS x.profile

/-- The vehicle at the start of a run. -/
def mcReady (S : MCSetup) (V : Vehicle) (x : MCSample) (f : ℝ → ℝ) : Vehicle :=
  { V with atm := { V.atm with densityInt := f } }.setInitialState { S.base with gamma0Deg := x.efpa }

theorem mcPrepare_eq (S : MCSetup) (V : Vehicle) (x : MCSample) :
    mcPrepare S V x = (mcDensity S x).map (mcReady S V x) := by
  unfold mcPrepare mcDensity
  simp only [bind, Except.bind]
  cases S.files x.file with
  | error e => rfl
  | ok rows =>
    simp only [Except.map]
    cases loadAtmosphereModel5 rows x.sigma S.NPOS x.profile <;> rfl

/-- What makes runs independent: the flight depends on the fixed part of the vehicle only, and preserves it. -/
structure Independent (M : MCVariant) (drag : Bool) : Prop where
  fly : ∀ S V W x f fuel h h', fixedPart drag V = fixedPart drag W →
    forgetRun (M.fly fuel (mcReady S V x f) h) = forgetRun (M.fly fuel (mcReady S W x f) h')
  keep : ∀ S V x f fuel h o, M.fly fuel (mcReady S V x f) h = some (.ok o) → fixedPart drag o.fin.V = fixedPart drag V

theorem lift_independent (G : GuideParams) (mode : ScipyMode) (I I' : Integrator) (ts dt mt : ℝ) :
    Independent (Vehicle.runMonteCarlo G mode I ts dt mt) false ∧
    Independent (Vehicle.runMonteCarlo2 G mode I I' ts dt mt) false := by
  have hr : ∀ S V W x f, fixedPart false V = fixedPart false W → mcReady S V x f = mcReady S W x f := by
    intro S V W x f h
    have e : ∀ U, mcReady S U x f = mcReady S (fixedPart false U) x f := fun _ => rfl
    rw [e V, e W, h]
  refine ⟨⟨?_, ?_⟩, ⟨?_, ?_⟩⟩
  · intro S V W x f fuel h h' hVW
    simp only [Vehicle.runMonteCarlo, Vehicle.propogateGuidedEntry]
    rw [hr S V W x f hVW]
    exact guided_forget G _ _ mode fuel _ h h' _ _ _ _ _
  · intro S V x f fuel h o ho
    obtain ⟨i, r, e⟩ := (C77_rest_preserved_partial G mode I I fuel _ h ts ts dt mt o).1 (Or.inl ho)
    rw [e]; rfl
  · intro S V W x f fuel h h' hVW
    simp only [Vehicle.runMonteCarlo2, Vehicle.propogateGuidedEntry2]
    rw [hr S V W x f hVW]
    exact guided_forget G _ _ mode fuel _ h h' _ _ _ _ _
  · intro S V x f fuel h o ho
    obtain ⟨i, r, e⟩ := (C77_rest_preserved_partial G mode I I' fuel _ h ts ts dt mt o).1 (Or.inr ho)
    rw [e]; rfl

theorem drag_independent (G : GuideParams) (mode : ScipyMode) (I I' : Integrator) (ts tsX dt mt : ℝ) :
    Independent (Vehicle.runMonteCarloD G mode I ts tsX dt mt) true ∧
    Independent (Vehicle.runMonteCarloD2 G mode I' ts tsX dt mt) true := by
  have hr : ∀ S V W x f, fixedPart true V = fixedPart true W →
      (mcReady S V x f).setBeta G.beta1 = (mcReady S W x f).setBeta G.beta1 := by
    intro S V W x f h
    have e : ∀ U, (mcReady S U x f).setBeta G.beta1 = (mcReady S (fixedPart true U) x f).setBeta G.beta1 := fun _ => rfl
    rw [e V, e W, h]
  refine ⟨⟨?_, ?_⟩, ⟨?_, ?_⟩⟩
  · intro S V W x f fuel h h' hVW
    simp only [Vehicle.runMonteCarloD, Vehicle.propogateGuidedEntryD]
    rw [hr S V W x f hVW]
    exact guided_forget G _ _ mode fuel _ h h' _ _ _ _ _
  · intro S V x f fuel h o ho
    obtain ⟨i, r, b, c, e⟩ := (C77_rest_preserved_partial G mode I I fuel _ h ts tsX dt mt o).2 (Or.inl ho)
    rw [e]; rfl
  · intro S V W x f fuel h h' hVW
    simp only [Vehicle.runMonteCarloD2, Vehicle.propogateGuidedEntryD2]
    rw [hr S V W x f hVW]
    exact guided_forget G _ _ mode fuel _ h h' _ _ _ _ _
  · intro S V x f fuel h o ho
    obtain ⟨i, r, b, c, e⟩ := (C77_rest_preserved_partial G mode I I' fuel _ h ts tsX dt mt o).2 (Or.inr ho)
    rw [e]; rfl

theorem mcRecord_forget (heat : Hist → Py ℝ) (x : MCSample) (o o' : GuidedOut) (h : forget o = forget o') :
    mcRecord heat x o = mcRecord heat x o' := by
  have e : ∀ u, mcRecord heat x u = mcRecord heat x (forget u) := fun _ => rfl
  rw [e o, e o', h]

/-- Two runs with the same sample, from states with the same fixed part, store the same record. -/
theorem mcRun_congr {M : MCVariant} {drag : Bool} (hM : Independent M drag) (S : MCSetup) (fuel : ℕ) (s s' : MCState)
    (x : MCSample) (h : fixedPart drag s.V = fixedPart drag s'.V) :
    (mcRun M S fuel s x = none ∧ mcRun M S fuel s' x = none) ∨
    (∃ e, mcRun M S fuel s x = some (.error e) ∧ mcRun M S fuel s' x = some (.error e)) ∨
    (∃ t t' r, mcRun M S fuel s x = some (.ok (t, r)) ∧ mcRun M S fuel s' x = some (.ok (t', r)) ∧
      fixedPart drag t.V = fixedPart drag s.V ∧ fixedPart drag t'.V = fixedPart drag s.V) := by
  unfold mcRun
  rw [mcPrepare_eq, mcPrepare_eq]
  cases mcDensity S x with
  | error e => right; left; exact ⟨_, rfl, rfl⟩
  | ok f =>
    simp only [Except.map]
    have hf := hM.fly S s.V s'.V x f fuel s.hdotref s'.hdotref h
    have k1 := hM.keep S s.V x f fuel s.hdotref
    have k2 := hM.keep S s'.V x f fuel s'.hdotref
    revert hf k1 k2
    cases M.fly fuel (mcReady S s.V x f) s.hdotref with
    | none =>
      cases M.fly fuel (mcReady S s'.V x f) s'.hdotref with
      | none => intro _ _ _; left; exact ⟨rfl, rfl⟩
      | some b => intro hf; simp [forgetRun] at hf
    | some a =>
      cases M.fly fuel (mcReady S s'.V x f) s'.hdotref with
      | none => intro hf; simp [forgetRun] at hf
      | some b =>
        intro hf k1 k2
        simp only [forgetRun, Option.map_some, Option.some.injEq] at hf
        cases a with
        | error e =>
          cases b with
          | error e' =>
            simp only [Except.map, Except.error.injEq] at hf
            subst hf
            right; left; exact ⟨_, rfl, rfl⟩
          | ok b => simp [Except.map] at hf
        | ok a =>
          cases b with
          | error e' => simp [Except.map] at hf
          | ok b =>
            simp only [Except.map, Except.ok.injEq] at hf
            have hr := mcRecord_forget M.heat x a b hf
            have ka := k1 a rfl
            have kb := k2 b rfl
            simp only [hr]
            cases mcRecord M.heat x b with
            | error e => right; left; exact ⟨_, rfl, rfl⟩
            | ok r => right; right; exact ⟨_, _, _, rfl, rfl, ka, by rw [h]; exact kb⟩

/-- The loop depends on the fixed part of the vehicle only. -/
theorem mcLoop_congr {M : MCVariant} {drag : Bool} (hM : Independent M drag) (S : MCSetup) (fuel : ℕ) :
    ∀ (l : List MCSample) (s s' : MCState), fixedPart drag s.V = fixedPart drag s'.V →
      mcLoop M S fuel s l = mcLoop M S fuel s' l := by
  intro l
  induction l with
  | nil => intro s s' _; rfl
  | cons x l ih =>
    intro s s' h
    unfold mcLoop
    rcases mcRun_congr hM S fuel s s' x h with ⟨h1, h2⟩ | ⟨e, h1, h2⟩ | ⟨t, t', r, h1, h2, h3, h4⟩
    · rw [h1, h2]
    · rw [h1, h2]
    · rw [h1, h2]
      simp only
      rw [ih t t' (h3.trans h4.symm)]

/-- Simulations put one after the other: everything up to the first that does not end regularly. -/
def joined : List (List MCRecord × MCEnd) → List MCRecord × MCEnd
  | [] => ([], .done)
  | (R, .done) :: l => (R ++ (joined l).1, (joined l).2)
  | (R, .stopped e) :: _ => (R, .stopped e)
  | (R, .running) :: _ => (R, .running)

theorem mcLoop_joined {M : MCVariant} {drag : Bool} (hM : Independent M drag) (S : MCSetup) (fuel : ℕ) :
    ∀ (l : List MCSample) (s : MCState), mcLoop M S fuel s l = joined (l.map fun x => mcLoop M S fuel s [x]) := by
  intro l
  induction l with
  | nil => intro s; rfl
  | cons x l ih =>
    intro s
    rcases mcRun_congr hM S fuel s s x rfl with ⟨h1, -⟩ | ⟨e, h1, -⟩ | ⟨t, t', r, h1, -, h3, -⟩
    · simp only [List.map_cons, mcLoop, h1, joined]
    · simp only [List.map_cons, mcLoop, h1, joined]
    · have hl : mcLoop M S fuel t l = mcLoop M S fuel s l := mcLoop_congr hM S fuel l t s h3
      simp only [List.map_cons, mcLoop, h1, hl, joined]
      rw [ih s]
      rfl

/-- `M` is one of the run functions, with any parameters and integrators. -/
def IsRunFunction (M : MCVariant) (drag : Bool) : Prop :=
  ∃ (G : GuideParams) (mode : ScipyMode) (I I' : Integrator) (ts tsX dt mt : ℝ),
    (drag = false ∧ (M = Vehicle.runMonteCarlo G mode I ts dt mt ∨ M = Vehicle.runMonteCarlo2 G mode I I' ts dt mt)) ∨
    (drag = true ∧ (M = Vehicle.runMonteCarloD G mode I ts tsX dt mt ∨ M = Vehicle.runMonteCarloD2 G mode I' ts tsX dt mt))

theorem run_independent {M : MCVariant} {drag : Bool} (h : IsRunFunction M drag) : Independent M drag := by
  obtain ⟨G, mode, I, I', ts, tsX, dt, mt, ⟨rfl, rfl | rfl⟩ | ⟨rfl, rfl | rfl⟩⟩ := h
  · exact (lift_independent G mode I I' ts dt mt).1
  · exact (lift_independent G mode I I' ts dt mt).2
  · exact (drag_independent G mode I I' ts tsX dt mt).1
  · exact (drag_independent G mode I I' ts tsX dt mt).2

/-- C44: every Monte Carlo run function, for every list of samples, stores exactly the records of the single runs, each
started from the initial vehicle, up to the first run that fails; nothing carries over from one run to the next. -/
theorem C44_runs_independent (M : MCVariant) (drag : Bool) (hM : IsRunFunction M drag) (S : MCSetup) (fuel : ℕ)
    (s : MCState) (l : List MCSample) :
    mcLoop M S fuel s l = joined (l.map fun x => mcLoop M S fuel s [x]) :=
  mcLoop_joined (run_independent hM) S fuel l s

/-- C44: if a simulation completes, its `i`-th record is the record of a simulation consisting of the `i`-th sample
alone. -/
theorem C44_record_of_sample (M : MCVariant) (drag : Bool) (hM : IsRunFunction M drag) (S : MCSetup) (fuel : ℕ)
    (s : MCState) (l : List MCSample) (R : List MCRecord) (h : mcLoop M S fuel s l = (R, .done)) :
    R.length = l.length ∧ ∀ (i : ℕ) (x : MCSample), l[i]? = some x → ∃ r, R[i]? = some r ∧ r.sample = x ∧
      mcLoop M S fuel s [x] = ([r], .done) := by
  have hi := run_independent hM
  induction l generalizing s R with
  | nil =>
    simp only [mcLoop, Prod.mk.injEq] at h
    refine ⟨by rw [← h.1]; rfl, fun i x hx => by simp at hx⟩
  | cons y l ih =>
    rcases mcRun_congr hi S fuel s s y rfl with ⟨h1, -⟩ | ⟨e, h1, -⟩ | ⟨t, t', r, h1, -, h3, -⟩
    · simp [mcLoop, h1] at h
    · simp [mcLoop, h1] at h
    · have hl : mcLoop M S fuel t l = mcLoop M S fuel s l := mcLoop_congr hi S fuel l t s h3
      simp only [mcLoop, h1, hl] at h
      obtain ⟨rfl, h2⟩ := Prod.mk.inj h
      obtain ⟨k1, k2⟩ := ih s (mcLoop M S fuel s l).1 (Prod.ext rfl h2)
      refine ⟨by simp [k1], ?_⟩
      intro i x hx
      cases i with
      | zero =>
        simp only [List.getElem?_cons_zero, Option.some.injEq] at hx
        subst hx
        refine ⟨r, rfl, ?_, by simp [mcLoop, h1]⟩
        unfold mcRun at h1
        split at h1
        · simp at h1
        split at h1
        · simp at h1
        · simp at h1
        split at h1
        · simp at h1
        next hrec =>
          simp only [Option.some.injEq, Except.ok.injEq, Prod.mk.injEq] at h1
          obtain ⟨-, rfl⟩ := h1
          unfold mcRecord at hrec
          simp only [except_bind_ok, pure, Except.pure, Except.ok.injEq] at hrec
          obtain ⟨_, _, _, _, _, _, rfl⟩ := hrec
          rfl
      | succ k =>
        rw [List.getElem?_cons_succ] at hx ⊢
        exact k2 k x hx

/-- C44: the order of the samples does not matter for a simulation that completes. -/
theorem C44_order_irrelevant (M : MCVariant) (drag : Bool) (hM : IsRunFunction M drag) (S : MCSetup) (fuel : ℕ)
    (s : MCState) (l l' : List MCSample) (hp : l.Perm l') (R : List MCRecord) (h : mcLoop M S fuel s l = (R, .done)) :
    ∃ R', mcLoop M S fuel s l' = (R', .done) ∧ R.Perm R' := by
  rw [C44_runs_independent M drag hM] at h ⊢
  have gen : ∀ (a b : List (List MCRecord × MCEnd)) (R : List MCRecord), a.Perm b → joined a = (R, .done) →
      ∃ R', joined b = (R', .done) ∧ R.Perm R' := by
    have all : ∀ (a : List (List MCRecord × MCEnd)) (R : List MCRecord), joined a = (R, .done) ↔
        (∀ p ∈ a, p.2 = .done) ∧ R = a.flatMap Prod.fst := by
      intro a
      induction a with
      | nil => intro R; simp [joined, eq_comm]
      | cons p a ih =>
        intro R
        obtain ⟨Q, e⟩ := p
        cases e with
        | done =>
          have := ih (joined a).1
          simp only [joined, Prod.mk.injEq, List.mem_cons, forall_eq_or_imp, true_and, List.flatMap_cons]
          constructor
          · rintro ⟨rfl, h2⟩
            obtain ⟨h3, h4⟩ := this.mp (Prod.ext rfl h2)
            exact ⟨h3, by rw [← h4]⟩
          · rintro ⟨h3, rfl⟩
            have h5 := (ih (a.flatMap Prod.fst)).mpr ⟨h3, rfl⟩
            rw [h5]
            exact ⟨rfl, rfl⟩
        | stopped e => simp [joined]
        | running => simp [joined]
    intro a b R hab h
    obtain ⟨h1, rfl⟩ := (all a R).mp h
    exact ⟨_, (all b _).mpr ⟨fun p hp => h1 p (hab.mem_iff.mpr hp), rfl⟩, hab.flatMap_right _⟩
  exact gen _ _ R (hp.map _) h

/-! ### What the samples do -/

theorem mcRun_inv {M : MCVariant} {S : MCSetup} {fuel : ℕ} {s t : MCState} {x : MCSample} {r : MCRecord}
    (h : mcRun M S fuel s x = some (.ok (t, r))) :
    ∃ rows f o, S.files x.file = .ok rows ∧ loadAtmosphereModel5 rows x.sigma S.NPOS x.profile = .ok f ∧
      M.fly fuel (mcReady S s.V x f) s.hdotref = some (.ok o) ∧ mcRecord M.heat x o = .ok r ∧
      t = { V := o.fin.V, hdotref := some o.fin.hdotref, last := some o } := by
  unfold mcRun mcPrepare at h
  simp only [bind, Except.bind] at h
  cases h1 : S.files x.file with
  | error e => simp [h1] at h
  | ok rows =>
    simp only [h1] at h
    cases h2 : loadAtmosphereModel5 rows x.sigma S.NPOS x.profile with
    | error e => simp [h2] at h
    | ok f =>
      simp only [h2, pure, Except.pure] at h
      split at h
      · simp at h
      · simp at h
      next o ho =>
        split at h
        · simp at h
        next r' hr =>
          simp only [Option.some.injEq, Except.ok.injEq, Prod.mk.injEq] at h
          obtain ⟨rfl, rfl⟩ := h
          exact ⟨rows, f, o, rfl, h2, ho, hr, rfl⟩

theorem mcRecord_inv {heat : Hist → Py ℝ} {x : MCSample} {o : GuidedOut} {r : MCRecord} (h : mcRecord heat x o = .ok r) :
    r.sample = x ∧ r.apoapsis = o.apoapsis ∧ r.percError = o.percError ∧ r.periapsis = o.periapsis ∧
    r.periapsisRaiseDV = o.periapsisRaiseDV ∧ r.apoapsisRaiseDV = o.apoapsisRaiseDV ∧
    pyMax o.fin.hist.qStagTotal = .ok r.qStagMax ∧ heat o.fin.hist = .ok r.heatloadMax := by
  unfold mcRecord at h
  simp only [except_bind_ok, pure, Except.pure, Except.ok.injEq] at h
  obtain ⟨_, _, _, hq, _, hj, rfl⟩ := h
  exact ⟨rfl, rfl, rfl, rfl, rfl, rfl, hq, hj⟩

/-- C44: entry angle, atmosphere file, profile number and sigma are used.  A completed run has flown a trajectory that
begins in the reference entry state with the sampled entry angle, in the density profile made from the sampled file, number
and sigma, and what is stored for it are the results of that flight. -/
theorem C44_samples_used (name : String) (G : GuideParams) (mode : ScipyMode) (I I' : Integrator) (hI : SolveIvpLike I)
    (hI' : SolveIvpLike I') (ts tsX dt mt : ℝ) (hdt : 0 < dt) (M : MCVariant)
    (hM : M = Vehicle.runMonteCarlo G mode I ts dt mt ∨ M = Vehicle.runMonteCarlo2 G mode I I' ts dt mt ∨
      M = Vehicle.runMonteCarloD G mode I ts tsX dt mt ∨ M = Vehicle.runMonteCarloD2 G mode I' ts tsX dt mt)
    (S : MCSetup) (fuel : ℕ) (s t : MCState) (hP : Planet.init name = .ok s.V.planet) (x : MCSample) (r : MCRecord)
    (h : mcRun M S fuel s x = some (.ok (t, r))) :
    ∃ rows f o pts, S.files x.file = .ok rows ∧ loadAtmosphereModel5 rows x.sigma S.NPOS x.profile = .ok f ∧
      t.last = some o ∧ o.fin.V.atm.densityInt = f ∧ Spec.Records o.fin.hist pts ∧
      Spec.Continuous { S.base with gamma0Deg := x.efpa } pts ∧
      r.sample = x ∧ r.apoapsis = o.apoapsis ∧ r.percError = o.percError ∧ r.periapsis = o.periapsis ∧
      r.periapsisRaiseDV = o.periapsisRaiseDV ∧ r.apoapsisRaiseDV = o.apoapsisRaiseDV := by
  obtain ⟨rows, f, o, h1, h2, h3, h4, rfl⟩ := mcRun_inv h
  obtain ⟨r1, r2, r3, r4, r5, r6, _, _⟩ := mcRecord_inv h4
  obtain ⟨pts, p1, p2⟩ := C43_histories_continuous name G mode I I' hI hI' fuel (mcReady S s.V x f) hP s.hdotref ts tsX dt mt
    hdt o (by
      rcases hM with rfl | rfl | rfl | rfl
      · exact Or.inl h3
      · exact Or.inr (Or.inl h3)
      · exact Or.inr (Or.inr (Or.inl h3))
      · exact Or.inr (Or.inr (Or.inr h3)))
  refine ⟨rows, f, o, pts, h1, h2, rfl, ?_, p1, p2, r1, r2, r3, r4, r5, r6⟩
  have k := C77_rest_preserved_partial G mode I I' fuel (mcReady S s.V x f) s.hdotref ts tsX dt mt o
  rcases hM with rfl | rfl | rfl | rfl
  · obtain ⟨_, _, e⟩ := k.1 (Or.inl h3); rw [e]; rfl
  · obtain ⟨_, _, e⟩ := k.1 (Or.inr h3); rw [e]; rfl
  · obtain ⟨_, _, _, _, e⟩ := k.2 (Or.inl h3); rw [e]; rfl
  · obtain ⟨_, _, _, _, e⟩ := k.2 (Or.inr h3); rw [e]; rfl

/-- C44 (finding): the sampled L/D is logged but has no effect.  For every choice `g` of other L/D samples, all runs give
the same results; only the logged number differs. -/
theorem C44_LD_ignored (M : MCVariant) (S : MCSetup) (fuel : ℕ) (g : MCSample → ℝ) (l : List MCSample) (s : MCState) :
    mcLoop M S fuel s (l.map fun x => { x with LD := g x }) =
      ((mcLoop M S fuel s l).1.map (fun r => { r with sample := { r.sample with LD := g r.sample } }),
        (mcLoop M S fuel s l).2) := by
  have one : ∀ s x, mcRun M S fuel s { x with LD := g x } = (mcRun M S fuel s x).map (fun y => y.map (fun p =>
      (p.1, { p.2 with sample := { p.2.sample with LD := g p.2.sample } }))) := by
    intro s x
    unfold mcRun
    have e1 : mcPrepare S s.V { x with LD := g x } = mcPrepare S s.V x := rfl
    rw [e1]
    cases mcPrepare S s.V x with
    | error e => rfl
    | ok V =>
      simp only
      cases M.fly fuel V s.hdotref with
      | none => rfl
      | some r =>
        cases r with
        | error e => rfl
        | ok o =>
          simp only
          have e2 : mcRecord M.heat { x with LD := g x } o =
              (mcRecord M.heat x o).map (fun r => { r with sample := { r.sample with LD := g r.sample } }) := by
            unfold mcRecord
            simp only [bind, Except.bind]
            cases maxAcc o.fin.hist.accNetG with
            | error e => rfl
            | ok a =>
              simp only
              cases pyMax o.fin.hist.qStagTotal with
              | error e => rfl
              | ok q =>
                simp only
                cases M.heat o.fin.hist <;> rfl
          rw [e2]
          cases mcRecord M.heat x o <;> rfl
  induction l generalizing s with
  | nil => rfl
  | cons x l ih =>
    simp only [List.map_cons, mcLoop, one]
    cases mcRun M S fuel s x with
    | none => rfl
    | some r =>
      cases r with
      | error e => rfl
      | ok p =>
        obtain ⟨t, r⟩ := p
        simp only [Option.map_some, Except.map, ih t, List.map_cons]

/-- C44 (finding): whatever is sampled, the vehicle flown has the L/D and lift coefficient it was created with; and the
drag-modulation runs always fly the ballistic coefficients of the guidance settings, although a dispersion of the ballistic
coefficient is asked for at set-up. -/
theorem C44_vehicle_not_dispersed (G : GuideParams) (mode : ScipyMode) (I I' : Integrator) (ts tsX dt mt : ℝ)
    (M : MCVariant) (S : MCSetup) (fuel : ℕ) (s t : MCState) (x : MCSample) (r : MCRecord)
    (h : mcRun M S fuel s x = some (.ok (t, r))) :
    ((M = Vehicle.runMonteCarlo G mode I ts dt mt ∨ M = Vehicle.runMonteCarlo2 G mode I I' ts dt mt) →
      t.V.LD = s.V.LD ∧ t.V.CL = s.V.CL ∧ t.V.CD = s.V.CD ∧ t.V.mass = s.V.mass) ∧
    ((M = Vehicle.runMonteCarloD G mode I ts tsX dt mt ∨ M = Vehicle.runMonteCarloD2 G mode I' ts tsX dt mt) →
      t.V.beta = G.beta1 * G.betaRatio ∧ t.V.CL = s.V.CL ∧ t.V.mass = s.V.mass) := by
  obtain ⟨rows, f, o, h1, h2, h3, h4, rfl⟩ := mcRun_inv h
  have k := C77_rest_preserved_partial G mode I I' fuel (mcReady S s.V x f) s.hdotref ts tsX dt mt o
  constructor
  · rintro (rfl | rfl)
    · obtain ⟨_, _, e⟩ := k.1 (Or.inl h3); simp only [e]; exact ⟨rfl, rfl, rfl, rfl⟩
    · obtain ⟨_, _, e⟩ := k.1 (Or.inr h3); simp only [e]; exact ⟨rfl, rfl, rfl, rfl⟩
  · rintro (rfl | rfl)
    · simp only [Vehicle.runMonteCarloD, Vehicle.propogateGuidedEntryD] at h3
      rcases guided_vehicle (fun _ _ => rfl) h3 with e | ⟨_, e⟩ <;>
      · simp only [e]; exact ⟨rfl, rfl, rfl⟩
    · simp only [Vehicle.runMonteCarloD2, Vehicle.propogateGuidedEntryD2] at h3
      rcases guided_vehicle (fun _ _ => rfl) h3 with e | ⟨_, e⟩ <;>
      · simp only [e]; exact ⟨rfl, rfl, rfl⟩

/-- Rows of constant density make a profile of constant density. -/
theorem constant_profile : ∃ f, loadAtmosphereModel5 [⟨0, 1, 1, 1, 0⟩, ⟨200000, 1, 1, 1, 0⟩] 0 2 1 = .ok f ∧
    (∀ x, 0 ≤ x → x ≤ 200000 → f x = 1) ∧ ∀ x, 0 ≤ f x := by
  let nodes : List (ℝ × ℝ) := [(0, 1), (200000, 1)]
  have hn : (profileSlice ([⟨0, 1, 1, 1, 0⟩, ⟨200000, 1, 1, 1, 0⟩] : List DensRow) 2 1).map
      (fun row => (row.height, mcDensity5 row 0)) = nodes := by
    simp [profileSlice, nodes, mcDensity5]
  obtain ⟨f, hf⟩ := (C05_table_accepted nodes 0 0).mpr (by simp [nodes])
  have hin : ∀ x, 0 ≤ x → x ≤ 200000 → f x = 1 := ?_
  · refine ⟨f, by unfold loadAtmosphereModel5; rw [hn]; exact hf, hin, fun x => ?_⟩
    obtain ⟨o1, o2⟩ := C05_table_outside nodes 0 0 f hf x
    rcases lt_or_ge x 0 with h | h
    · rw [o1 (by simp only [nodes, List.mem_cons, List.not_mem_nil, or_false, forall_eq_or_imp, forall_eq]; constructor <;> linarith)]
    · rcases lt_or_ge 200000 x with h' | h'
      · rw [o2 (by simp only [nodes, List.mem_cons, List.not_mem_nil, or_false, forall_eq_or_imp, forall_eq]; constructor <;> linarith)]
      · rw [hin x h h']; exact zero_le_one
  intro x h0 h1
  have := C05_table_bounds nodes 0 0 f hf (by simp [nodes]) 1 1 (by simp [nodes]) x ⟨(0, 1), by simp [nodes], h0⟩
    ⟨(200000, 1), by simp [nodes], h1⟩
  linarith [this.1, this.2]

/-- A completed flight makes a completed run. -/
theorem mcRun_of_flight {M : MCVariant} {S : MCSetup} {fuel : ℕ} {s : MCState} {x : MCSample} {f : ℝ → ℝ} {o : GuidedOut}
    {pts : List Spec.Pt} (hd : mcDensity S x = .ok f) (hfly : M.fly fuel (mcReady S s.V x f) s.hdotref = some (.ok o))
    (hp : Spec.Records o.fin.hist pts) (hne : pts ≠ []) (hheat : ∃ j, M.heat o.fin.hist = .ok j) :
    ∃ r, mcRun M S fuel s x = some (.ok (⟨o.fin.V, some o.fin.hdotref, some o⟩, r)) := by
  have nonempty : ∀ {α : Type} (l : List α), l.length = pts.length → l ≠ [] := by
    rintro α l h rfl
    exact hne (List.length_eq_zero_iff.mp h.symm)
  have mx : ∀ l : List ℝ, l ≠ [] → ∃ m, pyMax l = .ok m := by
    intro l h
    cases l with
    | nil => exact absurd rfl h
    | cons a l => exact ⟨_, rfl⟩
  obtain ⟨q, hq⟩ := mx _ (nonempty _ hp.qStagTotal)
  obtain ⟨j, hj⟩ := hheat
  obtain ⟨a, ha⟩ : ∃ a, maxAcc o.fin.hist.accNetG = .ok a := by
    unfold maxAcc
    cases hm : o.fin.hist.accNetG.mapM id with
    | none => exact ⟨none, rfl⟩
    | some r =>
      obtain ⟨m, hm'⟩ := mx r (by
        have hl := nonempty _ hp.accNetG
        rintro rfl
        cases hA : o.fin.hist.accNetG with
        | nil => exact hl hA
        | cons b l =>
          rw [hA, List.mapM_cons] at hm
          cases b with
          | none => simp at hm
          | some b =>
            cases hL : l.mapM id <;> simp [hL] at hm)
      exact ⟨some m, by simp only [hm']; rfl⟩
  unfold mcRun
  rw [mcPrepare_eq, hd]
  simp only [Except.map, hfly]
  obtain ⟨rec, hrec⟩ : ∃ rec, mcRecord M.heat x o = .ok rec := by
    unfold mcRecord
    simp only [ha, hq, hj, bind, Except.bind]
    exact ⟨_, rfl⟩
  simp only [hrec]
  exact ⟨_, rfl⟩

/-- Case for `C44_samples_used`, `C44_vehicle_not_dispersed`, `C44_runs_independent`, `C44_record_of_sample`,
`C44_order_irrelevant`, `C79_rest_preserved_partial` and `C79_density_of_last_sample`: two completed runs with different samples of L/D, at Mars, with the SciPy version of the lock
file. -/
theorem C44_example : ∃ (P : Planet) (S : MCSetup) (s : MCState) (x y : MCSample) (R : List MCRecord),
    Planet.init "MARS" = .ok P ∧ s.V.planet = P ∧ x.LD ≠ y.LD ∧ OdeintLike (exampleIntegrator P) ∧
    mcLoop (Vehicle.runMonteCarlo exampleGuide .strict (exampleIntegrator P) 1 0.1 600) S 3 s [x, y] = (R, .done) ∧
    R.length = 2 := by
  obtain ⟨P, hP⟩ := (C01_planet_names "MARS").1.mpr (by simp [Spec.bodies])
  let rows : List DensRow := [⟨0, 1, 1, 1, 0⟩, ⟨200000, 1, 1, 1, 0⟩]
  let V0 := exampleVehicle P ⟨fun _ => 1, fun _ => 1, fun _ => 1, fun _ => 1⟩ 4
  let S : MCSetup := V0.setupMonteCarlo (fun _ => .ok rows) 2
  let smp : ℝ → MCSample := fun l => ⟨"profiles.txt", 1, -90, 0, l⟩
  obtain ⟨f, hf, hf1⟩ : ∃ f, loadAtmosphereModel5 rows 0 2 1 = .ok f ∧ ∀ x, 0 ≤ x → x ≤ 200000 → f x = 1 := by
    obtain ⟨f, h1, h2, -⟩ := constant_profile
    exact ⟨f, h1, h2⟩
  let M := Vehicle.runMonteCarlo exampleGuide .strict (exampleIntegrator P) 1 0.1 600
  have hI : OdeintLike (exampleIntegrator P) := jumpIntegrator_ok _
  have one : ∀ l, ∃ t r, mcRun M S 3 ⟨V0, none, none⟩ (smp l) = some (.ok (t, r)) := by
    intro l
    obtain ⟨o, ho, -, hl, -⟩ := guided_run P hP 4 (by norm_num) ⟨f, fun _ => 1, fun _ => 1, fun _ => 1⟩ (by
      show 0 < f 119000; rw [hf1 _ (by norm_num) (by norm_num)]; norm_num)
    obtain ⟨pts, hp, -⟩ := C43_histories_continuous "MARS" exampleGuide .strict _ _ (OdeintLike.toIvp hI)
      (OdeintLike.toIvp hI) 3 (exampleVehicle P ⟨f, fun _ => 1, fun _ => 1, fun _ => 1⟩ 4) hP none 1 1 0.1 600 (by norm_num)
      o (Or.inl ho)
    have hne : pts ≠ [] := by
      rintro rfl
      have := (last_ok.mp hl).1
      rw [hp.h] at this
      simp at this
    obtain ⟨r, h⟩ := mcRun_of_flight (M := M) (S := S) (s := ⟨V0, none, none⟩) (x := smp l) hf ho hp hne (by
      obtain ⟨m, hm, -⟩ := pyMax_spec (l := o.fin.hist.heatload) (by
        rintro h
        have := hp.heatload
        rw [h] at this
        exact hne (List.length_eq_zero_iff.mp this.symm))
      exact ⟨m, hm⟩)
    exact ⟨_, r, h⟩
  obtain ⟨t, r, h1⟩ := one 1
  obtain ⟨t', r', h2⟩ := one 2
  have hM : IsRunFunction M false := ⟨exampleGuide, .strict, exampleIntegrator P, exampleIntegrator P, 1, 1, 0.1, 600,
    Or.inl ⟨rfl, Or.inl rfl⟩⟩
  refine ⟨P, S, ⟨V0, none, none⟩, smp 1, smp 2, [r, r'], hP, rfl, by norm_num [smp], hI, ?_, rfl⟩
  rw [C44_runs_independent M false hM]
  simp [mcLoop, h1, h2, joined]

/-- C44 (finding): the set-up copies the reference entry state the vehicle has at that moment, which every guidance cycle
overwrites (C77): a simulation set up after a guided entry from 100 km starts its runs at 119 km, whatever is sampled. -/
theorem C44_setup_after_run : ∃ (P : Planet) (V : Vehicle) (o : GuidedOut), Planet.init "MARS" = .ok P ∧ V.planet = P ∧
    V.init.h0Km = 100 ∧ OdeintLike (exampleIntegrator P) ∧
    Vehicle.propogateGuidedEntry exampleGuide .strict (exampleIntegrator P) 3 V none 1 0.1 600 = some (.ok o) ∧
    ∀ (files : String → Py (List DensRow)) (N : ℕ) (x : MCSample) (W : Vehicle),
      mcPrepare (o.fin.V.setupMonteCarlo files N) o.fin.V x = .ok W → W.init.h0Km = 119 ∧ W.init.gamma0Deg = x.efpa := by
  obtain ⟨P, hP⟩ := (C01_planet_names "MARS").1.mpr (by simp [Spec.bodies])
  obtain ⟨o, h1, -, -, h4⟩ := guided_run P hP 4 (by norm_num) ⟨fun _ => 1, fun _ => 1, fun _ => 1, fun _ => 1⟩ one_pos
  refine ⟨P, _, o, hP, rfl, rfl, jumpIntegrator_ok _, h1, fun files N x W hW => ?_⟩
  rw [mcPrepare_eq] at hW
  cases hd : mcDensity (o.fin.V.setupMonteCarlo files N) x with
  | error e => rw [hd] at hW; cases hW
  | ok f =>
    rw [hd] at hW
    simp only [Except.map, Except.ok.injEq] at hW
    subst hW
    exact ⟨h4, rfl⟩

end AMAT.Props
