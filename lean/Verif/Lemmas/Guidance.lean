import Verif.Model.Guidance
import Verif.Lemmas.Lits

/-
Inversion lemmas for the guided-entry model.
-/

noncomputable section

namespace AMAT

open Real

theorem except_bind_ok {ε α β : Type} {x : Except ε α} {f : α → Except ε β} {b : β} :
    (x >>= f) = .ok b ↔ ∃ a, x = .ok a ∧ f a = .ok b := by
  cases x with
  | error e => simp [bind, Except.bind]
  | ok a => simp [bind, Except.bind]

theorem liftPy_ok {α : Type} {x : Py α} {a : α} : liftPy x = .ok a ↔ x = .ok a := by
  cases x <;> simp [liftPy]

theorem liftPy_error {α : Type} {x : Py α} {e : Stop} : liftPy x = .error e ↔ ∃ p, e = .raised p ∧ x = .error p := by
  cases x with
  | error p => simp [liftPy, eq_comm]
  | ok a => simp [liftPy]

theorem finite_ok {α : Type} {x : Option α} {a : α} : finite x = .ok a ↔ x = some a := by
  cases x <;> simp [finite]

theorem pyLast_ok {α : Type} {l : List α} {a : α} : pyLast l = .ok a ↔ l.getLast? = some a := by
  unfold pyLast; cases l.getLast? <;> simp

theorem last_ok {H : Hist} {J : ℝ} {x : InitState} : H.last J = .ok x ↔
    H.h.getLast? = some x.h0Km ∧ H.theta.getLast? = some x.theta0Deg ∧ H.phi.getLast? = some x.phi0Deg ∧
    H.v.getLast? = some x.v0Kms ∧ H.psi.getLast? = some x.psi0Deg ∧ H.gamma.getLast? = some x.gamma0Deg ∧
    H.drange.getLast? = some x.drange0Km ∧ x.heatLoad0 = J := by
  unfold Hist.last
  simp only [except_bind_ok, pyLast_ok, pure, Except.pure, Except.ok.injEq]
  constructor
  · rintro ⟨a, h1, b, h2, c, h3, d, h4, e, h5, f, h6, g, h7, rfl⟩
    exact ⟨h1, h2, h3, h4, h5, h6, h7, rfl⟩
  · rintro ⟨h1, h2, h3, h4, h5, h6, h7, h8⟩
    exact ⟨_, h1, _, h2, _, h3, _, h4, _, h5, _, h6, _, h7, by ext <;> simp [h8]⟩

/-- Everything a successful turn of the entry loop does. -/
theorem entryCycle_inv {G : GuideParams} {F : EntryPhase} {mode : ScipyMode} {timeStep dt maxTime : ℝ}
    {s s' : EntryState} {b : Bool} (h : entryCycle G F mode timeStep dt maxTime s = .ok (s', b)) :
    ∃ (J : ℝ) (x : InitState) (delta : ℝ) (qref : Option ℝ) (out : PropOut) (tEnd J' : ℝ) (y : InitState)
      (hdotOld tOld : ℝ) (accNetLast : Option ℝ) (accDragLast : ℝ) (fn : Option (ℝ → ℝ)) (apo : Option ℝ),
      s.segHeat.getLast? = some J ∧ s.hist.last J = .ok x ∧
      F.command s.V x s.deltaIni timeStep = .ok (delta, qref) ∧
      F.prop (s.V.setInitialState x) timeStep dt delta = .ok out ∧
      s.hist.t.getLast? = some tEnd ∧ s.hdot.getLast? = some hdotOld ∧ s.tStep.getLast? = some tOld ∧
      out.accNetG.getLast? = some accNetLast ∧ out.accDragG.getLast? = some accDragLast ∧
      (s.hist.extend (Hist.ofOut out) tEnd).heatload.getLast? = some J' ∧
      (s.hist.extend (Hist.ofOut out) tEnd).last J' = .ok y ∧
      (¬ (x.v0Kms * 1.000E3 * sin (x.gamma0Deg * π / 180.0) > G.hdotThreshold) → fn = s.densityFn ∧ apo = some 0.0) ∧
      (x.v0Kms * 1.000E3 * sin (x.gamma0Deg * π / 180.0) > G.hdotThreshold → ∃ f, fn = some f ∧
        F.predict (s.V.setInitialState x) y maxTime dt f = .ok apo) ∧
      s' = { V := s.V.setInitialState x, hist := s.hist.extend (Hist.ofOut out) tEnd,
             accDragG := s.accDragG ++ out.accDragG, segHeat := out.heatload, vAttr := s.vAttr, deltaIni := delta,
             densityFn := fn, tStep := s.tStep ++ [tEnd], deltaDeg := s.deltaDeg ++ [delta],
             hdot := s.hdot ++ [x.v0Kms * 1.000E3 * sin (x.gamma0Deg * π / 180.0)],
             hddot := s.hddot ++ [hddotOf hdotOld (x.v0Kms * 1.000E3 * sin (x.gamma0Deg * π / 180.0)) tOld tEnd],
             qref := s.qref ++ qref.toList,
             q := s.q ++ [0.5 * s.V.planet.density s.V.atm (x.h0Km * 1.0E3) * (x.v0Kms * 1.000E3) ^ 2],
             hStep := s.hStep ++ [x.h0Km], accStep := s.accStep ++ [accNetLast, accNetLast],
             accDragStep := s.accDragStep ++ [accDragLast],
             densityMes := s.densityMes ++ [npDiv (2 * s.V.mass * accDragLast * s.V.planet.EARTHG)
               (s.V.CD * s.V.A * (0.5 * (x.v0Kms * 1.000E3 + y.v0Kms * 1E3)) ^ 2)],
             hdotref := some (List.replicate (s.tStep ++ [tEnd]).length (some 0.0)) } ∧
      (b = true ↔ entryBreak G s.V.planet F.margin apo y.h0Km) := by
  unfold entryCycle at h
  simp only [except_bind_ok, liftPy_ok, pyLast_ok] at h
  obtain ⟨J, hJ, x, hx, ⟨delta, qref⟩, hc, h⟩ := h
  obtain ⟨out, ho, tEnd, ht, hd, hhd, tOld, hto, an, han, ad, had, J', hJ', y, hy, fn, hfn, apo, hapo, h⟩ := h
  simp only [pure, Except.pure, Except.ok.injEq, Prod.mk.injEq] at h
  refine ⟨J, x, delta, qref, out, tEnd, J', y, hd, tOld, an, ad, fn, apo, hJ, hx, hc, ho, ht, hhd, hto, han, had, hJ',
    hy, ?_, ?_, h.1.symm, ?_⟩
  · intro hth
    rw [if_neg (fun hh => hth hh.1)] at hfn
    rw [if_neg hth] at hapo
    simp only [pure, Except.pure, Except.ok.injEq] at hfn hapo
    exact ⟨hfn.symm, hapo.symm⟩
  · intro hth
    rw [if_pos hth] at hapo
    simp only [except_bind_ok, liftPy_ok] at hapo
    obtain ⟨f, hf, hp⟩ := hapo
    refine ⟨f, ?_, hp⟩
    cases fn with
    | none => simp [getAttr] at hf
    | some g => simp [getAttr] at hf; rw [hf]
  · rw [← h.2]; exact @decide_eq_true_iff _ (Classical.propDecidable _)

/-- Everything a successful turn of the exit loop does. -/
theorem exitCycle_inv {F : ExitPhase} {timeStep dt J hdotRef : ℝ}
    {s s' : ExitState} {b : Bool} (h : exitCycle F timeStep dt J hdotRef s = .ok (s', b)) :
    ∃ (x : InitState) (out : PropOut) (tEnd : ℝ) (y : InitState) (hdotOld tOld : ℝ),
      s.hist.last J = .ok x ∧
      F.prop (s.V.setInitialState x) timeStep dt (F.command s.deltaIni timeStep) = .ok out ∧
      s.hist.t.getLast? = some tEnd ∧ s.hdot.getLast? = some hdotOld ∧ s.tStep.getLast? = some tOld ∧
      (s.hist.extend (Hist.ofOut out) tEnd).last J = .ok y ∧
      s' = { V := s.V.setInitialState x, hist := s.hist.extend (Hist.ofOut out) tEnd, hCur := y.h0Km,
             deltaIni := F.command s.deltaIni timeStep, tStep := s.tStep ++ [tEnd],
             deltaDeg := s.deltaDeg ++ [F.command s.deltaIni timeStep],
             hdot := s.hdot ++ [x.v0Kms * 1.000E3 * sin (x.gamma0Deg * π / 180.0)],
             hddot := s.hddot ++ [hddotOf hdotOld (x.v0Kms * 1.000E3 * sin (x.gamma0Deg * π / 180.0)) tOld tEnd],
             hdotref := s.hdotref ++ [some hdotRef] } ∧
      (b = true ↔ F.stop s.V.planet (x.h0Km * 1.0E3)) := by
  unfold exitCycle at h
  simp only [except_bind_ok, liftPy_ok, pyLast_ok] at h
  obtain ⟨x, hx, out, ho, tEnd, ht, hd, hhd, tOld, hto, y, hy, h⟩ := h
  simp only [pure, Except.pure, Except.ok.injEq, Prod.mk.injEq] at h
  refine ⟨x, out, tEnd, y, hd, tOld, hx, ho, ht, hhd, hto, hy, h.1.symm, ?_⟩
  rw [← h.2]; exact @decide_eq_true_iff _ (Classical.propDecidable _)

/-- Any property kept by every turn of the entry loop holds at its end. -/
theorem entryLoop_invariant {G : GuideParams} {F : EntryPhase} {mode : ScipyMode} {timeStep dt maxTime : ℝ}
    (Inv : EntryState → Prop)
    (step : ∀ s s' b, Inv s → entryCycle G F mode timeStep dt maxTime s = .ok (s', b) → Inv s') :
    ∀ fuel s s', Inv s → entryLoop G F mode timeStep dt maxTime fuel s = some (.ok s') → Inv s' := by
  intro fuel
  induction fuel with
  | zero => intro s s' _ h; simp [entryLoop] at h
  | succ k ih =>
    intro s s' hs h
    unfold entryLoop at h
    split_ifs at h with hc
    · split at h
      · simp at h
      · next u hu => 
        simp only [Option.some.injEq, Except.ok.injEq] at h
        subst h
        exact step _ _ _ hs hu
      · next u hu => exact ih _ _ (step _ _ _ hs hu) h
    · simp only [Option.some.injEq, Except.ok.injEq] at h
      subst h; exact hs

/-- Any property kept by every turn of the exit loop holds at its end. -/
theorem exitLoop_invariant {F : ExitPhase} {timeStep dt J hdotRef : ℝ} (Inv : ExitState → Prop)
    (step : ∀ s s' b, Inv s → exitCycle F timeStep dt J hdotRef s = .ok (s', b) → Inv s') :
    ∀ fuel s s', Inv s → exitLoop F timeStep dt J hdotRef fuel s = some (.ok s') → Inv s' := by
  intro fuel
  induction fuel with
  | zero => intro s s' _ h; simp [exitLoop] at h
  | succ k ih =>
    intro s s' hs h
    unfold exitLoop at h
    split_ifs at h with hc
    · split at h
      · simp at h
      · next u hu => 
        simp only [Option.some.injEq, Except.ok.injEq] at h
        subst h
        exact step _ _ _ hs hu
      · next u hu => exact ih _ _ (step _ _ _ hs hu) h
    · simp only [Option.some.injEq, Except.ok.injEq] at h
      subst h; exact hs

end AMAT
