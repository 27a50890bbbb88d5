import Mathlib.Data.List.Chain
import Verif.Lemmas.Guidance
import Verif.Props.OrbitProps

/-
Properties C38-C41: bank-angle controller, equilibrium-glide command, phase switch.
-/

noncomputable section

namespace AMAT.Props

open Real

/-! ### C38 -/

theorem controller_eq (rate cmd ini ts : ℝ) :
    psuedoController rate cmd ini ts = (ini + npSign (cmd - ini) * rate * ts, ini + npSign (cmd - ini) * rate * ts) := by
  unfold psuedoController; split_ifs <;> rfl

theorem abs_npSign_le (x : ℝ) : |npSign x| ≤ 1 := by
  unfold npSign; split_ifs <;> simp

/-- C38: for every command the bank angle changes by at most `maxRollRate·timestep`, never away from the command, and
the two returned values agree. -/
theorem C38_rate_limit (rate cmd ini ts : ℝ) (h : 0 ≤ rate * ts) :
    |(psuedoController rate cmd ini ts).1 - ini| ≤ rate * ts ∧
    (psuedoController rate cmd ini ts).2 = (psuedoController rate cmd ini ts).1 ∧
    (ini ≤ cmd → ini ≤ (psuedoController rate cmd ini ts).1) ∧
    (cmd ≤ ini → (psuedoController rate cmd ini ts).1 ≤ ini) := by
  rw [controller_eq]
  refine ⟨?_, rfl, ?_, ?_⟩
  · simp only [add_sub_cancel_left]
    rw [mul_assoc, abs_mul, abs_of_nonneg h]
    exact mul_le_of_le_one_left h (abs_npSign_le _)
  · intro hc
    have : 0 ≤ npSign (cmd - ini) := by unfold npSign; split_ifs <;> simp; linarith
    have := mul_nonneg this h
    simp only; nlinarith
  · intro hc
    have : npSign (cmd - ini) ≤ 0 := by
      unfold npSign
      rw [if_neg (by linarith)]
      split_ifs <;> norm_num
    have := mul_nonpos_of_nonpos_of_nonneg this h
    simp only; nlinarith

/-- Case for `C38_rate_limit`: roll rate 20 °/s, half-second cycles, from 100° towards -30°. -/
example : |(psuedoController 20 (-30) 100 0.5).1 - 100| ≤ 20 * 0.5 ∧ (psuedoController 20 (-30) 100 0.5).1 ≤ 100 :=
  ⟨(C38_rate_limit 20 (-30) 100 0.5 (by norm_num)).1,
    (C38_rate_limit 20 (-30) 100 0.5 (by norm_num)).2.2.2 (by norm_num)⟩

/-- The bank commands recorded during the two equilibrium-glide phases. -/
theorem glide_bank_history (G : GuideParams) (F : EntryPhase) (hF : F.command = Vehicle.glideBank G)
    (mode : ScipyMode) (ts dt maxTime : ℝ) (h : 0 ≤ G.maxRollRate * ts) (fuel : ℕ) (s s' : EntryState)
    (h0 : s.deltaDeg.IsChain (fun a b => |b - a| ≤ G.maxRollRate * ts) ∧ s.deltaDeg.getLast? = some s.deltaIni)
    (hl : entryLoop G F mode ts dt maxTime fuel s = some (.ok s')) :
    s'.deltaDeg.IsChain (fun a b => |b - a| ≤ G.maxRollRate * ts) ∧ s'.deltaDeg.getLast? = some s'.deltaIni := by
  refine entryLoop_invariant (fun s => s.deltaDeg.IsChain (fun a b => |b - a| ≤ G.maxRollRate * ts) ∧
    s.deltaDeg.getLast? = some s.deltaIni) ?_ fuel s s' h0 hl
  intro s s' b ⟨hs1, hs2⟩ hc
  obtain ⟨J, x, delta, qref, out, tEnd, J', y, hd, tOld, an, ad, fn, apo, -, -, hcmd, -, -, -, -, -, -, -, -, -, -, rfl, -⟩ :=
    entryCycle_inv hc
  refine ⟨?_, by simp⟩
  rw [List.isChain_append]
  refine ⟨hs1, by simp, ?_⟩
  intro a ha b hb
  simp only [List.head?_cons, Option.mem_def, Option.some.injEq] at ha hb
  rw [hs2] at ha
  simp only [Option.some.injEq] at ha
  subst ha hb
  rw [hF] at hcmd
  unfold Vehicle.glideBank at hcmd
  rw [except_bind_ok] at hcmd
  obtain ⟨⟨cmd, q⟩, _, hcmd⟩ := hcmd
  simp only [pure, Except.pure, Except.ok.injEq, Prod.mk.injEq] at hcmd
  rw [← hcmd.1]
  exact (C38_rate_limit _ _ _ _ h).1

/-- C38: throughout the exit phase, too. -/
theorem exit_bank_history (G : GuideParams) (F : ExitPhase)
    (hF : F.command = fun ini ts => (psuedoController G.maxRollRate 0.0 ini ts).1)
    (ts dt J hr : ℝ) (h : 0 ≤ G.maxRollRate * ts) (fuel : ℕ) (s s' : ExitState)
    (h0 : s.deltaDeg.IsChain (fun a b => |b - a| ≤ G.maxRollRate * ts) ∧ s.deltaDeg.getLast? = some s.deltaIni)
    (hl : exitLoop F ts dt J hr fuel s = some (.ok s')) :
    s'.deltaDeg.IsChain (fun a b => |b - a| ≤ G.maxRollRate * ts) ∧ s'.deltaDeg.getLast? = some s'.deltaIni := by
  refine exitLoop_invariant (fun s => s.deltaDeg.IsChain (fun a b => |b - a| ≤ G.maxRollRate * ts) ∧
    s.deltaDeg.getLast? = some s.deltaIni) ?_ fuel s s' h0 hl
  intro s s' b ⟨hs1, hs2⟩ hc
  obtain ⟨x, out, tEnd, y, hd, tOld, -, -, -, -, -, -, rfl, -⟩ := exitCycle_inv hc
  refine ⟨?_, by simp⟩
  rw [List.isChain_append]
  refine ⟨hs1, by simp, ?_⟩
  intro a ha b hb
  simp only [List.head?_cons, Option.mem_def, Option.some.injEq] at ha hb
  rw [hs2] at ha
  simp only [Option.some.injEq] at ha
  subst ha hb
  rw [hF]
  exact (C38_rate_limit _ _ _ _ h).1

/-- How a guided entry decomposes when it delivers a result. -/
theorem guided_inv {G : GuideParams} {FE : EntryPhase} {FX : ExitPhase} {mode : ScipyMode} {fuel : ℕ} {V : Vehicle}
    {hdotref : Option (List (Option ℝ))} {prep : Vehicle → Vehicle} {tsE tsX dt maxTime : ℝ} {o : GuidedOut}
    (h : Vehicle.guided G FE FX mode fuel V hdotref prep tsE tsX dt maxTime = some (.ok o)) :
    ∃ s0 s e J hr, entryStart FE V hdotref dt = .ok s0 ∧
      entryLoop G FE mode tsE dt maxTime fuel s0 = some (.ok s) ∧ exitStart (prep s.V) s = .ok (e, J, hr) ∧
      exitLoop FX tsX dt J hr fuel e = some (.ok o.fin) ∧ exitResults G o.fin = .ok o := by
  unfold Vehicle.guided at h
  split at h
  · cases h
  · cases h
  · next s hs =>
    unfold entryPhase at hs
    split at hs
    · cases hs
    · next s0 hs0 =>
      unfold exitPhase at h
      split at h
      · cases h
      · next e J hr he =>
        split at h
        · cases h
        · cases h
        · next f hf =>
          simp only [Option.some.injEq] at h
          have : o.fin = f := by
            unfold exitResults at h
            rw [except_bind_ok] at h
            obtain ⟨y, _, h⟩ := h
            simp only [pure, Except.pure, Except.ok.injEq] at h
            rw [← h]
          subst this
          exact ⟨s0, s, e, J, hr, hs0, hs, he, hf, h⟩

theorem entryStart_inv {F : EntryPhase} {V : Vehicle} {hr : Option (List (Option ℝ))} {dt : ℝ} {s : EntryState}
    (h : entryStart F V hr dt = .ok s) : ∃ out v, F.prop V 1.0 dt 0.0 = .ok out ∧
      (Hist.ofOut out).v.getLast? = some v ∧
      s = { V := V, hist := Hist.ofOut out, accDragG := out.accDragG, segHeat := out.heatload, vAttr := v,
            deltaIni := 0.0, densityFn := none, tStep := [0.0], deltaDeg := [0.0], hdot := [0.0], hddot := [some 0.0],
            qref := [0.0], q := [0.0], hStep := [0.0], accStep := [some 0.0], accDragStep := [0.0],
            densityMes := [some 0.0], hdotref := hr } := by
  unfold entryStart at h
  simp only [except_bind_ok, liftPy_ok, pyLast_ok, pure, Except.pure, Except.ok.injEq] at h
  obtain ⟨out, ho, _, _, v, hv, h⟩ := h
  exact ⟨out, v, ho, hv, h.symm⟩

theorem exitStart_inv {V : Vehicle} {s : EntryState} {e : ExitState} {J hr : ℝ} (h : exitStart V s = .ok (e, J, hr)) :
    ∃ hk p, s.hist.h.getLast? = some hk ∧ s.deltaDeg.getLast? = some p ∧ s.hdot.getLast? = some hr ∧
      s.hist.heatload.getLast? = some J ∧
      e = { V := V, hist := s.hist, hCur := hk, deltaIni := p, tStep := s.tStep, deltaDeg := s.deltaDeg, hdot := s.hdot,
            hddot := s.hddot, hdotref := s.hdotref.getD [none] } := by
  unfold exitStart at h
  simp only [except_bind_ok, liftPy_ok, pyLast_ok, pure, Except.pure, Except.ok.injEq, Prod.mk.injEq] at h
  obtain ⟨_, _, hk, h1, _, _, p, h2, d, h3, j, h4, h5, rfl, rfl⟩ := h
  exact ⟨hk, p, h1, h2, h3, h4, h5.symm⟩

/-- C38: in every guided entry (either propagator) that delivers a result, consecutive entries of the recorded
bank-angle history — from the initial zero through both phases — differ by at most `maxRollRate·timeStep`. -/
theorem C38_guided_history (G : GuideParams) (mode : ScipyMode) (I I' : Integrator) (fuel : ℕ) (V : Vehicle)
    (hdotref : Option (List (Option ℝ))) (ts dt maxTime : ℝ) (h : 0 ≤ G.maxRollRate * ts) (o : GuidedOut)
    (ho : Vehicle.propogateGuidedEntry G mode I fuel V hdotref ts dt maxTime = some (.ok o) ∨
      Vehicle.propogateGuidedEntry2 G mode I I' fuel V hdotref ts dt maxTime = some (.ok o)) :
    o.fin.deltaDeg.IsChain (fun a b => |b - a| ≤ G.maxRollRate * ts) := by
  have key : ∀ (FE : EntryPhase) (FX : ExitPhase), FE.command = Vehicle.glideBank G →
      FX.command = (fun ini ts => (psuedoController G.maxRollRate 0.0 ini ts).1) →
      Vehicle.guided G FE FX mode fuel V hdotref (fun W => W) ts ts dt maxTime = some (.ok o) →
      o.fin.deltaDeg.IsChain (fun a b => |b - a| ≤ G.maxRollRate * ts) := by
    intro FE FX hE hX hg
    obtain ⟨s0, s, e, J, hr, h1, h2, h3, h4, h5⟩ := guided_inv hg
    obtain ⟨out, v, _, _, rfl⟩ := entryStart_inv h1
    have a := glide_bank_history G FE hE mode ts dt maxTime h fuel _ s ⟨by simp, by simp⟩ h2
    obtain ⟨hk, p, _, hp, _, _, rfl⟩ := exitStart_inv h3
    refine (exit_bank_history G FX hX ts dt J hr h fuel _ o.fin ⟨a.1, ?_⟩ h4).1
    rw [hp]
  rcases ho with ho | ho
  · exact key _ _ rfl rfl ho
  · exact key _ _ rfl rfl ho

/-! ### C39 -/

/-- The bank angle after `n` cycles with constant command. -/
def bankAfter (rate cmd ts ini : ℝ) (n : ℕ) : ℝ := (fun x => (psuedoController rate cmd x ts).1)^[n] ini

theorem bankAfter_succ (rate cmd ts ini : ℝ) (n : ℕ) :
    bankAfter rate cmd ts ini (n + 1) =
      bankAfter rate cmd ts ini n + npSign (cmd - bankAfter rate cmd ts ini n) * (rate * ts) := by
  unfold bankAfter
  rw [Function.iterate_succ_apply', controller_eq, mul_assoc]

/-- C39, the part that holds: with a positive step a constant command is reached to within one maximal step after
finitely many cycles, and the error never exceeds one step afterwards.  Missing: the commanded angle itself is in
general never attained (`C39_reached_iff`, `C39_overshoots`). -/
theorem C39_tracks_within_one_step_partial (rate cmd ts ini : ℝ) (h : 0 < rate * ts) :
    ∃ N, ∀ n, N ≤ n → |cmd - bankAfter rate cmd ts ini n| ≤ rate * ts := by
  set st := rate * ts with hst
  have step : ∀ x : ℝ, |cmd - (x + npSign (cmd - x) * st)| ≤ max (|cmd - x| - st) st := by
    intro x
    have e : cmd - (x + npSign (cmd - x) * st) = (cmd - x) - npSign (cmd - x) * st := by ring
    rw [e]
    set d := cmd - x
    unfold npSign
    split_ifs with h1 h2
    · rw [abs_of_pos h1, le_max_iff]
      rcases le_total st d with hd | hd
      · left; rw [abs_of_nonneg (by linarith)]; linarith
      · right; rw [abs_of_nonpos (by linarith)]; linarith
    · rw [abs_of_neg h2, le_max_iff]
      rcases le_total st (-d) with hd | hd
      · left; rw [abs_of_nonpos (by linarith)]; linarith
      · right; rw [abs_of_nonneg (by linarith)]; linarith
    · have : d = 0 := by linarith
      simp [this, h.le]
  have far : ∀ n : ℕ, |cmd - bankAfter rate cmd ts ini n| ≤ max (|cmd - ini| - n * st) st := by
    intro n
    induction n with
    | zero => simp [bankAfter]
    | succ n ih =>
      rw [bankAfter_succ, ← hst]
      refine (step _).trans ?_
      rw [max_le_iff]
      refine ⟨?_, le_max_right _ _⟩
      push_cast
      rcases le_max_iff.mp ih with hh | hh
      · rw [le_max_iff]; left; linarith
      · rw [le_max_iff]; right; linarith
  obtain ⟨N, hN⟩ := exists_nat_gt (|cmd - ini| / st)
  refine ⟨N, fun n hn => (far n).trans ?_⟩
  rw [max_le_iff]
  refine ⟨?_, le_rfl⟩
  have h1 : |cmd - ini| < N * st := by rwa [div_lt_iff₀ h] at hN
  have h2 : (N : ℝ) * st ≤ n * st := by
    apply mul_le_mul_of_nonneg_right _ h.le
    exact_mod_cast hn
  linarith

/-- Case for `C39_tracks_within_one_step_partial`: roll rate 20 °/s, one-second cycles, from 0° towards 75°. -/
example : ∃ N, ∀ n, N ≤ n → |75 - bankAfter 20 75 1 0 n| ≤ 20 * 1 :=
  C39_tracks_within_one_step_partial 20 75 1 0 (by norm_num)

/-- C39 (finding), exact criterion: with a positive step the commanded angle is ever attained only if the initial error
is an integer multiple of the maximal step; then it is attained and held. -/
theorem C39_reached_iff (rate cmd ts ini : ℝ) (h : 0 < rate * ts) :
    ((∃ n, bankAfter rate cmd ts ini n = cmd) ↔ ∃ k : ℤ, cmd - ini = k * (rate * ts)) ∧
    (∀ n, bankAfter rate cmd ts ini n = cmd → bankAfter rate cmd ts ini (n + 1) = cmd) := by
  set st := rate * ts with hst
  have hold : ∀ n, bankAfter rate cmd ts ini n = cmd → bankAfter rate cmd ts ini (n + 1) = cmd := by
    intro n hn; rw [bankAfter_succ, hn]; simp [npSign]
  have lattice : ∀ n, ∃ k : ℤ, bankAfter rate cmd ts ini n = ini + k * st := by
    intro n
    induction n with
    | zero => exact ⟨0, by simp [bankAfter]⟩
    | succ n ih =>
      obtain ⟨k, hk⟩ := ih
      rw [bankAfter_succ, ← hst]
      have : ∃ j : ℤ, npSign (cmd - bankAfter rate cmd ts ini n) = j := by
        unfold npSign; split_ifs
        · exact ⟨1, by simp⟩
        · exact ⟨-1, by simp⟩
        · exact ⟨0, by simp⟩
      obtain ⟨j, hj⟩ := this
      refine ⟨k + j, ?_⟩
      rw [hj, hk]; push_cast; ring
  refine ⟨⟨?_, ?_⟩, hold⟩
  · rintro ⟨n, hn⟩
    obtain ⟨k, hk⟩ := lattice n
    exact ⟨k, by rw [← hn, hk]; ring⟩
  · rintro ⟨k, hk⟩
    obtain ⟨N, hN⟩ := C39_tracks_within_one_step_partial rate cmd ts ini h
    obtain ⟨j, hj⟩ := lattice N
    have hb := hN N le_rfl
    rw [← hst] at hb
    have e : cmd - bankAfter rate cmd ts ini N = ((k - j : ℤ) : ℝ) * st := by
      rw [hj]; push_cast; linear_combination hk
    rw [e, abs_mul, abs_of_pos h] at hb
    have hk1 : |((k - j : ℤ) : ℝ)| ≤ 1 := by
      by_contra hc
      push Not at hc
      nlinarith
    have hk2 : |k - j| ≤ 1 := by exact_mod_cast hk1
    obtain ⟨a1, a2⟩ := abs_le.mp hk2
    have cases3 : k - j = -1 ∨ k - j = 0 ∨ k - j = 1 := by omega
    rcases cases3 with c | c | c
    · refine ⟨N + 1, ?_⟩
      rw [c] at e
      rw [bankAfter_succ, ← hst, e]
      unfold npSign
      have : ¬ (0:ℝ) < ((-1 : ℤ) : ℝ) * st := by push_cast; linarith
      rw [if_neg this, if_pos (by push_cast; linarith)]
      push_cast at e; linarith
    · refine ⟨N, ?_⟩
      rw [c] at e; push_cast at e; linarith
    · refine ⟨N + 1, ?_⟩
      rw [c] at e
      rw [bankAfter_succ, ← hst, e]
      unfold npSign
      rw [if_pos (by push_cast; linarith)]
      push_cast at e; linarith

/-- Cases for `C39_reached_iff`: with steps of 20° the command 60° is reached from 0°, the command 75° never is. -/
example : (∃ n, bankAfter 20 60 1 0 n = 60) ∧ ¬ ∃ n, bankAfter 20 75 1 0 n = 75 := by
  constructor
  · exact (C39_reached_iff 20 60 1 0 (by norm_num)).1.mpr ⟨3, by norm_num⟩
  · rw [(C39_reached_iff 20 75 1 0 (by norm_num)).1]
    rintro ⟨k, hk⟩
    have : (75 : ℤ) = 20 * k := by
      have h2 : (75:ℝ) = 20 * (k:ℝ) := by linarith
      exact_mod_cast h2
    omega

/-- C39 (finding), the claim is false: for a command that differs from the current angle by less than the maximal step
the controller overshoots it, returns to where it started in the next cycle, and so on for ever. -/
theorem C39_overshoots (rate cmd ts ini : ℝ) (h0 : cmd ≠ ini) (h1 : |cmd - ini| < rate * ts) :
    (psuedoController rate cmd ini ts).1 ≠ cmd ∧ ∀ n, bankAfter rate cmd ts ini (2 * n) = ini := by
  have hst : 0 < rate * ts := lt_of_le_of_lt (abs_nonneg _) h1
  obtain ⟨b1, b2⟩ := abs_lt.mp h1
  constructor
  · rw [controller_eq]
    simp only [mul_assoc]
    unfold npSign
    split_ifs with a1 a2
    · intro h; linarith
    · intro h; linarith
    · exact absurd (by linarith : cmd = ini) h0
  · intro n
    induction n with
    | zero => rfl
    | succ n ih =>
      rw [show 2 * (n + 1) = 2 * n + 1 + 1 by ring, bankAfter_succ, bankAfter_succ, ih]
      unfold npSign
      rcases lt_or_gt_of_ne h0 with hlt | hgt
      · have e1 : ¬ 0 < cmd - ini := by linarith
        have e2 : cmd - ini < 0 := by linarith
        rw [if_neg e1, if_pos e2, if_pos (by linarith)]; ring
      · have e1 : 0 < cmd - ini := by linarith
        rw [if_pos e1, if_neg (by linarith), if_pos (by linarith)]; ring

/-- Case for `C39_overshoots`: roll rate 20 °/s, half-second cycles, command 93° from 90°. -/
example : (psuedoController 20 93 90 0.5).1 ≠ 93 ∧ ∀ n, bankAfter 20 93 0.5 90 (2 * n) = 90 :=
  C39_overshoots 20 93 0.5 90 (by norm_num) (by norm_num)

/-- C39 (finding), concretely: roll rate 30 °/s, one-second cycles, command 10° from 0°: the angle alternates 30°, 0°,
30°, … -/
theorem C39_overshoot_example : (psuedoController 30 10 0 1).1 = 30 ∧ ∀ n, bankAfter 30 10 1 0 (2 * n) = 0 := by
  refine ⟨by simp [psuedoController, npSign], (C39_overshoots 30 10 1 0 (by norm_num) ?_).2⟩
  rw [abs_of_pos] <;> norm_num

/-! ### C40 -/

/-- C40: for every flight condition with non-zero dynamic pressure (and a lifting vehicle) the commanded bank angle is
between 0° and 180° and its cosine is the glide law clipped to `[-1, 1]`: with `q` the dynamic pressure, `g` the surface
gravity, `u = m·g·(1 − v²/(g·r))` the required vertical force,
`cos δ = u/(CL·q·A) − Ghdot·hdot/q + Gq·(1 + u/(0.75·CL·A·q))`. -/
theorem C40_glide_command (V : Vehicle) (G : GuideParams) (x : InitState) (hCL : V.CL ≠ 0) (hA : V.A ≠ 0) :
    let r := V.planet.RP + 1000 * x.h0Km
    let v := 1000 * x.v0Kms
    let q := V.planet.density V.atm (1000 * x.h0Km) * v ^ 2 / 2
    let g := V.planet.GM / V.planet.RP ^ 2
    let u := V.mass * g * (1 - v ^ 2 / (g * r))
    let law := u / (V.CL * q * V.A) - G.Ghdot * (v * sin (x.gamma0Deg * (π / 180))) / q
      + G.Gq * (1 + u / (3 / 4 * V.CL * V.A * q))
    q ≠ 0 → ∃ cmd, V.glideCommand G x = .ok (cmd, -(u / (3 / 4 * V.CL * V.A))) ∧ 0 ≤ cmd ∧ cmd ≤ 180 ∧
      cos (cmd * (π / 180)) = max (-1) (min 1 law) ∧ (law ≤ -1 → cmd = 180) ∧ (1 ≤ law → cmd = 0) := by
  intro r v q g u law hq
  have l1 : (1.0:ℝ) = 1 := by norm_num
  have l2 : (0.75:ℝ) = 3 / 4 := by norm_num
  have l3 : (1.0E3:ℝ) = 1000 := by norm_num
  have l4 : (1.000E3:ℝ) = 1000 := by norm_num
  have l5 : (180.0:ℝ) = 180 := by norm_num
  have eh : x.h0Km * 1000 = 1000 * x.h0Km := by ring
  have ev : x.v0Kms * 1000 = v := by simp only [v]; ring
  have er : 1000 * x.h0Km + V.planet.RP = r := by simp only [r]; ring
  have eq1 : 1 / 2 * V.planet.density V.atm (1000 * x.h0Km) * v ^ 2 = q := by simp only [q]; ring
  have eg : x.gamma0Deg * π / 180 = x.gamma0Deg * (π / 180) := by ring
  have hd : (3 / 4 * V.CL * V.A : ℝ) ≠ 0 := by positivity
  unfold Vehicle.glideCommand
  simp only [l2, l3, l4, l5, eh, ev, er, Lits.l05, Lits.l00, Lits.l10, eq1, eg, if_neg hd, if_neg hq, bind, Except.bind,
    pure, Except.pure]
  have hlaw : V.mass * (V.planet.GM / V.planet.RP ^ 2) / (V.CL * q * V.A) * (1 - v ^ 2 / (V.planet.GM / V.planet.RP ^ 2 * r)) -
      G.Ghdot * (v * sin (x.gamma0Deg * (π / 180))) / q +
      G.Gq * ((q - -1 * V.mass * (V.planet.GM / V.planet.RP ^ 2) / (3 / 4 * V.CL * V.A) *
        (1 - v ^ 2 / (V.planet.GM / V.planet.RP ^ 2 * r))) / q) = law := by
    show V.mass * g / (V.CL * q * V.A) * (1 - v ^ 2 / (g * r)) - _ + G.Gq * ((q - -1 * V.mass * g / (3 / 4 * V.CL * V.A) *
      (1 - v ^ 2 / (g * r))) / q) = _
    simp only [law, u]
    set w := 1 - v ^ 2 / (g * r)
    field_simp
    ring
  have href : -1 * V.mass * (V.planet.GM / V.planet.RP ^ 2) / (3 / 4 * V.CL * V.A) *
      (1 - v ^ 2 / (V.planet.GM / V.planet.RP ^ 2 * r)) = -(u / (3 / 4 * V.CL * V.A)) := by
    show -1 * V.mass * g / (3 / 4 * V.CL * V.A) * (1 - v ^ 2 / (g * r)) = _
    simp only [u]; ring
  rw [hlaw, href]
  have hpi := pi_pos
  refine ⟨_, rfl, ?_⟩
  have back : ∀ c : ℝ, c * 180 / π * (π / 180) = c := fun c => by field_simp
  split_ifs with c1 c2
  · refine ⟨by simp, by simp, ?_, fun h => by linarith, fun _ => by simp⟩
    rw [back, cos_zero, min_eq_left (by linarith), max_eq_right (by norm_num)]
  · refine ⟨by positivity, ?_, ?_, ?_, fun h => by linarith⟩
    · rw [div_le_iff₀ hpi]; linarith
    · rw [back, cos_pi, min_eq_right (by linarith), max_eq_left (by linarith)]
    · intro _; field_simp
  · push Not at c1 c2
    refine ⟨?_, ?_, ?_, ?_, ?_⟩
    · have := arccos_nonneg law; positivity
    · rw [div_le_iff₀ hpi]
      have := arccos_le_pi law
      linarith
    · rw [back, cos_arccos c2 c1, min_eq_right c1, max_eq_right c2]
    · intro h
      have : law = -1 := le_antisymm h c2
      rw [this, arccos_neg_one]; field_simp
    · intro h
      have : law = 1 := le_antisymm c1 h
      rw [this, arccos_one]; simp

/-- Case for `C40_glide_command`: a lifting vehicle at Mars, 50 km altitude, 4 km/s, in air of density 1. -/
example : ∃ (V : Vehicle) (G : GuideParams) (x : InitState) (cmd qref : ℝ), Planet.init "MARS" = .ok V.planet ∧
    x.v0Kms = 4 ∧ V.glideCommand G x = .ok (cmd, qref) ∧ 0 ≤ cmd ∧ cmd ≤ 180 := by
  obtain ⟨P, hP, -, hT, -⟩ := demo_mars
  obtain ⟨cmd, h1, h2, h3, -⟩ := C40_glide_command
    (Vehicle.mk' 500 100 0.2 1 0 1 P ⟨fun _ => 1, fun _ => 1, fun _ => 1, fun _ => 1⟩ false (fun _ => 1)
      ⟨100, 0, 0, 4, 0, -5, 0, 0⟩) ⟨30, 75, 1, 1, 10, 20, 0, 250, 2000, 10, 50, 10⟩ ⟨50, 0, 0, 4, 0, -5, 0, 0⟩
    (by norm_num [Vehicle.mk']) (by norm_num [Vehicle.mk'])
    (by
      simp only [Vehicle.mk', Planet.density, hT]
      norm_num)
  exact ⟨_, _, _, cmd, _, hP, rfl, h1, h2, h3⟩

/-- C40 (finding): a vehicle without lift cannot be flown with this guidance: the command raises
`ZeroDivisionError`. -/
theorem C40_ballistic_raises (V : Vehicle) (G : GuideParams) (x : InitState) (hCL : V.CL = 0) :
    V.glideCommand G x = .error (.raised .zeroDivisionError) := by
  unfold Vehicle.glideCommand
  simp [hCL, bind, Except.bind]

/-- Case for `C40_ballistic_raises`: a vehicle built with lift-to-drag ratio zero. -/
example (P : Planet) (atm : Atmosphere) (G : GuideParams) (x : InitState) :
    (Vehicle.mk' 500 100 0 1 0 1 P atm false (fun _ => 1) x).glideCommand G x =
      .error (.raised .zeroDivisionError) :=
  C40_ballistic_raises _ G x (by simp [Vehicle.mk'])

/-! ### C41 -/

/-- C41, the part that holds: if the speed after the first second is already at or below the switch speed, the phase
ends without a single cycle. -/
theorem C41_immediate_switch_partial (G : GuideParams) (F : EntryPhase) (mode : ScipyMode) (ts dt maxTime : ℝ)
    (fuel : ℕ) (s : EntryState) (h : s.vAttr ≤ G.vSwitchKms) :
    entryLoop G F mode ts dt maxTime (fuel + 1) s = some (.ok s) := by
  unfold entryLoop
  rw [if_neg (not_lt.mpr h)]

/-- C41 (finding): otherwise the switch speed has no influence whatever: for any two switch speeds below the speed after
the first second the whole entry phase — histories, number of cycles, exceptions — is the same, for all four phase
functions and every integrator. -/
theorem C41_switch_speed_ignored (G : GuideParams) (F : EntryPhase) (mode : ScipyMode) (ts dt maxTime : ℝ) (w : ℝ) :
    ∀ (fuel : ℕ) (s : EntryState), G.vSwitchKms < s.vAttr → w < s.vAttr →
    entryLoop { G with vSwitchKms := w } F mode ts dt maxTime fuel s = entryLoop G F mode ts dt maxTime fuel s := by
  intro fuel
  induction fuel with
  | zero => intros; rfl
  | succ k ih =>
    intro s h1 h2
    have hc : entryCycle { G with vSwitchKms := w } F mode ts dt maxTime s = entryCycle G F mode ts dt maxTime s := rfl
    unfold entryLoop
    rw [if_pos (show s.vAttr > w from h2), if_pos (show s.vAttr > G.vSwitchKms from h1), hc]
    split
    · rfl
    · rfl
    · next s' hs' =>
      obtain ⟨J, x, delta, qref, out, tEnd, J', y, hd, tOld, an, ad, fn, apo, -, -, -, -, -, -, -, -, -, -, -, -, -, rfl, -⟩ :=
        entryCycle_inv hs'
      exact ih _ h1 h2

/-- The four phase functions themselves do not read the switch speed. -/
theorem C41_phases_do_not_read_switch_speed (G : GuideParams) (w : ℝ) (mode : ScipyMode) (I I' : Integrator) :
    Vehicle.glide1 { G with vSwitchKms := w } mode I = Vehicle.glide1 G mode I ∧
    Vehicle.glide2 { G with vSwitchKms := w } mode I I' = Vehicle.glide2 G mode I I' ∧
    Vehicle.drag1 { G with vSwitchKms := w } mode I = Vehicle.drag1 G mode I ∧
    Vehicle.drag2 { G with vSwitchKms := w } mode I' = Vehicle.drag2 G mode I' := ⟨rfl, rfl, rfl, rfl⟩

end AMAT.Props
