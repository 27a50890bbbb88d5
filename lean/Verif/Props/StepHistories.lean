import Verif.Props.GuidedTermination

/-
Property C131: contents of the histories recorded once per guidance cycle.
-/

noncomputable section

namespace AMAT.Props

open Real

/-- Specification: altitude rate at a recorded point, m/s. -/
def Spec.altRate (p : Spec.Pt) : ℝ := 1000 * p.v * sin (p.gamma * (π / 180))

/-- Specification: mean acceleration between two altitude rates (m/s) at two times (minutes); undefined at equal
times. -/
def Spec.meanAcc (d0 t0 d t : ℝ) : Option ℝ := if t = t0 then none else some ((d - d0) / (60 * (t - t0)))

/-- Specification: the lists of times `T`, altitude rates `D` and altitude accelerations `A` are a log of the trajectory
`pts`.  They have equal length and begin with a zero each; every later line belongs to a point of the trajectory and
holds its time, its altitude rate, and the mean acceleration since the line before. -/
structure Spec.StepLog (T D : List ℝ) (A : List (Option ℝ)) (pts : List Spec.Pt) : Prop where
  lenD : D.length = T.length
  lenA : A.length = T.length
  T0 : T[0]? = some 0
  D0 : D[0]? = some 0
  A0 : A[0]? = some (some 0)
  line : ∀ k, k + 1 < T.length → ∃ p ∈ pts, ∃ d0 t0, T[k]? = some t0 ∧ D[k]? = some d0 ∧ T[k + 1]? = some p.t ∧
    D[k + 1]? = some (Spec.altRate p) ∧ A[k + 1]? = some (Spec.meanAcc d0 t0 (Spec.altRate p) p.t)

/-- Specification: altitudes `H` in kilometres and dynamic pressures `Q` in pascals of the same log, given the density
(kg/m³) against altitude (m); the first lines are zero. -/
structure Spec.AltLog (dens : ℝ → ℝ) (T H Q : List ℝ) (pts : List Spec.Pt) : Prop where
  lenH : H.length = T.length
  lenQ : Q.length = T.length
  H0 : H[0]? = some 0
  Q0 : Q[0]? = some 0
  line : ∀ k, k + 1 < T.length → ∃ p ∈ pts, T[k + 1]? = some p.t ∧ H[k + 1]? = some p.h ∧
    Q[k + 1]? = some (1 / 2 * dens (1000 * p.h) * (1000 * p.v) ^ 2)

theorem StepLog.snoc {T D : List ℝ} {A : List (Option ℝ)} {pts pts' : List Spec.Pt} (h : Spec.StepLog T D A pts)
    (hp : pts <+: pts') {p : Spec.Pt} (hm : p ∈ pts') {d0 t0 : ℝ} (hd : D.getLast? = some d0)
    (ht : T.getLast? = some t0) :
    Spec.StepLog (T ++ [p.t]) (D ++ [Spec.altRate p]) (A ++ [Spec.meanAcc d0 t0 (Spec.altRate p) p.t]) pts' := by
  obtain ⟨l1, l2, z1, z2, z3, hl⟩ := h
  have pos : 0 < T.length := by
    rcases Nat.eq_zero_or_pos T.length with h | h
    · rw [List.length_eq_zero_iff] at h; simp [h] at z1
    · exact h
  rw [List.getLast?_eq_getElem?] at hd ht
  refine ⟨by simp [l1], by simp [l2], ?_, ?_, ?_, ?_⟩
  · rw [List.getElem?_append_left pos]; exact z1
  · rw [List.getElem?_append_left (by omega)]; exact z2
  · rw [List.getElem?_append_left (by omega)]; exact z3
  · intro k hk
    simp only [List.length_append, List.length_singleton] at hk
    rcases Nat.lt_or_ge (k + 1) T.length with hlt | hge
    · obtain ⟨q, hq, d, t, a1, a2, a3, a4, a5⟩ := hl k hlt
      refine ⟨q, hp.subset hq, d, t, ?_⟩
      rw [List.getElem?_append_left (by omega), List.getElem?_append_left (by omega),
        List.getElem?_append_left (by omega), List.getElem?_append_left (by omega), List.getElem?_append_left (by omega)]
      exact ⟨a1, a2, a3, a4, a5⟩
    · have hk' : k + 1 = T.length := by omega
      refine ⟨p, hm, d0, t0, ?_, ?_, ?_, ?_, ?_⟩
      · rw [List.getElem?_append_left (by omega), show k = T.length - 1 by omega]; exact ht
      · rw [List.getElem?_append_left (by omega), show k = D.length - 1 by omega]; exact hd
      · simp [hk']
      · simp [hk', ← l1]
      · simp [hk', ← l2]

theorem AltLog.snoc {dens : ℝ → ℝ} {T H Q : List ℝ} {pts pts' : List Spec.Pt} (h : Spec.AltLog dens T H Q pts)
    (hp : pts <+: pts') {p : Spec.Pt} (hm : p ∈ pts') :
    Spec.AltLog dens (T ++ [p.t]) (H ++ [p.h]) (Q ++ [1 / 2 * dens (1000 * p.h) * (1000 * p.v) ^ 2]) pts' := by
  obtain ⟨l1, l2, z1, z2, hl⟩ := h
  have pos : 0 < H.length := by
    rcases Nat.eq_zero_or_pos H.length with h | h
    · rw [List.length_eq_zero_iff] at h; simp [h] at z1
    · exact h
  refine ⟨by simp [l1], by simp [l2], ?_, ?_, ?_⟩
  · rw [List.getElem?_append_left pos]; exact z1
  · rw [List.getElem?_append_left (by omega)]; exact z2
  · intro k hk
    simp only [List.length_append, List.length_singleton] at hk
    rcases Nat.lt_or_ge (k + 1) T.length with hlt | hge
    · obtain ⟨q, hq, a1, a2, a3⟩ := hl k hlt
      refine ⟨q, hp.subset hq, ?_⟩
      rw [List.getElem?_append_left (by omega), List.getElem?_append_left (by omega),
        List.getElem?_append_left (by omega)]
      exact ⟨a1, a2, a3⟩
    · have hk' : k + 1 = T.length := by omega
      refine ⟨p, hm, ?_, ?_, ?_⟩
      · simp [hk']
      · simp [hk', ← l1]
      · simp [hk', ← l2]

/-- The last entries of a history belong to one point. -/
theorem last_point {a : Hist} {pa : List Spec.Pt} {y : InitState} {J tEnd : ℝ} (ha : Spec.Records a pa)
    (hl : a.last J = .ok y) (ht : a.t.getLast? = some tEnd) :
    ∃ p ∈ pa, p.t = tEnd ∧ p.h = y.h0Km ∧ p.v = y.v0Kms ∧ p.gamma = y.gamma0Deg := by
  cases hp : pa.getLast? with
  | none => rw [ha.t, List.getLast?_map, hp] at ht; simp at ht
  | some p =>
    obtain ⟨l1, -, -, l4, -, l6, -, -⟩ := last_ok.mp hl
    rw [ha.h, List.getLast?_map, hp] at l1
    rw [ha.v, List.getLast?_map, hp] at l4
    rw [ha.gamma, List.getLast?_map, hp] at l6
    rw [ha.t, List.getLast?_map, hp] at ht
    simp only [Option.map_some, Option.some.injEq] at l1 l4 l6 ht
    exact ⟨p, List.mem_of_getLast? hp, ht, l1, l4, l6⟩

theorem altRate_eq {p : Spec.Pt} {v g : ℝ} (h1 : p.v = v) (h2 : p.gamma = g) :
    v * 1.000E3 * sin (g * π / 180.0) = Spec.altRate p := by
  have e1 : (1.000E3 : ℝ) = 1000 := by norm_num
  have e2 : (180.0 : ℝ) = 180 := by norm_num
  rw [Spec.altRate, h1, h2, e1, e2, mul_comm v, mul_div_assoc]

theorem hddotOf_eq (d0 d t0 t : ℝ) : hddotOf d0 d t0 t = Spec.meanAcc d0 t0 d t := by
  have e : (60.0 : ℝ) = 60 := by norm_num
  unfold hddotOf npDiv Spec.meanAcc
  rw [e]
  by_cases h : t = t0
  · rw [if_pos h, if_pos (by rw [h]; ring)]
  · rw [if_neg h, if_neg (by intro hh; apply h; linarith)]
    congr 2; ring

/-- State of the entry phases: trajectory and logs. -/
theorem entry_logs (G : GuideParams) (F : EntryPhase) (mode : ScipyMode) (fuel : ℕ) (V : Vehicle)
    (hdotref : Option (List (Option ℝ))) (ts dt maxTime : ℝ)
    (good : ∀ W t δ out, W.planet = V.planet → F.prop W t dt δ = .ok out →
      ∃ pts, Spec.Records (Hist.ofOut out) pts ∧ Spec.Continuous W.init pts)
    (s : EntryState) (h : entryPhase G F mode fuel V hdotref ts dt maxTime = some (.ok s)) :
    s.V.planet = V.planet ∧ ∃ pts, Spec.Records s.hist pts ∧ Spec.Continuous V.init pts ∧
      Spec.StepLog s.tStep s.hdot s.hddot pts ∧
      Spec.AltLog (V.planet.density V.atm) s.tStep s.hStep s.q pts := by
  have z : (0.0 : ℝ) = 0 := by norm_num
  have e3 : (1.0E3 : ℝ) = 1000 := by norm_num
  have e4 : (1.000E3 : ℝ) = 1000 := by norm_num
  have e5 : (0.5 : ℝ) = 1 / 2 := by norm_num
  unfold entryPhase at h
  split at h
  · cases h
  · next s0 hs0 =>
    obtain ⟨out, v, hout, _, rfl⟩ := entryStart_inv hs0
    have a := entryLoop_invariant (fun s => (s.V.planet = V.planet ∧ s.V.atm = V.atm) ∧
        ∃ pts, Spec.Records s.hist pts ∧ Spec.Continuous V.init pts ∧ Spec.StepLog s.tStep s.hdot s.hddot pts ∧
          Spec.AltLog (V.planet.density V.atm) s.tStep s.hStep s.q pts) (by
      rintro s s' b ⟨⟨hs1, hs2⟩, pts, hr, hc, hl, hal⟩ hcy
      obtain ⟨J, x, delta, qref, out, tEnd, J', y, hd, tOld, an, ad, fn, apo, -, hx, -, hprop, htE, hhd, hto, -, -, -, -,
        -, -, rfl, -⟩ := entryCycle_inv hcy
      refine ⟨⟨hs1, hs2⟩, ?_⟩
      obtain ⟨pb, hrb, hcb⟩ := good _ _ _ _ (show (s.V.setInitialState x).planet = V.planet from hs1) hprop
      obtain ⟨pts', hpre, hr', hc'⟩ := joined_extend_prefix hr hc hrb hcb hx htE
      obtain ⟨p, hpm, q1, q2, q3, q4⟩ := last_point hr hx htE
      refine ⟨pts', hr', hc', ?_, ?_⟩
      · simp only [altRate_eq q3 q4, hddotOf_eq, ← q1]
        exact StepLog.snoc hl hpre (hpre.subset hpm) hhd hto
      · simp only [hs1, hs2, ← q1, ← q2, ← q3, e3, e4, e5]
        simp only [mul_comm _ (1000 : ℝ)]
        exact AltLog.snoc hal hpre (hpre.subset hpm)) fuel _ s (by
      obtain ⟨pts, p1, p2⟩ := good _ _ _ _ rfl hout
      refine ⟨⟨rfl, rfl⟩, pts, p1, p2, ?_, ?_⟩
      · constructor <;> simp [z]
      · constructor <;> simp [z]) h
    exact ⟨a.1.1, a.2⟩

/-- The general shape of a guided entry. -/
theorem guided_logs (G : GuideParams) (FE : EntryPhase) (FX : ExitPhase) (mode : ScipyMode)
    (fuel : ℕ) (V : Vehicle) (hdotref : Option (List (Option ℝ)))
    (prep : Vehicle → Vehicle) (hprep : ∀ W, (prep W).planet = W.planet) (tsE tsX dt maxTime : ℝ)
    (goodE : ∀ W t δ out, W.planet = V.planet → FE.prop W t dt δ = .ok out →
      ∃ pts, Spec.Records (Hist.ofOut out) pts ∧ Spec.Continuous W.init pts)
    (goodX : ∀ W t δ out, W.planet = V.planet → FX.prop W t dt δ = .ok out →
      ∃ pts, Spec.Records (Hist.ofOut out) pts ∧ Spec.Continuous W.init pts)
    (o : GuidedOut) (ho : Vehicle.guided G FE FX mode fuel V hdotref prep tsE tsX dt maxTime = some (.ok o)) :
    ∃ pts, Spec.Records o.fin.hist pts ∧ Spec.Continuous V.init pts ∧
      Spec.StepLog o.fin.tStep o.fin.hdot o.fin.hddot pts := by
  obtain ⟨s0, s, e, J, hr, h1, h2, h3, h4, h5⟩ := guided_inv ho
  obtain ⟨a1, pts, a2, a3, a4, -⟩ := entry_logs G FE mode fuel V hdotref tsE dt maxTime goodE s
    (by unfold entryPhase; rw [h1]; exact h2)
  obtain ⟨hk, p, _, hp, _, _, rfl⟩ := exitStart_inv h3
  have b := exitLoop_invariant (fun s => s.V.planet = V.planet ∧
      ∃ pts, Spec.Records s.hist pts ∧ Spec.Continuous V.init pts ∧ Spec.StepLog s.tStep s.hdot s.hddot pts) (by
    rintro s s' b ⟨hs1, pts, hr, hc, hl⟩ hcy
    obtain ⟨x, out, tEnd, y, hd, tOld, hx, hprop, htE, hhd, hto, -, rfl, -⟩ := exitCycle_inv hcy
    refine ⟨hs1, ?_⟩
    obtain ⟨pb, hrb, hcb⟩ := goodX _ _ _ _ (show (s.V.setInitialState x).planet = V.planet from hs1) hprop
    obtain ⟨pts', hpre, hr', hc'⟩ := joined_extend_prefix hr hc hrb hcb hx htE
    obtain ⟨p, hpm, q1, q2, q3, q4⟩ := last_point hr hx htE
    refine ⟨pts', hr', hc', ?_⟩
    simp only [altRate_eq q3 q4, hddotOf_eq, ← q1]
    exact StepLog.snoc hl hpre (hpre.subset hpm) hhd hto) fuel _ o.fin ⟨by rw [hprep]; exact a1, pts, a2, a3, a4⟩ h4
  exact b.2

/-- C131: in every guided entry (all four public functions, every vehicle, planet, parameters and integrators meeting
the documented contracts) that delivers a result, the histories `t_step_array`, `hdot_array` and `hddot_array` log the
recorded trajectory, through both phases: except in the first line, each line holds the time and the altitude rate of
one point of the trajectory, and the mean acceleration since the line before.  The claim fails in the first line,
`C131_first_line`. -/
theorem C131_step_log_partial (name : String) (G : GuideParams) (mode : ScipyMode) (I I' : Integrator)
    (hI : SolveIvpLike I) (hI' : SolveIvpLike I') (fuel : ℕ) (V : Vehicle) (hP : Planet.init name = .ok V.planet)
    (hdotref : Option (List (Option ℝ))) (ts tsX dt maxTime : ℝ) (hdt : 0 < dt) (o : GuidedOut)
    (ho : Vehicle.propogateGuidedEntry G mode I fuel V hdotref ts dt maxTime = some (.ok o) ∨
      Vehicle.propogateGuidedEntry2 G mode I I' fuel V hdotref ts dt maxTime = some (.ok o) ∨
      Vehicle.propogateGuidedEntryD G mode I fuel V hdotref ts tsX dt maxTime = some (.ok o) ∨
      Vehicle.propogateGuidedEntryD2 G mode I' fuel V hdotref ts tsX dt maxTime = some (.ok o)) :
    ∃ pts, Spec.Records o.fin.hist pts ∧ Spec.Continuous V.init pts ∧
      Spec.StepLog o.fin.tStep o.fin.hdot o.fin.hddot pts := by
  rcases ho with ho | ho | ho | ho
  · refine guided_logs G _ _ mode fuel V hdotref _ (fun _ => rfl) _ _ dt maxTime ?_ ?_ o ho <;>
    · intro W t δ out hW h
      exact segment_continuous name W (by rw [hW]; exact hP) mode I hI _ _ _ hdt out (Or.inl h)
  · refine guided_logs G _ _ mode fuel V hdotref _ (fun _ => rfl) _ _ dt maxTime ?_ ?_ o ho <;>
    · intro W t δ out hW h
      exact segment_continuous name W (by rw [hW]; exact hP) mode I' hI' _ _ _ hdt out (Or.inr h)
  · refine guided_logs G _ _ mode fuel (V.setBeta G.beta1) hdotref
      (fun W => W.setBeta (G.beta1 * G.betaRatio)) (fun _ => rfl) _ _ dt maxTime ?_ ?_ o ho <;>
    · intro W t δ out hW h
      exact segment_continuous name W (by rw [hW]; exact hP) mode I hI _ _ _ hdt out (Or.inl h)
  · refine guided_logs G _ _ mode fuel (V.setBeta G.beta1) hdotref
      (fun W => W.setBeta (G.beta1 * G.betaRatio)) (fun _ => rfl) _ _ dt maxTime ?_ ?_ o ho <;>
    · intro W t δ out hW h
      exact segment_continuous name W (by rw [hW]; exact hP) mode I' hI' _ _ _ hdt out (Or.inr h)

/-- C131, the first line (finding): it records time zero, where the vehicle is in its entry state, but altitude rate
zero; it is right only when the entry state has altitude rate zero.  The first acceleration is therefore the altitude
rate of its line divided by the elapsed time, whatever the entry state. -/
theorem C131_first_line (name : String) (G : GuideParams) (mode : ScipyMode) (I I' : Integrator)
    (hI : SolveIvpLike I) (hI' : SolveIvpLike I') (fuel : ℕ) (V : Vehicle) (hP : Planet.init name = .ok V.planet)
    (hdotref : Option (List (Option ℝ))) (ts tsX dt maxTime : ℝ) (hdt : 0 < dt) (o : GuidedOut)
    (ho : Vehicle.propogateGuidedEntry G mode I fuel V hdotref ts dt maxTime = some (.ok o) ∨
      Vehicle.propogateGuidedEntry2 G mode I I' fuel V hdotref ts dt maxTime = some (.ok o) ∨
      Vehicle.propogateGuidedEntryD G mode I fuel V hdotref ts tsX dt maxTime = some (.ok o) ∨
      Vehicle.propogateGuidedEntryD2 G mode I' fuel V hdotref ts tsX dt maxTime = some (.ok o)) :
    ∃ pts, Spec.Records o.fin.hist pts ∧ ∃ p, pts.head? = some p ∧ o.fin.tStep[0]? = some p.t ∧
      (o.fin.hdot[0]? = some (Spec.altRate p) ↔ V.init.v0Kms * sin (V.init.gamma0Deg * (π / 180)) = 0) ∧
      (∀ d t, o.fin.hdot[1]? = some d → o.fin.tStep[1]? = some t → t ≠ 0 →
        o.fin.hddot[1]? = some (some (d / (60 * t)))) := by
  obtain ⟨pts, p1, p2, p3⟩ := C131_step_log_partial name G mode I I' hI hI' fuel V hP hdotref ts tsX dt maxTime hdt o ho
  refine ⟨pts, p1, _, p2.1, p3.T0, ?_, ?_⟩
  · rw [p3.D0, Option.some.injEq, Spec.altRate, Spec.ptOf, mul_assoc, eq_comm]
    constructor
    · intro h; linarith
    · intro h; rw [h, mul_zero]
  · intro d t hd ht h0
    obtain ⟨p, -, d0, t0, a1, a2, a3, a4, a5⟩ := p3.line 0 (by
      rcases Nat.lt_or_ge 1 o.fin.tStep.length with h | h
      · exact h
      · rw [List.getElem?_eq_none h] at ht; cases ht)
    rw [p3.T0, Option.some.injEq] at a1
    rw [p3.D0, Option.some.injEq] at a2
    subst a1 a2
    rw [zero_add, ht, Option.some.injEq] at a3
    rw [zero_add, hd, Option.some.injEq] at a4
    rw [a5, ← a3, ← a4, Spec.meanAcc, if_neg h0, sub_zero, sub_zero]

/-- C131, altitudes and dynamic pressures of the entry phases (all four functions): except in the first line, which
is zero, `q_array` is the dynamic pressure in pascals, and `h_step_array` the altitude in kilometres (documented:
metres) of a point of the trajectory. -/
theorem C131_altitude_log_partial (name : String) (G : GuideParams) (mode : ScipyMode) (I I' : Integrator)
    (hI : SolveIvpLike I) (hI' : SolveIvpLike I') (F : EntryPhase)
    (hF : F ∈ [Vehicle.glide1 G mode I, Vehicle.glide2 G mode I I', Vehicle.drag1 G mode I, Vehicle.drag2 G mode I'])
    (fuel : ℕ) (V : Vehicle) (hP : Planet.init name = .ok V.planet) (hdotref : Option (List (Option ℝ)))
    (ts dt maxTime : ℝ) (hdt : 0 < dt) (s : EntryState)
    (h : entryPhase G F mode fuel V hdotref ts dt maxTime = some (.ok s)) :
    ∃ pts, Spec.Records s.hist pts ∧ Spec.Continuous V.init pts ∧ Spec.StepLog s.tStep s.hdot s.hddot pts ∧
      Spec.AltLog (V.planet.density V.atm) s.tStep s.hStep s.q pts := by
  refine (entry_logs G F mode fuel V hdotref ts dt maxTime ?_ s h).2
  intro W t δ out hW h
  simp only [List.mem_cons, List.not_mem_nil, or_false] at hF
  rcases hF with rfl | rfl | rfl | rfl
  · exact segment_continuous name W (by rw [hW]; exact hP) mode I hI _ _ _ hdt out (Or.inl h)
  · exact segment_continuous name W (by rw [hW]; exact hP) mode I' hI' _ _ _ hdt out (Or.inr h)
  · exact segment_continuous name W (by rw [hW]; exact hP) mode I hI _ _ _ hdt out (Or.inl h)
  · exact segment_continuous name W (by rw [hW]; exact hP) mode I' hI' _ _ _ hdt out (Or.inr h)

/-- Cases: the run at Mars of `C43_example`, which enters vertically at 4 km/s; its log has three lines, and the first
claims altitude rate zero. -/
example : ∃ (V : Vehicle) (o : GuidedOut) (s : EntryState) (pts pts' : List Spec.Pt) (p : Spec.Pt),
    Planet.init "MARS" = .ok V.planet ∧ o.fin.deltaDeg.length = 3 ∧
    Spec.StepLog o.fin.tStep o.fin.hdot o.fin.hddot pts ∧ pts.head? = some p ∧ Spec.altRate p = -4000 ∧
    o.fin.hdot[0]? = some 0 ∧ Spec.AltLog (V.planet.density V.atm) s.tStep s.hStep s.q pts' := by
  obtain ⟨V, G, I, o, h1, h2, h3, h4, h5, h6, -⟩ := guided_example 4 (by norm_num)
  have c := OdeintLike.toIvp h2
  obtain ⟨pts, p1, p2, p3⟩ := C131_step_log_partial "MARS" G .strict I I c c 3 V h1 none 1 1 0.1 600 (by norm_num) o
    (Or.inl h4)
  obtain ⟨s0, s, e, J, hr, a1, a2, -⟩ := guided_inv h4
  obtain ⟨pts', -, -, -, b⟩ := C131_altitude_log_partial "MARS" G .strict I I c c (Vehicle.glide1 G .strict I) (by simp) 3
    V h1 none 1 0.1 600 (by norm_num) s (by unfold entryPhase; rw [a1]; exact a2)
  refine ⟨V, o, s, pts, pts', _, h1, h5, p3, p2.1, ?_, p3.D0, b⟩
  rw [Spec.altRate, Spec.ptOf, h6]
  simp only
  rw [show (-90 : ℝ) * (π / 180) = -(π / 2) by ring, sin_neg, sin_pi_div_two]
  norm_num

end AMAT.Props
