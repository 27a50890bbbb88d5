import Verif.Props.MonteCarloProps
import Verif.Props.GuidedSwitch
import Verif.Props.HeatingProps

/-
Property C78: the heat load recorded by the Monte Carlo simulations.
-/

noncomputable section

namespace AMAT.Props

open Real

/-- Specification: the recorded flight as pairs of time (s) and stagnation-point heating rate. -/
def Spec.flight (H : Hist) : List (ℝ × ℝ) := List.zip (H.t.map (· * 60)) H.qStagTotal

/-- Specification: the flight was recorded in the segments `segs`, whose heat loads add up to that of the flight, and the
heat-load history restarts from zero in each of them. -/
structure Spec.Segmented (H : Hist) (segs : List (List (ℝ × ℝ))) : Prop where
  flight : Spec.flight H = segs.flatten
  nonempty : ∀ s ∈ segs, s ≠ []
  total : Spec.trapz (Spec.flight H) = (segs.map Spec.trapz).sum
  loads : H.heatload = segs.flatMap fun s => (List.range s.length).map fun i => Spec.trapz (s.take (i + 1))

theorem trapzFrom_eq (l : List (ℝ × ℝ)) (hl : l ≠ []) :
    0 :: trapzFrom 0 l = (List.range l.length).map fun i => Spec.trapz (l.take (i + 1)) := by
  have len : ∀ (acc : ℝ) (l : List (ℝ × ℝ)), (trapzFrom acc l).length = l.length - 1 := by
    intro acc l
    induction l generalizing acc with
    | nil => rfl
    | cons p l ih => cases l with
      | nil => rfl
      | cons q l => simp only [trapzFrom, List.length_cons, ih]; simp
  have hp : 0 < l.length := List.length_pos_iff.mpr hl
  refine List.ext_getElem? fun i => ?_
  by_cases hi : i < l.length
  · rw [cumsum_getElem? 0 l i hi, List.getElem?_map, List.getElem?_range hi]
    simp
  · rw [List.getElem?_eq_none (by simp [len]; omega), List.getElem?_eq_none (by simpa using hi)]

/-- Two pieces that meet in time. -/
theorem trapz_join (a b : List (ℝ × ℝ)) (p q : ℝ × ℝ) (hp : a.getLast? = some p) (hq : b.head? = some q)
    (h : p.1 = q.1) : Spec.trapz (a ++ b) = Spec.trapz a + Spec.trapz b := by
  obtain ⟨a', rfl⟩ := List.getLast?_eq_some_iff.mp hp
  cases b with
  | nil => simp at hq
  | cons r b =>
    simp only [List.head?_cons, Option.some.injEq] at hq
    subst hq
    rw [List.append_assoc, List.singleton_append, trapz_append]
    simp only [Spec.trapz]
    rw [h]; ring

/-- What one segment contributes. -/
structure SegmentOk (out : PropOut) : Prop where
  lens : (Hist.ofOut out).t.length = (Hist.ofOut out).qStagTotal.length
  start : (Hist.ofOut out).t.head? = some 0
  loads : out.heatload = (List.range (Spec.flight (Hist.ofOut out)).length).map fun i =>
    Spec.trapz ((Spec.flight (Hist.ofOut out)).take (i + 1))

theorem flight_length {H : Hist} (h : H.t.length = H.qStagTotal.length) : (Spec.flight H).length = H.t.length := by
  simp [Spec.flight, ← h]

theorem flight_extend {a b : Hist} (h : a.t.length = a.qStagTotal.length) (tE : ℝ) :
    Spec.flight (a.extend b tE) = Spec.flight a ++ (Spec.flight b).map fun p => (p.1 + tE * 60, p.2) := by
  unfold Spec.flight Hist.extend
  simp only [List.map_append, List.map_map]
  rw [List.zip_append (by simpa using h)]
  congr 1
  have : (fun p : ℝ × ℝ => (p.1 + tE * 60, p.2)) = Prod.map (· + tE * 60) id := rfl
  rw [this, ← List.zip_map_left, List.map_map]
  congr 2
  funext x
  simp only [Function.comp]
  ring

theorem segmented_one {out : PropOut} (h : SegmentOk out) :
    Spec.Segmented (Hist.ofOut out) [Spec.flight (Hist.ofOut out)] := by
  refine ⟨by simp, ?_, by simp, ?_⟩
  · intro s hs
    rw [List.mem_singleton] at hs
    subst hs
    intro hn
    have h1 := flight_length h.lens
    rw [hn] at h1
    have := h.start
    rw [List.length_eq_zero_iff.mp h1.symm] at this
    simp at this
  · show out.heatload = _
    simpa using h.loads

theorem segmented_extend {H : Hist} {segs : List (List (ℝ × ℝ))} {out : PropOut} {tE : ℝ}
    (hl : H.t.length = H.qStagTotal.length) (hs : Spec.Segmented H segs) (ho : SegmentOk out) (ht : H.t.getLast? = some tE) :
    (H.extend (Hist.ofOut out) tE).t.length = (H.extend (Hist.ofOut out) tE).qStagTotal.length ∧
    Spec.Segmented (H.extend (Hist.ofOut out) tE)
      (segs ++ [(Spec.flight (Hist.ofOut out)).map fun p => (p.1 + tE * 60, p.2)]) := by
  have hne := (segmented_one ho).nonempty _ (List.mem_singleton.mpr rfl)
  have hshift : ∀ l : List (ℝ × ℝ), Spec.trapz (l.map fun p => (p.1 + tE * 60, p.2)) = Spec.trapz l :=
    fun l => trapz_shift l (tE * 60)
  refine ⟨by simp [Hist.extend, hl, ho.lens], ?_, ?_, ?_, ?_⟩
  · rw [flight_extend hl, hs.flight]; simp
  · intro s h
    rw [List.mem_append, List.mem_singleton] at h
    rcases h with h | rfl
    · exact hs.nonempty s h
    · simpa using hne
  · rw [flight_extend hl]
    obtain ⟨p, hp⟩ : ∃ p, (Spec.flight H).getLast? = some p ∧ p.1 = tE * 60 := by
      obtain ⟨t', ht'⟩ := List.getLast?_eq_some_iff.mp ht
      rcases List.eq_nil_or_concat H.qStagTotal with hq | ⟨q', q, hq⟩
      · rw [hq, ht'] at hl; simp at hl
      · refine ⟨(tE * 60, q), ?_, rfl⟩
        have : t'.length = q'.length := by rw [hq, ht'] at hl; simpa using hl
        unfold Spec.flight
        rw [hq, ht', List.map_append, List.concat_eq_append, List.zip_append (by simpa using this)]
        simp
    obtain ⟨q, hq⟩ : ∃ q, (Spec.flight (Hist.ofOut out)).head? = some q ∧ q.1 = 0 := by
      have := ho.start
      cases ht : (Hist.ofOut out).t with
      | nil => rw [ht] at this; simp at this
      | cons a t =>
        have hl2 := ho.lens
        rw [ht] at this hl2
        cases hq : (Hist.ofOut out).qStagTotal with
        | nil => rw [hq] at hl2; simp at hl2
        | cons b q =>
          refine ⟨(a * 60, b), by simp [Spec.flight, ht, hq], ?_⟩
          simp only [List.head?_cons, Option.some.injEq] at this
          simp [this]
    rw [trapz_join _ _ p (q.1 + tE * 60, q.2) hp.1 (by rw [List.head?_map, hq.1]; rfl) (by rw [hp.2, hq.2]; ring), hs.total,
      List.map_append, List.sum_append]
    simp
  · simp only [Hist.extend, hs.loads, List.flatMap_append]
    congr 1
    have : (Hist.ofOut out).heatload = out.heatload := rfl
    simp only [List.flatMap_cons, List.flatMap_nil, List.append_nil, this, ho.loads, List.length_map, ← List.map_take, hshift]

/-- The segments of a guided entry; `GoodV` is whatever is known of the vehicle at the start of each segment and `Q` what
follows for its heat load. -/
theorem guided_segments (G : GuideParams) (FE : EntryPhase) (FX : ExitPhase) (mode : ScipyMode)
    (fuel : ℕ) (V : Vehicle) (hdotref : Option (List (Option ℝ)))
    (prep : Vehicle → Vehicle) (tsE tsX dt maxTime : ℝ) (GoodV : Vehicle → Prop) (Q : List (ℝ × ℝ) → Prop) (h0 : GoodV V)
    (hQ : ∀ (l : List (ℝ × ℝ)) (c : ℝ), Q l → Q (l.map fun p => (p.1 + c, p.2)))
    (hprep : ∀ W y, GoodV (W.setInitialState y) → GoodV ((prep W).setInitialState y))
    (good : ∀ W t δ out, GoodV W → (t = 1.0 ∨ t = tsE ∨ t = tsX) → (FE.prop W t dt δ = .ok out ∨ FX.prop W t dt δ = .ok out) →
      SegmentOk out ∧ Q (Spec.flight (Hist.ofOut out)) ∧
      ∀ J, ∃ y, (Hist.ofOut out).last J = .ok y ∧ GoodV (W.setInitialState y))
    (o : GuidedOut) (ho : Vehicle.guided G FE FX mode fuel V hdotref prep tsE tsX dt maxTime = some (.ok o)) :
    ∃ segs, Spec.Segmented o.fin.hist segs ∧ segs.length = o.fin.deltaDeg.length ∧ ∀ s ∈ segs, Q s := by
  obtain ⟨s0, s, e, J, hr, h1, h2, h3, h4, h5⟩ := guided_inv ho
  obtain ⟨out, v, hout, _, rfl⟩ := entryStart_inv h1
  let Inv : Vehicle → Hist → List ℝ → Prop := fun W H d =>
    H.t.length = H.qStagTotal.length ∧ (∀ J y, H.last J = .ok y → GoodV (W.setInitialState y)) ∧
    ∃ segs, Spec.Segmented H segs ∧ segs.length = d.length ∧ ∀ s ∈ segs, Q s
  have step : ∀ (W : Vehicle) (H : Hist) (d : List ℝ) (J : ℝ) (x : InitState) (t δ tE : ℝ) (out : PropOut), Inv W H d →
      (t = tsE ∨ t = tsX) → H.last J = .ok x → (FE.prop (W.setInitialState x) t dt δ = .ok out ∨ FX.prop (W.setInitialState x) t dt δ = .ok out) →
      H.t.getLast? = some tE → Inv (W.setInitialState x) (H.extend (Hist.ofOut out) tE) (d ++ [δ]) := by
    rintro W H d J x t δ tE out ⟨i1, i2, segs, i3, i4, i5⟩ htt hx hprop htE
    obtain ⟨k1, k2, k3⟩ := good _ _ _ _ (i2 _ _ hx) (Or.inr htt) hprop
    obtain ⟨m1, m2⟩ := segmented_extend i1 i3 k1 htE
    refine ⟨m1, ?_, _, m2, by simp [i4], ?_⟩
    · intro J' y hy
      obtain ⟨y', hy', hg⟩ := k3 J'
      rw [extend_last hy', Except.ok.injEq] at hy
      rw [← hy]
      exact hg
    · intro s hs
      rw [List.mem_append, List.mem_singleton] at hs
      rcases hs with hs | rfl
      · exact i5 s hs
      · exact hQ _ _ k2
  obtain ⟨k1, k2, k3⟩ := good _ _ _ _ h0 (Or.inl rfl) (Or.inl hout)
  have a := entryLoop_invariant (fun s => Inv s.V s.hist s.deltaDeg) (by
    rintro s s' b hs hcy
    obtain ⟨J, x, delta, qref, out, tEnd, J', y, hd, tOld, an, ad, fn, apo, -, hx, -, hprop, htE, -, -, -, -, -, -, -, -, rfl, -⟩ :=
      entryCycle_inv hcy
    exact step _ _ _ _ _ _ _ _ _ hs (Or.inl rfl) hx (Or.inl hprop) htE) fuel _ s
    ⟨k1.lens, (fun J y hy => by
      obtain ⟨y', hy', hg⟩ := k3 J
      rw [hy', Except.ok.injEq] at hy
      rw [← hy]; exact hg), _, segmented_one k1, rfl, by simpa using k2⟩ h2
  obtain ⟨hk, p, _, hp, _, _, rfl⟩ := exitStart_inv h3
  have b := exitLoop_invariant (fun s => Inv s.V s.hist s.deltaDeg) (by
    rintro s s' b hs hcy
    obtain ⟨x, out, tEnd, y, hd, tOld, hx, hprop, htE, -, -, -, rfl, -⟩ := exitCycle_inv hcy
    exact step _ _ _ _ _ _ _ _ _ hs (Or.inr rfl) hx (Or.inr hprop) htE) fuel _ o.fin
    ⟨a.1, fun J y hy => hprep _ _ (a.2.1 J y hy), a.2.2⟩ h4
  exact b.2.2

/-- Every successful segment contributes as described. -/
theorem segment_ok (name : String) (V : Vehicle) (hP : Planet.init name = .ok V.planet) (mode : ScipyMode)
    (I : Integrator) (hI : SolveIvpLike I) (tSec dt deltaDeg : ℝ) (hdt : 0 < dt) (out : PropOut)
    (h : V.propogateEntry mode I tSec dt deltaDeg = .ok out) :
    SegmentOk out ∧ Spec.flight (Hist.ofOut out) = List.zip out.c.t out.qStagTotal ∧
      ∀ J, ∃ y, (Hist.ofOut out).last J = .ok y := by
  obtain ⟨pts, hr, hc⟩ := segment_continuous name V hP mode I hI tSec dt deltaDeg hdt out (Or.inl h)
  have hfl : Spec.flight (Hist.ofOut out) = List.zip out.c.t out.qStagTotal := by
    obtain ⟨idx, flag, qc, qr, heat, -, -, -, -, rfl⟩ := postProcess_inv h
    unfold Spec.flight Hist.ofOut
    congr 1
    simp only [TrajArrays.truncate, Planet.toPlotUnits, ← List.map_take, List.map_map]
    conv_rhs => rw [← List.map_id (List.take idx (V.planet.dimensionalizeArr _).t)]
    congr 1
    funext x
    simp only [Function.comp, id]
    have : (60.0:ℝ) = 60 := by norm_num
    rw [this]; ring
  have hlen : (Hist.ofOut out).t.length = (Hist.ofOut out).qStagTotal.length := by
    rw [hr.t, hr.qStagTotal, List.length_map]
  have hpt : ∃ p ps, pts = p :: ps := by
    cases pts with
    | nil => exact absurd hc.1 (by simp)
    | cons p ps => exact ⟨p, ps, rfl⟩
  refine ⟨⟨hlen, ?_, ?_⟩, hfl, ?_⟩
  · rw [hr.t, List.head?_map, hc.1]; rfl
  · have hne : Spec.flight (Hist.ofOut out) ≠ [] := by
      intro hn
      have := flight_length hlen
      rw [hn, hr.t] at this
      obtain ⟨p, ps, rfl⟩ := hpt
      simp at this
    rw [← trapzFrom_eq _ hne, hfl]
    obtain ⟨idx, flag, qc, qr, heat, -, -, -, hh, rfl⟩ := postProcess_inv h
    exact (cumTrapz_ok hh).2.1
  · intro J
    obtain ⟨p, ps, rfl⟩ := hpt
    obtain ⟨q, hq⟩ : ∃ q, (p :: ps).getLast? = some q := ⟨_, List.getLast?_cons⟩
    refine ⟨⟨q.h, q.theta, q.phi, q.v, q.psi, q.gamma, q.drange, J⟩, last_ok.mpr ?_⟩
    rw [hr.h, hr.theta, hr.phi, hr.v, hr.psi, hr.gamma, hr.drange]
    simp only [List.getLast?_map, hq, Option.map_some, and_self]

/-- C78: the flight recorded by a guided entry with the first integrator consists of one segment per guidance command;
the heat loads of the segments add up to that of the flight, but the recorded heat-load history restarts from zero with
every segment. -/
theorem C78_segments (name : String) (G : GuideParams) (mode : ScipyMode) (I : Integrator)
    (hI : SolveIvpLike I) (fuel : ℕ) (V : Vehicle) (hP : Planet.init name = .ok V.planet)
    (hdotref : Option (List (Option ℝ))) (ts tsX dt maxTime : ℝ) (hdt : 0 < dt) (o : GuidedOut)
    (ho : Vehicle.propogateGuidedEntry G mode I fuel V hdotref ts dt maxTime = some (.ok o) ∨
      Vehicle.propogateGuidedEntryD G mode I fuel V hdotref ts tsX dt maxTime = some (.ok o)) :
    ∃ segs, Spec.Segmented o.fin.hist segs ∧ segs.length = o.fin.deltaDeg.length := by
  have seg : ∀ (W : Vehicle) (t δ : ℝ) (out : PropOut), W.planet = V.planet → W.propogateEntry mode I t dt δ = .ok out →
      SegmentOk out ∧ True ∧ ∀ J, ∃ y, (Hist.ofOut out).last J = .ok y ∧ (W.setInitialState y).planet = V.planet := by
    intro W t δ out hW h
    obtain ⟨k1, -, k2⟩ := segment_ok name W (by rw [hW]; exact hP) mode I hI t dt δ hdt out h
    refine ⟨k1, trivial, fun J => ?_⟩
    obtain ⟨y, hy⟩ := k2 J
    exact ⟨y, hy, hW⟩
  rcases ho with ho | ho
  · simp only [Vehicle.propogateGuidedEntry] at ho
    obtain ⟨segs, h1, h2, -⟩ := guided_segments G (Vehicle.glide1 G mode I) (Vehicle.exit1 G mode I) mode fuel V hdotref _ _ _ dt maxTime (fun W => W.planet = V.planet)
      (fun _ => True) rfl (fun _ _ h => h) (fun _ _ h => h) (by
        intro W t δ out hW _ h
        exact seg W t δ out hW (h.elim id id)) o ho
    exact ⟨segs, h1, h2⟩
  · simp only [Vehicle.propogateGuidedEntryD] at ho
    obtain ⟨segs, h1, h2, -⟩ := guided_segments G (Vehicle.drag1 G mode I) (Vehicle.exitD1 mode I) mode fuel (V.setBeta G.beta1)
      hdotref (fun W => W.setBeta (G.beta1 * G.betaRatio)) _ _ dt maxTime (fun W => W.planet = V.planet)
      (fun _ => True) rfl (fun _ _ h => h) (fun _ _ h => h) (by
        intro W t δ out hW _ h
        exact seg W t δ out hW (h.elim id id)) o ho
    exact ⟨segs, h1, h2⟩

/-- The greatest of the running integrals over the segments. -/
theorem worst_segment {loads : List ℝ} {segs : List (List (ℝ × ℝ))} {j : ℝ}
    (hl : loads = segs.flatMap fun s => (List.range s.length).map fun i => Spec.trapz (s.take (i + 1)))
    (hne : ∀ s ∈ segs, s ≠ []) (hs : ∀ s ∈ segs, s.Pairwise fun p q => p.1 ≤ q.1) (hq : ∀ s ∈ segs, ∀ p ∈ s, 0 ≤ p.2)
    (hj : pyMax loads = .ok j) : j ∈ segs.map Spec.trapz ∧ ∀ s ∈ segs, Spec.trapz s ≤ j := by
  have hlne : loads ≠ [] := by
    rintro rfl
    exact absurd hj (by simp [pyMax])
  obtain ⟨m, hm, hmem, hmax⟩ := pyMax_spec hlne
  rw [hm, Except.ok.injEq] at hj
  subst hj
  have top : ∀ s ∈ segs, Spec.trapz s ≤ m := by
    intro s h
    apply hmax
    rw [hl, List.mem_flatMap]
    have hp : 0 < s.length := List.length_pos_iff.mpr (hne s h)
    refine ⟨s, h, List.mem_map.mpr ⟨s.length - 1, by rw [List.mem_range]; omega, ?_⟩⟩
    rw [Nat.sub_add_cancel hp, List.take_length]
  refine ⟨?_, top⟩
  rw [hl, List.mem_flatMap] at hmem
  obtain ⟨s, h, hm'⟩ := hmem
  obtain ⟨i, hi, rfl⟩ := List.mem_map.mp hm'
  rw [List.mem_range] at hi
  refine List.mem_map.mpr ⟨s, h, le_antisymm (top s h) ?_⟩
  have hsub := trapz_take_sub s i (s.length - 1) (by omega) (by omega)
  rw [Nat.sub_add_cancel (by omega), List.take_length] at hsub
  have : 0 ≤ Spec.trapz (s.drop i) :=
    trapz_nonneg ((hs s h).sublist (List.drop_sublist _ _)) fun p hp => hq s h p (List.mem_of_mem_drop hp)
  linarith

/-- The recorded times never decrease. -/
theorem flight_sorted {H : Hist} {pts : List Spec.Pt} {x : InitState} (hr : Spec.Records H pts) (hc : Spec.Continuous x pts) :
    (Spec.flight H).Pairwise fun p q => p.1 ≤ q.1 := by
  have h1 : pts.Pairwise fun a b => a.t ≤ b.t := by
    have hch : pts.IsChain fun a b => a.t ≤ b.t := hc.2.imp fun a b h => h.elim le_of_lt fun e => by rw [e]
    have : Trans (fun a b : Spec.Pt => a.t ≤ b.t) (fun a b : Spec.Pt => a.t ≤ b.t) (fun a b : Spec.Pt => a.t ≤ b.t) :=
      ⟨fun h1 h2 => le_trans h1 h2⟩
    exact List.isChain_iff_pairwise.mp hch
  have h2 : ((Spec.flight H).map Prod.fst).Pairwise (· ≤ ·) := by
    unfold Spec.flight
    rw [List.map_fst_zip (by rw [List.length_map, hr.t, hr.qStagTotal, List.length_map]), hr.t, List.map_map, List.pairwise_map]
    refine h1.imp fun h => ?_
    simp only [Function.comp]
    linarith
  rwa [List.pairwise_map] at h2

/-- C78 (finding): the heat load logged by `runMonteCarlo`, `runMonteCarloD` and `runMonteCarloD_Earth` is that of the
segment between two guidance commands with the greatest load, not that of the flight, which is the sum over the
segments. -/
theorem C78_worst_segment_logged (name : String) (G : GuideParams) (mode : ScipyMode) (I : Integrator)
    (hI : SolveIvpLike I) (ts tsX dt mt : ℝ) (hdt : 0 < dt) (M : MCVariant)
    (hM : M = Vehicle.runMonteCarlo G mode I ts dt mt ∨ M = Vehicle.runMonteCarloD G mode I ts tsX dt mt)
    (S : MCSetup) (fuel : ℕ) (s t : MCState) (hP : Planet.init name = .ok s.V.planet) (x : MCSample) (r : MCRecord)
    (h : mcRun M S fuel s x = some (.ok (t, r))) :
    ∃ o segs, t.last = some o ∧ Spec.Segmented o.fin.hist segs ∧ segs.length = o.fin.deltaDeg.length ∧
      ((∀ q ∈ o.fin.hist.qStagTotal, 0 ≤ q) →
        r.heatloadMax ∈ segs.map Spec.trapz ∧ ∀ s ∈ segs, Spec.trapz s ≤ r.heatloadMax) := by
  obtain ⟨rows, f, o, h1, h2, h3, h4, rfl⟩ := mcRun_inv h
  have hheat : M.heat = heatOfSegments := by rcases hM with rfl | rfl <;> rfl
  have hPW : Planet.init name = .ok (mcReady S s.V x f).planet := hP
  obtain ⟨segs, e1, e2⟩ : ∃ segs, Spec.Segmented o.fin.hist segs ∧ segs.length = o.fin.deltaDeg.length := by
    rcases hM with rfl | rfl
    · exact C78_segments name G mode I hI fuel _ hPW s.hdotref ts tsX dt mt hdt o (Or.inl h3)
    · exact C78_segments name G mode I hI fuel _ hPW s.hdotref ts tsX dt mt hdt o (Or.inr h3)
  obtain ⟨pts, hr, hc⟩ : ∃ pts, Spec.Records o.fin.hist pts ∧ Spec.Continuous (mcReady S s.V x f).init pts := by
    rcases hM with rfl | rfl
    · exact C43_histories_continuous name G mode I I hI hI fuel _ hPW s.hdotref ts tsX dt mt hdt o (Or.inl h3)
    · exact C43_histories_continuous name G mode I I hI hI fuel _ hPW s.hdotref ts tsX dt mt hdt o
        (Or.inr (Or.inr (Or.inl h3)))
  refine ⟨o, segs, rfl, e1, e2, fun hq => ?_⟩
  have hj : pyMax o.fin.hist.heatload = .ok r.heatloadMax := by
    have hj := (mcRecord_inv h4).2.2.2.2.2.2.2
    rw [hheat] at hj
    exact hj
  have sub : ∀ s ∈ segs, s.Sublist (Spec.flight o.fin.hist) := by
    intro s hs
    rw [e1.flight]
    exact List.sublist_flatten_of_mem hs
  refine worst_segment e1.loads e1.nonempty (fun s hs => (flight_sorted hr hc).sublist (sub s hs)) (fun s hs p hp => ?_) hj
  exact hq _ (List.of_mem_zip ((sub s hs).subset hp)).2

/-- C78, for the versions with the second integrator: the heat load logged by `runMonteCarlo2` and `runMonteCarloD2` is
that of the whole flight, in thousands of the unit of the histories. -/
theorem C78_flight_total_partial (name : String) (G : GuideParams) (mode : ScipyMode) (I I' : Integrator)
    (hI : SolveIvpLike I) (hI' : SolveIvpLike I') (ts tsX dt mt : ℝ) (hdt : 0 < dt) (M : MCVariant)
    (hM : M = Vehicle.runMonteCarlo2 G mode I I' ts dt mt ∨ M = Vehicle.runMonteCarloD2 G mode I' ts tsX dt mt)
    (S : MCSetup) (fuel : ℕ) (s t : MCState) (hP : Planet.init name = .ok s.V.planet) (x : MCSample) (r : MCRecord)
    (h : mcRun M S fuel s x = some (.ok (t, r))) :
    ∃ o, t.last = some o ∧ ((∀ q ∈ o.fin.hist.qStagTotal, 0 ≤ q) →
      r.heatloadMax = Spec.trapz (Spec.flight o.fin.hist) / 1000) := by
  obtain ⟨rows, f, o, h1, h2, h3, h4, rfl⟩ := mcRun_inv h
  have hheat : M.heat = heatOfFlight mode := by rcases hM with rfl | rfl <;> rfl
  have hPW : Planet.init name = .ok (mcReady S s.V x f).planet := hP
  obtain ⟨pts, hr, hc⟩ : ∃ pts, Spec.Records o.fin.hist pts ∧ Spec.Continuous (mcReady S s.V x f).init pts := by
    rcases hM with rfl | rfl
    · exact C43_histories_continuous name G mode I I' hI hI' fuel _ hPW s.hdotref ts tsX dt mt hdt o (Or.inr (Or.inl h3))
    · exact C43_histories_continuous name G mode I I' hI hI' fuel _ hPW s.hdotref ts tsX dt mt hdt o
        (Or.inr (Or.inr (Or.inr h3)))
  refine ⟨o, rfl, fun hq => ?_⟩
  have hj := (mcRecord_inv h4).2.2.2.2.2.2.2
  rw [hheat] at hj
  unfold heatOfFlight at hj
  simp only [except_bind_ok, pure, Except.pure, Except.ok.injEq] at hj
  obtain ⟨l, hl, m, hm, hj⟩ := hj
  obtain ⟨hne, rfl, -⟩ := cumTrapz_ok hl
  have hw := worst_segment (segs := [Spec.flight o.fin.hist]) (by
      rw [trapzFrom_eq _ hne]; simp [Spec.flight]) (by
      intro s hs
      rw [List.mem_singleton] at hs
      subst hs
      exact hne) (by simpa using flight_sorted hr hc) (by
      intro s hs p hp
      rw [List.mem_singleton] at hs
      subst hs
      exact hq _ (List.of_mem_zip hp).2) hm
  have : m = Spec.trapz (Spec.flight o.fin.hist) := by simpa using hw.1
  rw [← hj, this]
  norm_num

theorem sum_gt {l : List ℝ} (hp : ∀ x ∈ l, 0 < x) (hl : 2 ≤ l.length) {j : ℝ} (hj : j ∈ l) : j < l.sum := by
  obtain ⟨a, b, rfl⟩ := List.append_of_mem hj
  have ha : 0 ≤ a.sum := List.sum_nonneg fun x hx => (hp x (by simp [hx])).le
  have hb : 0 ≤ b.sum := List.sum_nonneg fun x hx => (hp x (by simp [hx])).le
  have hpos : 0 < a.sum + b.sum := by
    cases a with
    | nil =>
      cases b with
      | nil => simp at hl
      | cons c b =>
        have := hp c (by simp)
        have hb : 0 ≤ b.sum := List.sum_nonneg fun x hx => (hp x (by simp [hx])).le
        simp only [List.sum_nil, List.sum_cons]; linarith
    | cons c a =>
      have := hp c (by simp)
      have ha : 0 ≤ a.sum := List.sum_nonneg fun x hx => (hp x (by simp [hx])).le
      simp only [List.sum_cons]; linarith
  simp only [List.sum_append, List.sum_cons]
  linarith

/-- Every segment of the example heats the vehicle. -/
theorem example_heats (P : Planet) (hP : Planet.init "MARS" = .ok P) (f : ℝ → ℝ) (hf : ∀ x, 0 ≤ x → x ≤ 200000 → f x = 1)
    (W : Vehicle) (hW : W.planet = P ∧ W.atm.densityInt = f ∧ W.RN = 1 ∧ 10 < W.init.h0Km ∧ W.init.h0Km < 120 ∧
      W.init.v0Kms = 4) (t δ : ℝ) (ht : 0 < t) (out : PropOut)
    (h : W.propogateEntry .strict (exampleIntegrator P) t 0.1 δ = .ok out) :
    SegmentOk out ∧ 0 < Spec.trapz (Spec.flight (Hist.ofOut out)) ∧ ∀ p ∈ Spec.flight (Hist.ofOut out), 0 ≤ p.2 := by
  obtain ⟨w1, w2, w3, w4, w5, w6⟩ := hW
  have hPW : Planet.init "MARS" = .ok W.planet := by rw [w1]; exact hP
  have hR : P.RP = 3389.5e3 := by simp [Planet.init] at hP; subst hP; rfl
  have hT : P.hTrap = 10e3 := by simp [Planet.init] at hP; subst hP; rfl
  have hS : P.hSkip = 120e3 := by simp [Planet.init] at hP; subst hP; rfl
  have hVr : 0 < P.Vref := (C01_planet_consistent _ _ hP).2.2.2.2.2.2.2.2.1
  have hIv : SolveIvpLike (exampleIntegrator P) := OdeintLike.toIvp (jumpIntegrator_ok _)
  have hρ : (P.RP + 119000) / P.RP * P.RP - P.RP = 119000 := by
    have : P.RP ≠ 0 := by rw [hR]; norm_num
    rw [div_mul_cancel₀ _ this]; ring
  obtain ⟨k1, k2, -⟩ := segment_ok "MARS" W hPW .strict _ hIv t 0.1 δ (by norm_num) out h
  obtain ⟨i2, hv⟩ := segment_jump_points "MARS" W hPW .strict (fun y => { y with r := (P.RP + 119000) / P.RP }) t 0.1 δ ht
    (by norm_num) (by rw [w1, hT]; linarith) (by rw [w1, hS]; linarith) (by rw [w1, hT]; simp only; rw [hρ]; norm_num)
    (by rw [w1, hS]; simp only; rw [hρ]; norm_num) out h
  have hrr : ∀ x ∈ out.c.r, 0 < W.planet.rhoVec W.atm x := by
    obtain ⟨S, hSm, hne, hq⟩ := samples_jump "MARS" W hPW (fun y => { y with r := (P.RP + 119000) / P.RP }) t 0.1 δ ht
      (by norm_num)
    obtain ⟨_, _, _, hr, _⟩ := C24_arrays_aligned W .strict _ t 0.1 δ out h
    intro x hx
    rw [hr] at hx
    obtain ⟨p, hp, rfl⟩ := List.mem_map.mp hx
    have hp' := List.mem_of_mem_take hp
    rw [show samples W (exampleIntegrator P) t 0.1 δ = _ from hSm] at hp'
    have halt : 0 ≤ p.2.r * P.RP - P.RP ∧ p.2.r * P.RP - P.RP ≤ 200000 := by
      rcases List.mem_cons.mp hp' with rfl | hp'
      · simp only [Planet.nonDimState, Vehicle.entryState, Planet.computeR, w1]
        have : P.RP ≠ 0 := by rw [hR]; norm_num
        rw [div_mul_cancel₀ _ this, show (1.0e3:ℝ) = 1000 by norm_num]
        constructor <;> linarith
      · rw [hq p hp']
        simp only [hρ]; norm_num
    rw [w1]
    simp only [Planet.rhoVec, w2]
    rw [hf _ halt.1 halt.2]
    exact one_pos
  have hvv : ∀ v ∈ out.c.v, 0 < v := by
    intro v hv'
    have : 0 < (W.planet.nonDimState (Vehicle.entryState W.planet W.init)).v * W.planet.Vref := by
      simp only [Planet.nonDimState, Vehicle.entryState, w1, w6]
      rw [div_mul_cancel₀ _ hVr.ne']; norm_num
    rcases hv v hv' with rfl | rfl
    · exact this
    · exact this
  obtain ⟨J, hJ, hJ0⟩ := segment_heats "MARS" W hPW .strict _ hIv t 0.1 δ (by norm_num) (by rw [w3]; norm_num) out h hrr hvv i2
  have hrate := segment_rates "MARS" W hPW .strict _ t 0.1 δ (by rw [w3]; norm_num) out h hrr hvv
  refine ⟨k1, ?_, fun p hp => (hrate _ (List.of_mem_zip hp).2).le⟩
  have hlen := (segmented_one k1).nonempty _ (List.mem_singleton.mpr rfl)
  have hp : 0 < (Spec.flight (Hist.ofOut out)).length := List.length_pos_iff.mpr hlen
  rw [k1.loads, List.getLast?_map, List.getLast?_range, if_neg hp.ne'] at hJ
  simp only [Option.map_some, Option.some.injEq, Nat.sub_add_cancel hp, List.take_length] at hJ
  rw [hJ]; exact hJ0

/-- C78 (finding), the claim is false: a run of `runMonteCarlo` at Mars, with the SciPy version of the lock file, whose
logged heat load is smaller than that of its flight.  Case for `C78_segments` and `C78_worst_segment_logged`. -/
theorem C78_underreported : ∃ (P : Planet) (S : MCSetup) (s t : MCState) (x : MCSample) (r : MCRecord) (o : GuidedOut),
    Planet.init "MARS" = .ok P ∧ s.V.planet = P ∧ OdeintLike (exampleIntegrator P) ∧
    mcRun (Vehicle.runMonteCarlo exampleGuide .strict (exampleIntegrator P) 1 0.1 600) S 3 s x = some (.ok (t, r)) ∧
    t.last = some o ∧ (∀ q ∈ o.fin.hist.qStagTotal, 0 ≤ q) ∧ 0 < r.heatloadMax ∧
    r.heatloadMax < Spec.trapz (Spec.flight o.fin.hist) := by
  obtain ⟨P, hP⟩ := (C01_planet_names "MARS").1.mpr (by simp [Spec.bodies])
  let rows : List DensRow := [⟨0, 1, 1, 1, 0⟩, ⟨200000, 1, 1, 1, 0⟩]
  let V0 := exampleVehicle P ⟨fun _ => 1, fun _ => 1, fun _ => 1, fun _ => 1⟩ 4
  let S : MCSetup := V0.setupMonteCarlo (fun _ => .ok rows) 2
  let x : MCSample := ⟨"profiles.txt", 1, -90, 0, 1⟩
  obtain ⟨f, hf, hf1⟩ : ∃ f, loadAtmosphereModel5 rows 0 2 1 = .ok f ∧ ∀ x, 0 ≤ x → x ≤ 200000 → f x = 1 := by
    obtain ⟨f, h1, h2, -⟩ := constant_profile
    exact ⟨f, h1, h2⟩
  let M := Vehicle.runMonteCarlo exampleGuide .strict (exampleIntegrator P) 1 0.1 600
  have hI : OdeintLike (exampleIntegrator P) := jumpIntegrator_ok _
  let V1 := exampleVehicle P ⟨f, fun _ => 1, fun _ => 1, fun _ => 1⟩ 4
  obtain ⟨o, ho, hlen, hl, -⟩ := guided_run P hP 4 (by norm_num) ⟨f, fun _ => 1, fun _ => 1, fun _ => 1⟩ (by
    show 0 < f 119000; rw [hf1 _ (by norm_num) (by norm_num)]; norm_num)
  obtain ⟨pts, hp, hc⟩ := C43_histories_continuous "MARS" exampleGuide .strict _ _ (OdeintLike.toIvp hI)
    (OdeintLike.toIvp hI) 3 V1 hP none 1 1 0.1 600 (by norm_num) o (Or.inl ho)
  have hne : pts ≠ [] := by
    rintro rfl
    exact absurd hc.1 (by simp)
  have hfly : M.fly 3 (mcReady S V0 x f) none = some (.ok o) := ho
  obtain ⟨r, hrun⟩ := mcRun_of_flight (M := M) (S := S) (s := ⟨V0, none, none⟩) (x := x) hf hfly hp hne (by
    obtain ⟨m, hm, -⟩ := pyMax_spec (l := o.fin.hist.heatload) (by
      rintro h
      have := hp.heatload
      rw [h] at this
      exact hne (List.length_eq_zero_iff.mp this.symm))
    exact ⟨m, hm⟩)
  have ho' := ho
  simp only [Vehicle.propogateGuidedEntry] at ho'
  obtain ⟨segs, s1, s2, s3⟩ := guided_segments exampleGuide (Vehicle.glide1 exampleGuide .strict (exampleIntegrator P))
    (Vehicle.exit1 exampleGuide .strict (exampleIntegrator P)) .strict 3 V1 none (fun W => W) 1 1 0.1 600
    (fun W => W.planet = P ∧ W.atm.densityInt = f ∧ W.RN = 1 ∧ 10 < W.init.h0Km ∧ W.init.h0Km < 120 ∧ W.init.v0Kms = 4)
    (fun l => 0 < Spec.trapz l ∧ ∀ p ∈ l, 0 ≤ p.2)
    ⟨rfl, rfl, rfl, by norm_num [V1, exampleVehicle, Vehicle.mk'], by norm_num [V1, exampleVehicle, Vehicle.mk'], rfl⟩
    (by
      rintro l c ⟨h1, h2⟩
      refine ⟨(trapz_shift l c).symm ▸ h1, ?_⟩
      intro p hp
      obtain ⟨q, hq, rfl⟩ := List.mem_map.mp hp
      exact h2 q hq)
    (fun _ _ h => h) (by
      intro W t δ out hW ht h
      have ht1 : t = 1 := by rcases ht with rfl | rfl | rfl <;> norm_num
      subst ht1
      have h' : W.propogateEntry .strict (exampleIntegrator P) 1 0.1 δ = .ok out := h.elim id id
      obtain ⟨k1, k2, k3⟩ := example_heats P hP f hf1 W hW 1 δ one_pos out h'
      obtain ⟨out', J, e1, -, -, -, -, e6⟩ := lifts_entry P hP .strict W δ hW.1 hW.2.2.2.1 hW.2.2.2.2.1
      rw [show W.propogateEntry .strict (exampleIntegrator P) 1 0.1 δ = .ok out' from e1, Except.ok.injEq] at h'
      subst h'
      refine ⟨k1, ⟨k2, k3⟩, fun J => ⟨_, e6 J, hW.1, hW.2.1, hW.2.2.1, ?_, ?_, hW.2.2.2.2.2⟩⟩ <;>
      norm_num [Vehicle.setInitialState]) o ho'
  have hq : ∀ q ∈ o.fin.hist.qStagTotal, 0 ≤ q := by
    intro q hq
    have : (Spec.flight o.fin.hist).map Prod.snd = o.fin.hist.qStagTotal :=
      List.map_snd_zip (by rw [List.length_map, hp.t, hp.qStagTotal, List.length_map])
    rw [← this] at hq
    obtain ⟨p, hp, rfl⟩ := List.mem_map.mp hq
    rw [s1.flight] at hp
    obtain ⟨s, hs, hps⟩ := List.mem_flatten.mp hp
    exact (s3 s hs).2 p hps
  have hj : pyMax o.fin.hist.heatload = .ok r.heatloadMax := by
    obtain ⟨_, _, o', _, _, _, h4, h5⟩ := mcRun_inv hrun
    have : o' = o := by
      have := congrArg MCState.last h5
      simpa using this.symm
    subst this
    exact (mcRecord_inv h4).2.2.2.2.2.2.2
  have sub : ∀ s ∈ segs, s.Sublist (Spec.flight o.fin.hist) := by
    intro s hs
    rw [s1.flight]
    exact List.sublist_flatten_of_mem hs
  have hw := worst_segment s1.loads s1.nonempty (fun s hs => (flight_sorted hp hc).sublist (sub s hs))
    (fun s hs => (s3 s hs).2) hj
  have hpos : ∀ y ∈ segs.map Spec.trapz, 0 < y := by
    intro y hy
    obtain ⟨s, hs, rfl⟩ := List.mem_map.mp hy
    exact (s3 s hs).1
  refine ⟨P, S, _, _, x, r, o, hP, rfl, hI, hrun, rfl, hq, hpos _ hw.1, ?_⟩
  rw [s1.total]
  exact sum_gt hpos (by rw [List.length_map, s2, hlen]; norm_num) hw.1

/-- Induction over the segments of a guided entry: `GoodV` is what is known of the vehicle at the start of each segment, `R`
a property of histories kept by joining segments. -/
theorem guided_induction (G : GuideParams) (FE : EntryPhase) (FX : ExitPhase) (mode : ScipyMode)
    (fuel : ℕ) (V : Vehicle) (hdotref : Option (List (Option ℝ)))
    (prep : Vehicle → Vehicle) (tsE tsX dt maxTime : ℝ) (GoodV : Vehicle → Prop) (R : Hist → Prop) (h0 : GoodV V)
    (hR : ∀ (a b : Hist) (t : ℝ), R a → R b → R (a.extend b t))
    (hprep : ∀ W y, GoodV (W.setInitialState y) → GoodV ((prep W).setInitialState y))
    (good : ∀ W t δ out, GoodV W → (t = 1.0 ∨ t = tsE ∨ t = tsX) → (FE.prop W t dt δ = .ok out ∨ FX.prop W t dt δ = .ok out) →
      R (Hist.ofOut out) ∧ ∀ J, ∃ y, (Hist.ofOut out).last J = .ok y ∧ GoodV (W.setInitialState y))
    (o : GuidedOut) (ho : Vehicle.guided G FE FX mode fuel V hdotref prep tsE tsX dt maxTime = some (.ok o)) :
    R o.fin.hist := by
  obtain ⟨s0, s, e, J, hr, h1, h2, h3, h4, h5⟩ := guided_inv ho
  obtain ⟨out, v, hout, _, rfl⟩ := entryStart_inv h1
  let Inv : Vehicle → Hist → Prop := fun W H => R H ∧ ∀ J y, H.last J = .ok y → GoodV (W.setInitialState y)
  have step : ∀ (W : Vehicle) (H : Hist) (J : ℝ) (x : InitState) (t δ tE : ℝ) (out : PropOut), Inv W H →
      (t = tsE ∨ t = tsX) → H.last J = .ok x →
      (FE.prop (W.setInitialState x) t dt δ = .ok out ∨ FX.prop (W.setInitialState x) t dt δ = .ok out) →
      Inv (W.setInitialState x) (H.extend (Hist.ofOut out) tE) := by
    rintro W H J x t δ tE out ⟨i1, i2⟩ htt hx hprop
    obtain ⟨k2, k3⟩ := good _ _ _ _ (i2 _ _ hx) (Or.inr htt) hprop
    refine ⟨hR _ _ _ i1 k2, ?_⟩
    intro J' y hy
    obtain ⟨y', hy', hg⟩ := k3 J'
    rw [extend_last hy', Except.ok.injEq] at hy
    rw [← hy]
    exact hg
  obtain ⟨k2, k3⟩ := good _ _ _ _ h0 (Or.inl rfl) (Or.inl hout)
  have a := entryLoop_invariant (fun s => Inv s.V s.hist) (by
    rintro s s' b hs hcy
    obtain ⟨J, x, delta, qref, out, tEnd, J', y, hd, tOld, an, ad, fn, apo, -, hx, -, hprop, htE, -, -, -, -, -, -, -, -, rfl, -⟩ :=
      entryCycle_inv hcy
    exact step _ _ _ _ _ _ _ _ hs (Or.inl rfl) hx (Or.inl hprop)) fuel _ s
    ⟨k2, (fun J y hy => by
      obtain ⟨y', hy', hg⟩ := k3 J
      rw [hy', Except.ok.injEq] at hy
      rw [← hy]; exact hg)⟩ h2
  obtain ⟨hk, p, _, hp, _, _, rfl⟩ := exitStart_inv h3
  have b := exitLoop_invariant (fun s => Inv s.V s.hist) (by
    rintro s s' b hs hcy
    obtain ⟨x, out, tEnd, y, hd, tOld, hx, hprop, htE, -, -, -, rfl, -⟩ := exitCycle_inv hcy
    exact step _ _ _ _ _ _ _ _ hs (Or.inr rfl) hx (Or.inr hprop)) fuel _ o.fin
    ⟨a.1, fun J y hy => hprep _ _ (a.2 J y hy)⟩ h4
  exact b.1

/-- C78: with a density that is never negative the recorded heating rates are never negative where the recorded speeds are
not: the condition under which the theorems above speak of the logged heat load holds for every physical run. -/
theorem C78_rates_nonneg (name : String) (G : GuideParams) (mode : ScipyMode) (I I' : Integrator)
    (hI : SolveIvpLike I) (hI' : SolveIvpLike I') (fuel : ℕ) (V : Vehicle) (hP : Planet.init name = .ok V.planet)
    (hRN : 0 < V.RN) (hrho : ∀ h, 0 ≤ V.atm.densityInt h)
    (hdotref : Option (List (Option ℝ))) (ts tsX dt maxTime : ℝ) (hdt : 0 < dt) (o : GuidedOut)
    (ho : Vehicle.propogateGuidedEntry G mode I fuel V hdotref ts dt maxTime = some (.ok o) ∨
      Vehicle.propogateGuidedEntry2 G mode I I' fuel V hdotref ts dt maxTime = some (.ok o) ∨
      Vehicle.propogateGuidedEntryD G mode I fuel V hdotref ts tsX dt maxTime = some (.ok o) ∨
      Vehicle.propogateGuidedEntryD2 G mode I' fuel V hdotref ts tsX dt maxTime = some (.ok o))
    (hv : ∀ v ∈ o.fin.hist.v, 0 ≤ v) : ∀ q ∈ o.fin.hist.qStagTotal, 0 ≤ q := by
  let GoodV : Vehicle → Prop := fun W => W.planet = V.planet ∧ W.RN = V.RN ∧ W.atm = V.atm
  let R : Hist → Prop := fun H => (∀ v ∈ H.v, 0 ≤ v) → ∀ q ∈ H.qStagTotal, 0 ≤ q
  have hR : ∀ (a b : Hist) (t : ℝ), R a → R b → R (a.extend b t) := by
    intro a b t ha hb h q hq
    simp only [Hist.extend, List.mem_append] at h hq
    rcases hq with hq | hq
    · exact ha (fun v hv => h v (Or.inl hv)) q hq
    · exact hb (fun v hv => h v (Or.inr hv)) q hq
  have seg : ∀ (K : Integrator), SolveIvpLike K → ∀ (W : Vehicle) (t δ : ℝ) (out : PropOut), GoodV W →
      (W.propogateEntry mode K t dt δ = .ok out ∨ W.propogateEntry2 mode K t dt δ = .ok out) →
      R (Hist.ofOut out) ∧ ∀ J, ∃ y, (Hist.ofOut out).last J = .ok y ∧ GoodV (W.setInitialState y) := by
    rintro K hK W t δ out ⟨w1, w2, w3⟩ h
    have hPW : Planet.init name = .ok W.planet := by rw [w1]; exact hP
    obtain ⟨pts, hr, hc⟩ := segment_continuous name W hPW mode K hK t dt δ hdt out h
    refine ⟨?_, ?_⟩
    · intro hv q hq
      obtain ⟨hi, h⟩ : ∃ hi, W.postProcess mode (TrajArrays.ofSamples (samples W K t dt δ))
          (δ * π / 180.0) hi = .ok out := by
        rcases h with h | h
        · exact ⟨_, h⟩
        · exact ⟨_, h⟩
      obtain ⟨qc, qr, h1, h2, hc, hr, hpos⟩ := C25_heat_laws name W.planet hPW
      obtain ⟨c1, _, _, _⟩ := hc W.RN (by rw [w2]; exact hRN)
      obtain ⟨r1, _, _, _⟩ := hr W.RN (by rw [w2]; exact hRN)
      obtain ⟨idx, flag, qc', qr', heat, _, hq1, hq2, hh, rfl⟩ := postProcess_inv h
      rw [Vehicle.qStagConvective, h1, Option.map_some, Option.some.injEq] at hq1
      rw [Vehicle.qStagRadiative, h2, Option.map_some, Option.some.injEq] at hq2
      subst hq1 hq2
      obtain ⟨i, hi⟩ := List.mem_iff_getElem?.mp hq
      simp only [Hist.ofOut, List.getElem?_zipWith] at hi
      split at hi
      · next x w e1 e2 =>
        split at e1
        · next r v er ev =>
          simp only [er, ev, Option.some.injEq] at e1 e2 hi
          rw [← hi, ← e1, ← e2]
          have hr0 : 0 ≤ W.planet.rhoVec W.atm r := by unfold Planet.rhoVec; rw [w3]; exact hrho _
          have hv0 : 0 ≤ v := by
            have := hv (v * 1E-3) (by
              simp only [Hist.ofOut, TrajArrays.truncate, Planet.toPlotUnits]
              rw [← List.map_take]
              exact List.mem_map_of_mem (List.mem_iff_getElem?.mpr ⟨i, ev⟩))
            rw [show (1e-3:ℝ) = 1 / 1000 by norm_num] at this
            linarith
          have := c1 _ _ hr0 hv0
          have := r1 _ _ hr0 hv0
          linarith
        · simp at e1
      · simp at hi
    · intro J
      obtain ⟨q, hq⟩ : ∃ q, pts.getLast? = some q := by
        cases pts with
        | nil => exact absurd hc.1 (by simp)
        | cons p ps => exact ⟨_, List.getLast?_cons⟩
      refine ⟨⟨q.h, q.theta, q.phi, q.v, q.psi, q.gamma, q.drange, J⟩, last_ok.mpr ?_, w1, w2, w3⟩
      rw [hr.h, hr.theta, hr.phi, hr.v, hr.psi, hr.gamma, hr.drange]
      simp only [List.getLast?_map, hq, Option.map_some, and_self]
  suffices h : R o.fin.hist from h hv
  rcases ho with ho | ho | ho | ho
  · exact guided_induction G (Vehicle.glide1 G mode I) (Vehicle.exit1 G mode I) mode fuel V hdotref (fun W => W) ts ts dt maxTime
      GoodV R ⟨rfl, rfl, rfl⟩ hR (fun _ _ h => h) (fun W t δ out hW _ h => seg I hI W t δ out hW (Or.inl (h.elim id id))) o ho
  · exact guided_induction G (Vehicle.glide2 G mode I I') (Vehicle.exit2 G mode I') mode fuel V hdotref (fun W => W) ts ts dt
      maxTime GoodV R ⟨rfl, rfl, rfl⟩ hR (fun _ _ h => h)
      (fun W t δ out hW _ h => seg I' hI' W t δ out hW (Or.inr (h.elim id id))) o ho
  · exact guided_induction G (Vehicle.drag1 G mode I) (Vehicle.exitD1 mode I) mode fuel (V.setBeta G.beta1) hdotref
      (fun W => W.setBeta (G.beta1 * G.betaRatio)) ts tsX dt maxTime
      GoodV R ⟨rfl, rfl, rfl⟩ hR (fun _ _ h => h) (fun W t δ out hW _ h => seg I hI W t δ out hW (Or.inl (h.elim id id))) o ho
  · exact guided_induction G (Vehicle.drag2 G mode I') (Vehicle.exitD2 mode I') mode fuel (V.setBeta G.beta1) hdotref
      (fun W => W.setBeta (G.beta1 * G.betaRatio)) ts tsX dt maxTime GoodV R ⟨rfl, rfl, rfl⟩ hR (fun _ _ h => h)
      (fun W t δ out hW _ h => seg I' hI' W t δ out hW (Or.inr (h.elim id id))) o ho

/-- Case for `C78_flight_total_partial` and `C78_rates_nonneg`: a run of `runMonteCarlo2` at Mars with an older SciPy version. -/
theorem C78_flight_example : ∃ (P : Planet) (S : MCSetup) (s t : MCState) (x : MCSample) (r : MCRecord) (o : GuidedOut),
    Planet.init "MARS" = .ok P ∧ s.V.planet = P ∧ OdeintLike (exampleIntegrator P) ∧
    mcRun (Vehicle.runMonteCarlo2 exampleGuide .legacy (exampleIntegrator P) (exampleIntegrator P) 1 0.1 600) S 3 s x
      = some (.ok (t, r)) ∧
    t.last = some o ∧ (∀ q ∈ o.fin.hist.qStagTotal, 0 ≤ q) ∧ o.fin.deltaDeg.length = 3 := by
  obtain ⟨P, hP⟩ := (C01_planet_names "MARS").1.mpr (by simp [Spec.bodies])
  let rows : List DensRow := [⟨0, 1, 1, 1, 0⟩, ⟨200000, 1, 1, 1, 0⟩]
  let V0 := exampleVehicle P ⟨fun _ => 1, fun _ => 1, fun _ => 1, fun _ => 1⟩ 4
  let S : MCSetup := V0.setupMonteCarlo (fun _ => .ok rows) 2
  let x : MCSample := ⟨"profiles.txt", 1, -90, 0, 1⟩
  obtain ⟨f, hf, hf1, hf0⟩ : ∃ f, loadAtmosphereModel5 rows 0 2 1 = .ok f ∧ (∀ x, 0 ≤ x → x ≤ 200000 → f x = 1) ∧
    ∀ x, 0 ≤ f x := constant_profile
  let M := Vehicle.runMonteCarlo2 exampleGuide .legacy (exampleIntegrator P) (exampleIntegrator P) 1 0.1 600
  have hI : OdeintLike (exampleIntegrator P) := jumpIntegrator_ok _
  let V1 := exampleVehicle P ⟨f, fun _ => 1, fun _ => 1, fun _ => 1⟩ 4
  obtain ⟨o, ho, hlen, hl, -⟩ := guided_run2 P hP 4 (by norm_num) ⟨f, fun _ => 1, fun _ => 1, fun _ => 1⟩ (by
    show 0 < f 119000; rw [hf1 _ (by norm_num) (by norm_num)]; norm_num) (exampleIntegrator P)
  obtain ⟨pts, hp, hc⟩ := C43_histories_continuous "MARS" exampleGuide .legacy _ _ (OdeintLike.toIvp hI)
    (OdeintLike.toIvp hI) 3 V1 hP none 1 1 0.1 600 (by norm_num) o (Or.inr (Or.inl ho))
  have hne : pts ≠ [] := by
    rintro rfl
    exact absurd hc.1 (by simp)
  have hfly : M.fly 3 (mcReady S V0 x f) none = some (.ok o) := ho
  obtain ⟨r, hrun⟩ := mcRun_of_flight (M := M) (S := S) (s := ⟨V0, none, none⟩) (x := x) hf hfly hp hne (by
    show ∃ j, heatOfFlight .legacy o.fin.hist = .ok j
    unfold heatOfFlight
    obtain ⟨p, ps, rfl⟩ := List.exists_cons_of_ne_nil hne
    obtain ⟨q, qs, hq⟩ := List.exists_cons_of_ne_nil (l := o.fin.hist.qStagTotal) (by
      rintro h
      have := hp.qStagTotal
      rw [h] at this
      simp at this)
    rw [hp.t, hq]
    simp only [List.map_cons, List.zip_cons_cons, cumTrapz, pyMax, bind, Except.bind, pure, Except.pure]
    simp)
  have hv : ∀ v ∈ o.fin.hist.v, 0 ≤ v := by
    have ho' := ho
    simp only [Vehicle.propogateGuidedEntry2] at ho'
    refine guided_induction exampleGuide (Vehicle.glide2 exampleGuide .legacy (exampleIntegrator P) (exampleIntegrator P))
      (Vehicle.exit2 exampleGuide .legacy (exampleIntegrator P)) .legacy 3 V1 none (fun W => W) 1 1 0.1 600
      (fun W => W.planet = P ∧ 10 < W.init.h0Km ∧ W.init.h0Km < 120 ∧ W.init.v0Kms = 4) (fun H => ∀ v ∈ H.v, 0 ≤ v)
      ⟨rfl, by norm_num [V1, exampleVehicle, Vehicle.mk'], by norm_num [V1, exampleVehicle, Vehicle.mk'], rfl⟩
      (by
        intro a b t ha hb v hv
        simp only [Hist.extend, List.mem_append] at hv
        exact hv.elim (ha v) (hb v)) (fun _ _ h => h) ?_ o ho'
    intro W t δ out hW ht h
    have ht1 : t = 1 := by rcases ht with rfl | rfl | rfl <;> norm_num
    subst ht1
    obtain ⟨w1, w2, w3, w4⟩ := hW
    have hPW : Planet.init "MARS" = .ok W.planet := by rw [w1]; exact hP
    have hR : P.RP = 3389.5e3 := by simp [Planet.init] at hP; subst hP; rfl
    have hT : P.hTrap = 10e3 := by simp [Planet.init] at hP; subst hP; rfl
    have hS : P.hSkip = 120e3 := by simp [Planet.init] at hP; subst hP; rfl
    have hVr : 0 < P.Vref := (C01_planet_consistent _ _ hP).2.2.2.2.2.2.2.2.1
    have hρ : (P.RP + 119000) / P.RP * P.RP - P.RP = 119000 := by
      have : P.RP ≠ 0 := by rw [hR]; norm_num
      rw [div_mul_cancel₀ _ this]; ring
    have h' : W.propogateEntry2 .legacy (exampleIntegrator P) 1 0.1 δ = .ok out := h.elim id id
    obtain ⟨out', J, e1, -, -, -, -, e6⟩ := lifts_entry P hP .legacy W δ w1 w2 w3
    obtain ⟨-, hv⟩ := segment_jump_points "MARS" W hPW .legacy (fun y => { y with r := (P.RP + 119000) / P.RP }) 1 0.1 δ
      one_pos (by norm_num) (by rw [w1, hT]; linarith) (by rw [w1, hS]; linarith) (by rw [w1, hT]; simp only; rw [hρ]; norm_num)
      (by rw [w1, hS]; simp only; rw [hρ]; norm_num) out' e1
    have e2 : W.propogateEntry2 .legacy (exampleIntegrator P) 1 0.1 δ = .ok { out' with heatload := W.init.heatLoad0 :: out'.heatload.tail } :=
      postProcess_legacy e1 W.init.heatLoad0
    rw [e2, Except.ok.injEq] at h'
    subst h'
    refine ⟨?_, fun J => ⟨_, e6 J, w1, by norm_num [Vehicle.setInitialState], by norm_num [Vehicle.setInitialState], w4⟩⟩
    intro v hv'
    have h4 : (W.planet.nonDimState (Vehicle.entryState W.planet W.init)).v * W.planet.Vref = 4000 := by
      simp only [Planet.nonDimState, Vehicle.entryState, w1, w4]
      rw [div_mul_cancel₀ _ hVr.ne']; norm_num
    obtain ⟨idx, flag, qc, qr, heat, -, -, -, -, rfl⟩ := postProcess_inv e1
    simp only [Hist.ofOut, TrajArrays.truncate, Planet.toPlotUnits] at hv' hv
    rw [← List.map_take] at hv'
    obtain ⟨u, hu, rfl⟩ := List.mem_map.mp hv'
    have : u = 4000 := by
      rcases hv u hu with h | h
      · rw [h, h4]
      · rw [h, h4]
    rw [this]; norm_num
  have hq := C78_rates_nonneg "MARS" exampleGuide .legacy _ _ (OdeintLike.toIvp hI) (OdeintLike.toIvp hI) 3 V1 hP
    (by norm_num [V1, exampleVehicle, Vehicle.mk']) hf0 none 1 1 0.1 600 (by norm_num) o (Or.inr (Or.inl ho)) hv
  exact ⟨P, S, _, _, x, r, o, hP, rfl, hI, hrun, rfl, hq, hlen⟩

end AMAT.Props
