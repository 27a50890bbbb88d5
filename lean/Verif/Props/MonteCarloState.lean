import Verif.Props.MonteCarloHeat
import Verif.Props.StoreProps

/-
C79: what a Monte Carlo simulation leaves behind.
-/

noncomputable section

namespace AMAT.Props

open Obj

/-- What a run leaves: the density of its sample on the planet; nothing else of planet or atmosphere has changed. -/
theorem mcRun_state {M : MCVariant} {drag : Bool} (hM : IsRunFunction M drag) {S : MCSetup} {fuel : ℕ} {s t : MCState}
    {x : MCSample} {r : MCRecord} (h : mcRun M S fuel s x = some (.ok (t, r))) :
    ∃ f, mcDensity S x = .ok f ∧ t.V.atm = { s.V.atm with densityInt := f } ∧ t.V.planet = s.V.planet := by
  obtain ⟨rows, f, o, h1, h2, h3, h4, rfl⟩ := mcRun_inv h
  refine ⟨f, by unfold mcDensity; rw [h1]; exact h2, ?_⟩
  obtain ⟨G, mode, I, I', ts, tsX, dt, mt, hd⟩ := hM
  have k := C77_rest_preserved_partial G mode I I' fuel (mcReady S s.V x f) s.hdotref ts tsX dt mt o
  rcases hd with ⟨-, rfl | rfl⟩ | ⟨-, rfl | rfl⟩
  · obtain ⟨_, _, e⟩ := k.1 (Or.inl h3); simp only [e]; exact ⟨rfl, rfl⟩
  · obtain ⟨_, _, e⟩ := k.1 (Or.inr h3); simp only [e]; exact ⟨rfl, rfl⟩
  · obtain ⟨_, _, _, _, e⟩ := k.2 (Or.inl h3); simp only [e]; exact ⟨rfl, rfl⟩
  · obtain ⟨_, _, _, _, e⟩ := k.2 (Or.inr h3); simp only [e]; exact ⟨rfl, rfl⟩

/-- C79, the part that holds: a completed simulation changes neither the constants of the planet nor its pressure,
temperature and sonic-speed functions. -/
theorem C79_rest_preserved_partial (M : MCVariant) (drag : Bool) (hM : IsRunFunction M drag) (S : MCSetup) (fuel : ℕ)
    (l : List MCSample) (s : MCState) (R : List MCRecord) (h : mcLoop M S fuel s l = (R, .done)) :
    ∃ t, mcAfter M S fuel s l = some t ∧ t.V.planet = s.V.planet ∧ t.V.atm.pressureInt = s.V.atm.pressureInt ∧
      t.V.atm.tempInt = s.V.atm.tempInt ∧ t.V.atm.sonicInt = s.V.atm.sonicInt := by
  induction l generalizing s R with
  | nil => exact ⟨s, rfl, rfl, rfl, rfl, rfl⟩
  | cons x l ih =>
    rcases hr : mcRun M S fuel s x with _ | e | ⟨s', r⟩
    · simp [mcLoop, hr] at h
    · simp [mcLoop, hr] at h
    · simp only [mcLoop, hr, Prod.mk.injEq] at h
      obtain ⟨f, -, h2, h3⟩ := mcRun_state hM hr
      obtain ⟨t, t1, t2, t3, t4, t5⟩ := ih s' (mcLoop M S fuel s' l).1 (Prod.ext rfl h.2)
      refine ⟨t, by simp only [mcAfter, hr, t1], t2.trans h3, ?_, ?_, ?_⟩
      · rw [t3, h2]
      · rw [t4, h2]
      · rw [t5, h2]

/-- C79 (finding): after a completed simulation the density function of the planet is the profile of the last sample,
whatever it was before. -/
theorem C79_density_of_last_sample (M : MCVariant) (drag : Bool) (hM : IsRunFunction M drag) (S : MCSetup) (fuel : ℕ)
    (l : List MCSample) (x : MCSample) (s : MCState) (R : List MCRecord)
    (h : mcLoop M S fuel s (l ++ [x]) = (R, .done)) :
    ∃ t rows, mcAfter M S fuel s (l ++ [x]) = some t ∧ S.files x.file = .ok rows ∧
      loadAtmosphereModel5 rows x.sigma S.NPOS x.profile = .ok t.V.atm.densityInt := by
  induction l generalizing s R with
  | nil =>
    rcases hr : mcRun M S fuel s x with _ | e | ⟨s', r⟩
    · simp [mcLoop, hr] at h
    · simp [mcLoop, hr] at h
    · obtain ⟨rows, f, o, h1, h2, h3, h4, -⟩ := mcRun_inv hr
      obtain ⟨f', h2', h5, -⟩ := mcRun_state hM hr
      have : f' = f := by
        unfold mcDensity at h2'
        rw [h1] at h2'
        exact Except.ok.inj (h2'.symm.trans h2)
      subst this
      exact ⟨s', rows, by simp [mcAfter, hr], h1, by rw [h2, h5]⟩
  | cons y l ih =>
    rcases hr : mcRun M S fuel s y with _ | e | ⟨s', r⟩
    · simp [mcLoop, hr] at h
    · simp [mcLoop, hr] at h
    · simp only [List.cons_append, mcLoop, hr, Prod.mk.injEq] at h
      obtain ⟨t, rows, t1, t2, t3⟩ := ih s' (mcLoop M S fuel s' (l ++ [x])).1 (Prod.ext rfl h.2)
      exact ⟨t, rows, by simp only [List.cons_append, mcAfter, hr, t1], t2, t3⟩

/-- C79 (finding): a completed simulation at Mars after which the density at 500 m is half of what it was. -/
theorem C79_nominal_density_lost : ∃ (P : Planet) (M : MCVariant) (S : MCSetup) (s t : MCState) (x : MCSample)
    (R : List MCRecord), Planet.init "MARS" = .ok P ∧ s.V.planet = P ∧ IsRunFunction M false ∧
    mcLoop M S 3 s [x] = (R, .done) ∧ mcAfter M S 3 s [x] = some t ∧
    s.V.planet.density s.V.atm 500 = 2 ∧ t.V.planet.density t.V.atm 500 = 1 := by
  obtain ⟨P, hP⟩ := (C01_planet_names "MARS").1.mpr (by simp [Spec.bodies])
  let rows : List DensRow := [⟨0, 1, 1, 1, 0⟩, ⟨200000, 1, 1, 1, 0⟩]
  let V0 := exampleVehicle P ⟨fun _ => 2, fun _ => 1, fun _ => 1, fun _ => 1⟩ 4
  let S : MCSetup := V0.setupMonteCarlo (fun _ => .ok rows) 2
  let smp : MCSample := ⟨"profiles.txt", 1, -90, 0, 1⟩
  obtain ⟨f, hf, hf1, -⟩ := constant_profile
  let M := Vehicle.runMonteCarlo exampleGuide .strict (exampleIntegrator P) 1 0.1 600
  have hM : IsRunFunction M false := ⟨exampleGuide, .strict, exampleIntegrator P, exampleIntegrator P, 1, 1, 0.1, 600,
    Or.inl ⟨rfl, Or.inl rfl⟩⟩
  have hI : OdeintLike (exampleIntegrator P) := jumpIntegrator_ok _
  obtain ⟨t, r, h1⟩ : ∃ t r, mcRun M S 3 ⟨V0, none, none⟩ smp = some (.ok (t, r)) := by
    obtain ⟨o, ho, -, hl, -⟩ := guided_run P hP 4 (by norm_num) ⟨f, fun _ => 1, fun _ => 1, fun _ => 1⟩ (by
      show 0 < f 119000; rw [hf1 _ (by norm_num) (by norm_num)]; norm_num)
    obtain ⟨pts, hp, -⟩ := C43_histories_continuous "MARS" exampleGuide .strict _ _ (OdeintLike.toIvp hI)
      (OdeintLike.toIvp hI) 3 (exampleVehicle P ⟨f, fun _ => 1, fun _ => 1, fun _ => 1⟩ 4) hP none 1 1 0.1 600 (by norm_num)
      o (Or.inl ho)
    have hne : pts ≠ [] := by
      rintro rfl
      have := (last_ok.mp hl).1
      rw [hp.h] at this
      simp at this
    obtain ⟨r, h⟩ := mcRun_of_flight (M := M) (S := S) (s := ⟨V0, none, none⟩) (x := smp) hf ho hp hne (by
      obtain ⟨m, hm, -⟩ := pyMax_spec (l := o.fin.hist.heatload) (by
        rintro h
        have := hp.heatload
        rw [h] at this
        exact hne (List.length_eq_zero_iff.mp this.symm))
      exact ⟨m, hm⟩)
    exact ⟨_, r, h⟩
  obtain ⟨f', h2, h3, h4⟩ := mcRun_state hM h1
  have e : f' = f := Except.ok.inj (h2.symm.trans hf)
  subst e
  have hh : (0:ℝ) ≤ 500 ∧ (500:ℝ) ≤ P.hThres := by
    refine ⟨by norm_num, ?_⟩
    simp [Planet.init] at hP
    subst hP
    show (500:ℝ) ≤ _
    norm_num [Planet.withScales]
  refine ⟨P, M, S, ⟨V0, none, none⟩, t, smp, [r], hP, rfl, hM, by simp [mcLoop, h1], by simp [mcAfter, h1], ?_, ?_⟩
  · show P.density _ 500 = 2
    unfold Planet.density
    rw [if_pos hh]
    rfl
  · rw [h3, h4]
    show P.density _ 500 = 1
    unfold Planet.density
    rw [if_pos hh]
    exact hf1 500 (by norm_num) (by norm_num)

/-- C79 (finding): the assignment reaches every vehicle that refers to the same planet object, and no other: a second
vehicle created with the same planet flies in the sampled density afterwards. -/
theorem C79_shared_planet (h : Heap) (a b : ℕ) (va vb : VehicleObj) (ha : h.vehicles[a]? = some va)
    (hb : h.vehicles[b]? = some vb) (W : Vehicle) (hW : Spec.Describes h b W) (f : ℝ → ℝ) :
    ∃ h' : Heap, assignDensity a f h = (.ok (), h') ∧
      (vb.planetObj = va.planetObj → Spec.Describes h' b { W with atm := { W.atm with densityInt := f } }) ∧
      (vb.planetObj ≠ va.planetObj → Spec.Describes h' b W) := by
  obtain ⟨v, p, hv, hp, h1, h2, rest⟩ := hW
  rw [hb] at hv
  obtain rfl := Option.some.inj hv
  refine ⟨⟨h.planets.modify va.planetObj (fun p : PlanetObj => { p with atm := { p.atm with densityInt := f } }),
    h.vehicles⟩, ?_, ?_, ?_⟩
  · unfold assignDensity
    rw [bind_ok (vehicle_ok ha)]
    rfl
  · intro e
    refine ⟨vb, { p with atm := { p.atm with densityInt := f } }, hb, ?_, h1, by rw [h2], rest⟩
    show (h.planets.modify _ _)[vb.planetObj]? = _
    rw [← e, List.getElem?_modify_eq, hp]
    rfl
  · intro e
    refine ⟨vb, p, hb, ?_, h1, h2, rest⟩
    show (h.planets.modify _ _)[vb.planetObj]? = _
    rw [List.getElem?_modify_ne _ _ (fun e' => e e'.symm), hp]

/-- Two vehicles on one planet object, and one on its own. -/
example (V : Vehicle) : ∃ (h : Heap) (u v w : VehicleObj), h.vehicles[0]? = some u ∧ h.vehicles[1]? = some v ∧
    h.vehicles[2]? = some w ∧ v.planetObj = u.planetObj ∧ w.planetObj ≠ u.planetObj ∧ Spec.Describes h 1 V ∧
    Spec.Describes h 2 V :=
  ⟨⟨[⟨V.planet, V.atm, fun _ => none⟩, ⟨V.planet, V.atm, fun _ => none⟩],
      [VehicleObj.ofRecord V 0 none none, VehicleObj.ofRecord V 0 none none, VehicleObj.ofRecord V 1 none none]⟩,
    _, _, _, rfl, rfl, rfl, rfl, Nat.one_ne_zero,
    ⟨_, _, rfl, rfl, rfl, rfl, rfl, rfl, rfl, rfl, rfl, rfl, rfl, rfl, rfl, rfl, rfl, rfl, rfl, rfl⟩,
    ⟨_, _, rfl, rfl, rfl, rfl, rfl, rfl, rfl, rfl, rfl, rfl, rfl, rfl, rfl, rfl, rfl, rfl, rfl, rfl⟩⟩

end AMAT.Props
