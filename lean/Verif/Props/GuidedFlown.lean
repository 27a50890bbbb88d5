import Verif.Props.DeflFlown
import Verif.Props.GuidedResults

/-
Property C156: the flight of a vehicle after a guided simulation, and the manoeuvres the simulation reports.
-/

noncomputable section

open Real

namespace AMAT.Props

open Real AMAT AMAT.Spec

/-- A bound motion is at an apse whenever it is at its greatest distance. -/
theorem bound_apse {GM : ℝ} (hGM : 0 < GM) {R0 U0 : V3} (hE : energy GM R0 U0 < 0) (hh : 0 < angMom R0 U0) {a e : ℝ}
    (ha : a = -GM / (2 * energy GM R0 U0)) (he : e = V3.norm (eccVec GM R0 U0)) {R U : ℝ → V3} (hs : StartsAt GM R0 U0 R U)
    (hper : 0 < a * (1 - e)) {t : ℝ} (ht : 0 ≤ t) (hat : V3.norm (R t) = a * (1 + e)) :
    IsApse GM (a * (1 + e)) (a * (1 - e)) (R t) (U t) := by
  obtain ⟨b1, -⟩ := bound_flight hGM hE hh ha he hs
  have hpos : ∀ s, 0 < V3.norm (R s) := fun s => lt_of_lt_of_le hper (b1 s).1
  have hA : 0 < a * (1 + e) := hat ▸ hpos t
  refine ⟨hat, ?_, ?_⟩
  · have hd := (twoBody_rates hs.1 (hpos t)).1
    have hm : IsLocalMax (fun s => V3.norm (R s)) t := Filter.Eventually.of_forall fun s => by
      show V3.norm (R s) ≤ V3.norm (R t)
      rw [hat]; exact (b1 s).2
    have h0 := hm.hasDerivAt_eq_zero hd
    rcases div_eq_zero_iff.mp h0 with h | h
    · exact h
    · exact absurd h (hpos t).ne'
  · have hen := coast_energy hs.1 (T := t) (fun x _ => hpos x) t ⟨ht, le_rfl⟩
    have hE0 : energy GM R0 U0 = -GM / (a * (1 - e) + a * (1 + e)) := by
      have := hE.ne
      rw [show a * (1 - e) + a * (1 + e) = 2 * a by ring, ha]
      field_simp
    rw [hs.2.1, hs.2.2, hE0, ← C45_visViva_energy GM _ _ hGM hA hper.le, energy, hat] at hen
    have hsq : V3.norm (U t) ^ 2 = visViva GM (a * (1 + e)) (a * (1 - e)) (a * (1 + e)) ^ 2 := by linarith
    exact (sq_eq_sq₀ (V3.norm_nonneg _) (sqrt_nonneg _)).mp hsq

/-- The reported apsides of a bound exit that is not radial, by its semi-major axis and eccentricity. -/
theorem terminal_apses {P : Planet} (hGM : 0 < P.GM) {s : Terminal} (hr : 0 < s.r) {R0 U0 : V3} (hR : R0 = pos s.r s.theta s.phi)
    (hU : U0 = vel s.theta s.phi s.v s.psi s.g + V3.cross (spin P.OMEGA) R0) (hE : energy P.GM R0 U0 < 0) (hh : 0 < angMom R0 U0) :
    ∃ A B a e, s.apoapsisAltitudeKm P = some A ∧ s.periapsisAltitudeKm P = some B ∧ a = -P.GM / (2 * energy P.GM R0 U0) ∧
      e = V3.norm (eccVec P.GM R0 U0) ∧ 0 < a * (1 - e) ∧ 0 < a * (1 + e) ∧ P.RP + 1000 * A = a * (1 + e) ∧
      P.RP + 1000 * B = a * (1 - e) := by
  have hU0 : U0 ≠ 0 := by
    intro h0
    rw [h0] at hh
    have : angMom R0 0 = 0 := V3.norm_eq_zero.mpr (by ext <;> simp [V3.cross])
    rw [this] at hh
    exact lt_irrefl _ hh
  have hR0 : R0 ≠ 0 := by
    intro h0
    rw [h0] at hh
    have : angMom 0 U0 = 0 := V3.norm_eq_zero.mpr (by ext <;> simp [V3.cross])
    rw [this] at hh
    exact lt_irrefl _ hh
  have hU' := hU
  rw [hR] at hU'
  have v1 : s.rVec = R0 := by rw [rVec_eq, hR]
  have v2 : s.vIe P = U0 := by rw [vIe_eq, hU']
  have hEe : exitEnergy P s = energy P.GM R0 U0 := by unfold exitEnergy; rw [← hU', ← hR]
  obtain ⟨R', U', m⟩ := every_motion hGM hh
  obtain ⟨a, e, ha, he0, he2, ha1, ha2, -, -⟩ := bound_core P hGM s hr (by rw [hEe]; exact hE)
    (by rw [v2]; exact hU0) R' U' ⟨m.1, m.2.1.trans hR, m.2.2.trans hU'⟩
    (bound_stays_out hGM m.1 (by rw [m.2.1]; exact V3.norm_pos hR0) (by rw [m.2.1, m.2.2]; exact hE)
      (by rw [m.2.1, m.2.2]; exact hh))
  rw [hEe] at ha he2
  rw [v1, v2] at he2
  have he : e = V3.norm (eccVec P.GM R0 U0) := by
    have h1 := ecc_sq hGM hR0 U0
    rw [← V3.norm_sq] at h1
    refine (pow_left_inj₀ he0 (V3.norm_nonneg _) two_ne_zero).mp ?_
    rw [h1, he2]; rfl
  have ha0 : 0 < a := by rw [ha]; exact div_pos_of_neg_of_neg (by linarith) (by linarith)
  have he1 : e < 1 := by
    have : 2 * energy P.GM R0 U0 * angMom R0 U0 ^ 2 / P.GM ^ 2 < 0 := by
      apply div_neg_of_neg_of_pos _ (by positivity)
      exact mul_neg_of_neg_of_pos (by linarith) (by positivity)
    nlinarith
  exact ⟨_, _, a, e, ha1, ha2, ha, he, mul_pos ha0 (by linarith), mul_pos ha0 (by linarith), by ring, by ring⟩

/-- C146: a bound vehicle that does not move radially at its exit, climbing or descending, comes to the reported periapsis and to
the reported apoapsis after any time, is between them at all times, and at rest radially and with vis-viva speed whenever it is
at the apoapsis. -/
theorem C146_both_apsides (name : String) (P : Planet) (hP : Planet.init name = .ok P) (s : Terminal) (hr : 0 < s.r)
    (hE : exitEnergy P s < 0) (hh : 0 < exitAngMom P s) :
    ∃ A B, s.apoapsisAltitudeKm P = some A ∧ s.periapsisAltitudeKm P = some B ∧ (∃ R U, CoastsFrom P s R U) ∧
      ∀ R U, CoastsFrom P s R U →
        (∀ t, P.RP + 1000 * B ≤ V3.norm (R t) ∧ V3.norm (R t) ≤ P.RP + 1000 * A) ∧
        (∀ t, (∃ t', t < t' ∧ V3.norm (R t') = P.RP + 1000 * B) ∧ ∃ t', t < t' ∧ V3.norm (R t') = P.RP + 1000 * A) ∧
        ∀ t, 0 ≤ t → V3.norm (R t) = P.RP + 1000 * A → V3.dot (R t) (U t) = 0 ∧
          V3.norm (U t) = visViva P.GM (P.RP + 1000 * A) (P.RP + 1000 * B) (P.RP + 1000 * A) := by
  obtain ⟨_, _, hGM, _⟩ := C01_planet_consistent name P hP
  obtain ⟨A, B, a, e, k1, k2, ha, he, hper, -, eA, eB⟩ := terminal_apses hGM hr rfl rfl hE hh
  refine ⟨A, B, k1, k2, every_motion hGM hh, fun R U h => ?_⟩
  rw [eA, eB]
  obtain ⟨b1, b2⟩ := bound_flight hGM hE hh ha he h
  refine ⟨b1, b2, fun t ht hat => ?_⟩
  exact (bound_apse hGM hE hh ha he h hper ht hat).2

/-- C147 without the climb: a bound vehicle that does not move radially at its exit, climbing or descending, is led to the target
orbit by the two reported manoeuvres from every later passage of the reported apoapsis. -/
theorem C147_any_passage (name : String) (P : Planet) (hP : Planet.init name = .ok P) (s : Terminal) (hr : 0 < s.r)
    (hE : exitEnergy P s < 0) (hh : 0 < exitAngMom P s) (p a : ℝ) (hp : 0 < P.RP + 1000 * p) (ha : 0 < P.RP + 1000 * a) :
    ∃ A B d1 d2, s.apoapsisAltitudeKm P = some A ∧ s.periapsisAltitudeKm P = some B ∧
      P.periapsisRaiseDV B A p = some d1 ∧ P.apoapsisRaiseDV p A a = some d2 ∧
      ∀ R U, CoastsFrom P s R U → (∀ t, ∃ t', t < t' ∧ V3.norm (R t') = P.RP + 1000 * A) ∧
        ∀ t, 0 ≤ t → V3.norm (R t) = P.RP + 1000 * A →
          (∃ R1 U1, StartsAt P.GM (R t) (impulse d1 (U t)) R1 U1) ∧
          ∀ R1 U1, StartsAt P.GM (R t) (impulse d1 (U t)) R1 U1 →
            let T1 := halfPeriod P.GM (P.RP + 1000 * A) (P.RP + 1000 * p)
            StaysBetween (P.RP + 1000 * A) (P.RP + 1000 * p) R1 ∧ V3.norm (R1 T1) = P.RP + 1000 * p ∧
            (∃ R2 U2, StartsAt P.GM (R1 T1) (impulse d2 (U1 T1)) R2 U2) ∧
            ∀ R2 U2, StartsAt P.GM (R1 T1) (impulse d2 (U1 T1)) R2 U2 →
              let T2 := halfPeriod P.GM (P.RP + 1000 * p) (P.RP + 1000 * a)
              StaysBetween (P.RP + 1000 * p) (P.RP + 1000 * a) R2 ∧ V3.norm (R2 T2) = P.RP + 1000 * a ∧
              R2 (2 * T2) = R1 T1 ∧ ∀ x, 0 < x → x < 2 * T2 → R2 x ≠ R1 T1 := by
  obtain ⟨_, _, hGM, _⟩ := C01_planet_consistent name P hP
  obtain ⟨A, B, a', e, k1, k2, ha', he, hper, hapo, eA, eB⟩ := terminal_apses hGM hr rfl rfl hE hh
  have hA : 0 < P.RP + 1000 * A := by rw [eA]; exact hapo
  have hB : 0 < P.RP + 1000 * B := by rw [eB]; exact hper
  obtain ⟨d1, e1, v1, -⟩ := C45_periapsis_raise name P hP B A p hA hB.le hp.le
  obtain ⟨d2, e2, v2, -⟩ := C45_apoapsis_raise name P hP p A a hp hA.le ha.le
  rw [visViva_symm P.GM _ _ (P.RP + 1000 * a), visViva_symm P.GM _ _ (P.RP + 1000 * A)] at v2
  refine ⟨A, B, d1, d2, k1, k2, e1, e2, fun R U h => ⟨fun t => ?_, fun t ht hat => ?_⟩⟩
  · rw [eA]; exact ((bound_flight hGM hE hh ha' he h).2 t).2
  · have hapse := bound_apse hGM hE hh ha' he h hper ht (hat.trans eA)
    rw [← eA, ← eB] at hapse
    obtain ⟨x1, x2⟩ := trim_step hGM hA hB hp hapse v1
    refine ⟨x1, fun R1 U1 h1 => ?_⟩
    obtain ⟨y1, y2, -⟩ := x2 R1 U1 h1
    obtain ⟨z1, z2⟩ := trim_step hGM hp hA ha y2 v2
    refine ⟨y1, y2.1, z1, fun R2 U2 h2 => ?_⟩
    obtain ⟨q1, q2, q3, -, q4⟩ := z2 R2 U2 h2
    exact ⟨q1, q2.1, q3, q4⟩

/-- C156: if the last recorded point of a guided simulation is on a bound orbit that is not radial, the vehicle has a free
motion from there.  Every one keeps between the reported periapsis and apoapsis and comes to both after any time.  Whenever it is at the
apoapsis, an impulse of the reported periapsis raise cost puts it on an orbit between the apoapsis and the target periapsis, where
it arrives after half a period; an impulse there of the reported apoapsis raise cost puts it on an orbit between the target
periapsis and the target apoapsis, where it arrives after half a period, and it is back at the same point after a whole one. -/
theorem C156_guided_flown (name : String) (G : GuideParams) (mode : ScipyMode) (I I' : Integrator) (fuel : ℕ) (V : Vehicle)
    (hP : Planet.init name = .ok V.planet) (hdotref : Option (List (Option ℝ))) (ts tsX dt maxTime : ℝ) (o : GuidedOut)
    (ho : Vehicle.propogateGuidedEntry G mode I fuel V hdotref ts dt maxTime = some (.ok o) ∨
      Vehicle.propogateGuidedEntry2 G mode I I' fuel V hdotref ts dt maxTime = some (.ok o) ∨
      Vehicle.propogateGuidedEntryD G mode I fuel V hdotref ts tsX dt maxTime = some (.ok o) ∨
      Vehicle.propogateGuidedEntryD2 G mode I' fuel V hdotref ts tsX dt maxTime = some (.ok o))
    (hp : 0 < V.planet.RP + 1000 * G.targetPeriKm) (hq : 0 < V.planet.RP + 1000 * G.targetApoKm) :
    ∃ y, LastRecord o.fin.hist y ∧
      (0 < V.planet.RP + 1000 * y.h0Km → energy V.planet.GM (recPos V.planet y) (recVel V.planet y) < 0 →
        0 < angMom (recPos V.planet y) (recVel V.planet y) →
        ∃ A B d1 d2, o.apoapsis = some A ∧ o.periapsis = some B ∧ o.periapsisRaiseDV = some d1 ∧ o.apoapsisRaiseDV = some d2 ∧
          (∃ R U, StartsAt V.planet.GM (recPos V.planet y) (recVel V.planet y) R U) ∧
          ∀ R U, StartsAt V.planet.GM (recPos V.planet y) (recVel V.planet y) R U →
            (∀ t, V.planet.RP + 1000 * B ≤ V3.norm (R t) ∧ V3.norm (R t) ≤ V.planet.RP + 1000 * A) ∧
            (∀ t, (∃ t', t < t' ∧ V3.norm (R t') = V.planet.RP + 1000 * B) ∧
              ∃ t', t < t' ∧ V3.norm (R t') = V.planet.RP + 1000 * A) ∧
            ∀ t, 0 ≤ t → V3.norm (R t) = V.planet.RP + 1000 * A →
              (∃ R1 U1, StartsAt V.planet.GM (R t) (impulse d1 (U t)) R1 U1) ∧
              ∀ R1 U1, StartsAt V.planet.GM (R t) (impulse d1 (U t)) R1 U1 →
                let T1 := halfPeriod V.planet.GM (V.planet.RP + 1000 * A) (V.planet.RP + 1000 * G.targetPeriKm)
                StaysBetween (V.planet.RP + 1000 * A) (V.planet.RP + 1000 * G.targetPeriKm) R1 ∧
                V3.norm (R1 T1) = V.planet.RP + 1000 * G.targetPeriKm ∧
                (∃ R2 U2, StartsAt V.planet.GM (R1 T1) (impulse d2 (U1 T1)) R2 U2) ∧
                ∀ R2 U2, StartsAt V.planet.GM (R1 T1) (impulse d2 (U1 T1)) R2 U2 →
                  let T2 := halfPeriod V.planet.GM (V.planet.RP + 1000 * G.targetPeriKm) (V.planet.RP + 1000 * G.targetApoKm)
                  StaysBetween (V.planet.RP + 1000 * G.targetPeriKm) (V.planet.RP + 1000 * G.targetApoKm) R2 ∧
                  V3.norm (R2 T2) = V.planet.RP + 1000 * G.targetApoKm ∧
                  R2 (2 * T2) = R1 T1 ∧ ∀ s, 0 < s → s < 2 * T2 → R2 s ≠ R1 T1) := by
  obtain ⟨_, hRP, hGM, _⟩ := C01_planet_consistent name V.planet hP
  obtain ⟨h, hpl⟩ := guided_results ho
  obtain ⟨-, y, hy, oA, oB, -, -, hb⟩ := exitResults_spec name G o.fin V.planet hpl hP o h
  refine ⟨y, hy, fun hr hE hh => ?_⟩
  generalize V.planet = P at *
  have hU0 : recVel P y ≠ 0 := by
    intro h0
    rw [h0] at hh
    have : angMom (recPos P y) 0 = 0 := V3.norm_eq_zero.mpr (by ext <;> simp [V3.cross])
    rw [this] at hh
    exact lt_irrefl _ hh
  obtain ⟨A, B, hA, hB, -, -, hd1, hd2⟩ := hb hr hU0 hE
  obtain ⟨v1, v2, v3⟩ := terminalOf_vectors P y
  obtain ⟨A', B', a, e, k1, k2, ha, he, hper, hapo, eA, eB⟩ := terminal_apses (s := Vehicle.terminalOf P y) hGM
    (by rw [v3]; exact hr) (by rw [← v1, rVec_eq]) (by rw [← v2, ← v1, vIe_eq, rVec_eq]) hE hh
  obtain rfl : A' = A := Option.some.inj (k1.symm.trans (oA.symm.trans hA))
  obtain rfl : B' = B := Option.some.inj (k2.symm.trans (oB.symm.trans hB))
  have m := every_motion hGM hh
  have hd2' := hd2 hp hq.le
  rw [visViva_symm P.GM _ _ (P.RP + 1000 * G.targetApoKm), visViva_symm P.GM _ _ (P.RP + 1000 * A')] at hd2'
  refine ⟨A', B', _, _, hA, hB, hd1 hp.le, hd2', m, fun R U hs => ?_⟩
  rw [eA, eB]
  obtain ⟨b1, b2⟩ := bound_flight hGM hE hh ha he hs
  refine ⟨b1, b2, fun t ht hat => ?_⟩
  have hapse := bound_apse hGM hE hh ha he hs hper ht hat
  obtain ⟨x1, x2⟩ := trim_step hGM hapo hper hp hapse rfl
  refine ⟨x1, fun R1 U1 h1 => ?_⟩
  obtain ⟨y1, y2, -⟩ := x2 R1 U1 h1
  obtain ⟨z1, z2⟩ := trim_step hGM hp hapo hq y2 rfl
  refine ⟨y1, y2.1, z1, fun R2 U2 h2 => ?_⟩
  obtain ⟨q1, q2, q3, -, q4⟩ := z2 R2 U2 h2
  exact ⟨q1, q2.1, q3, q4⟩

/-- Non-vacuity of C156: the guided run at Mars of C73, with the targets 250 km and 2000 km. -/
theorem C156_case : ∃ (V : Vehicle) (G : GuideParams) (I : Integrator) (o : GuidedOut) (y : InitState),
    Planet.init "MARS" = .ok V.planet ∧ Vehicle.propogateGuidedEntry G .strict I 3 V none 1 0.1 600 = some (.ok o) ∧
    0 < V.planet.RP + 1000 * G.targetPeriKm ∧ 0 < V.planet.RP + 1000 * G.targetApoKm ∧ LastRecord o.fin.hist y ∧
    0 < V.planet.RP + 1000 * y.h0Km ∧ energy V.planet.GM (recPos V.planet y) (recVel V.planet y) < 0 ∧
    0 < angMom (recPos V.planet y) (recVel V.planet y) := by
  obtain ⟨V, G, I, o, hP, hI, _, ho, _, hi, _, hl, _, hp, ha⟩ := guided_example 4 (by norm_num)
  rw [hi] at hl
  obtain ⟨l1, l2, l3, l4, l5, l6, _, _⟩ := last_ok.mp hl
  have hy : LastRecord o.fin.hist ⟨119, 0, 0, 4, 0, -90, 0, 0⟩ := ⟨l1, l2, l3, l4, l5, l6⟩
  obtain ⟨e1, e2, e3, e4, _⟩ := example_record hP hl hy
  obtain ⟨_, hRP, _⟩ := C01_planet_consistent "MARS" V.planet hP
  obtain ⟨hG, hO⟩ := mars_constants hP
  refine ⟨V, G, I, o, _, hP, ho, by rw [hp]; linarith, by rw [ha]; linarith, hy, e2, ?_, ?_⟩
  · rw [energy, e4, e1, hG, hO]
    norm_num
  · apply V3.norm_pos
    intro h0
    have hz := congrArg V3.z h0
    have k : -90 * (π / 180) = -(π / 2) := by ring
    simp only [recPos, recVel, pos, vel, along, up, horiz, east, north, spin, V3.cross, V3.add_x, V3.add_y, V3.add_z, V3.smul_x,
      V3.smul_y, V3.smul_z, k, zero_mul, cos_zero, sin_zero, cos_neg, cos_pi_div_two, V3.zero_z] at hz
    rw [hO] at hz
    have hr : 0 < V.planet.RP + 1000 * 119 := e2
    ring_nf at hz
    nlinarith

/-- Case for `C146_both_apsides` and `C147_any_passage`: the vehicle of `C156_case`, descending vertically relative to the rotating planet. -/
theorem C146_both_apsides_case : ∃ (P : Planet) (s : Terminal), Planet.init "MARS" = .ok P ∧ 0 < s.r ∧ exitEnergy P s < 0 ∧
    0 < exitAngMom P s := by
  obtain ⟨V, _, _, _, y, hP, -, -, -, -, hr, hE, hh⟩ := C156_case
  obtain ⟨v1, v2, v3⟩ := terminalOf_vectors V.planet y
  rw [rVec_eq] at v1
  rw [vIe_eq] at v2
  refine ⟨V.planet, Vehicle.terminalOf V.planet y, hP, by rw [v3]; exact hr, ?_, ?_⟩
  · unfold exitEnergy; rw [v2, v1]; exact hE
  · unfold exitAngMom; rw [v2, v1]; exact hh

end AMAT.Props
