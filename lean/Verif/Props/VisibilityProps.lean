import Verif.Lemmas.Sight
import Verif.Props.TimedOrbit
import Verif.Props.PlanetProps
import Verif.Props.TelecomProps

/-
C58: line-of-sight verdicts.  C72: the time axis of the lander-to-planet visibility.
-/

noncomputable section

open Classical

namespace AMAT.Props

open Real

theorem rot_zero {f : V3 → V3} (hf : Spec.IsRotation f) {d : V3} : f d = 0 ↔ d = 0 := by
  rw [← V3.norm_eq_zero, ← V3.norm_eq_zero, IsRotation.norm hf]

/-- The unit vector of a rotated and scaled vector. -/
theorem npUnit_rot {f : V3 → V3} (hf : Spec.IsRotation f) {k : ℝ} (hk : 0 < k) (d : V3) :
    (npUnit d).map f = npUnit (f (k • d)) := by
  by_cases hd : d = 0
  · subst hd
    have h1 : f (k • 0) = 0 := by
      rw [rot_zero hf]; ext <;> simp
    rw [h1, npUnit_zero]; rfl
  · have hn := V3.norm_pos hd
    have h1 : f (k • d) ≠ 0 := by
      rw [Ne, rot_zero hf]
      intro h
      rw [← V3.norm_eq_zero, V3.norm_smul, abs_of_pos hk] at h
      have : 0 < k * V3.norm d := by positivity
      linarith
    rw [npUnit_some hd, npUnit_some h1, IsRotation.norm hf, V3.norm_smul, abs_of_pos hk, hf.smul, V3.smul_smul]
    simp only [Option.map, hf.smul]
    congr 2
    field_simp

theorem surface_eq {P : Planet} (lat T c : ℝ) (h : P.OMEGA * T = c * π / 180) (n i : ℕ) :
    landerPos P lat (i * (c / (n - 1))) = Spec.surfacePoint P.RP P.OMEGA (lat * π / 180) (i * (T / (n - 1))) := by
  rw [landerPos_eq, Spec.surfacePoint]
  have e : (i:ℝ) * (c / (n - 1)) * π / 180 = P.OMEGA * (i * (T / (n - 1))) := by
    have e1 : P.OMEGA * (i * (T / (n - 1))) = i * (P.OMEGA * T) / (n - 1) := by ring
    rw [e1, h]; ring
  rw [e]

theorem surface_ne {RP OMEGA lat t : ℝ} (hRP : 0 < RP) : Spec.surfacePoint RP OMEGA lat t ≠ 0 ∧
    V3.dot (Spec.surfacePoint RP OMEGA lat t) (Spec.surfacePoint RP OMEGA lat t) = RP ^ 2 := by
  have h : V3.dot (Spec.surfacePoint RP OMEGA lat t) (Spec.surfacePoint RP OMEGA lat t) = RP ^ 2 := by
    rw [Spec.surfacePoint, V3.dot_smul_left, V3.dot_smul_right, Frames.up_dot_up]; ring
  refine ⟨fun h0 => ?_, h⟩
  rw [h0] at h
  have : V3.dot 0 0 = 0 := by simp [V3.dot]
  rw [this] at h
  have : 0 < RP ^ 2 := by positivity
  linarith

theorem linspace0_get (T : ℝ) (n i : ℕ) (hi : i < n) : (linspace0 T n)[i]? = some (i * (T / (n - 1))) := by
  rw [linspace0, List.getElem?_map, List.getElem?_range hi]; rfl

theorem planet_omega_ne {name : String} {P : Planet} (hP : Planet.init name = .ok P) : P.OMEGA ≠ 0 := by
  unfold Planet.init at hP
  split_ifs at hP <;> (injection hP with hP; rw [← hP]; norm_num [Planet.withScales])

theorem planet_rp_pos {name : String} {P : Planet} (hP : Planet.init name = .ok P) : 0 < P.RP := by
  unfold Planet.init at hP
  split_ifs at hP <;> (injection hP with hP; rw [← hP]; norm_num [Planet.withScales])

theorem targetDirection_inv {P : Planet} {eph : Ephemeris} {target observer : String} {x : ℝ × Option V3}
    (h : targetDirection P eph target observer = .ok x) :
    ∃ o t, eph (if observer = "TITAN" then "SATURN" else observer) = .ok o ∧ eph target = .ok t ∧
      x.1 = V3.norm (icrfToBi P ((1000:ℝ) • (t - o))) ∧ x.2 = npUnit (icrfToBi P ((1000:ℝ) • (t - o))) := by
  unfold targetDirection ephName at h
  simp only [bind, Except.bind, pure, Except.pure] at h
  cases ho : eph (if observer = "TITAN" then "SATURN" else observer) with
  | error e => rw [ho] at h; simp at h
  | ok o =>
    rw [ho] at h
    simp only [] at h
    cases ht : eph target with
    | error e => rw [ht] at h; simp at h
    | ok t =>
      rw [ht] at h
      simp only [Except.ok.injEq] at h
      subst h
      refine ⟨o, t, rfl, rfl, ?_, npUnit_rot (icrf_rot P) (by norm_num) _⟩
      simp only
      rw [IsRotation.norm (icrf_rot P), V3.norm_smul]
      norm_num; ring

/-- C58, lander to planet.  For every ephemeris, target, observing body, latitude and number of samples: sample `i` describes
the surface point that the rotation of the body has carried to time `t_i`; the range is the distance of the two bodies; the
elevation lies in [0, 90] degrees and is the angle of the direction to the target (seen from the centre of the body) above
the horizon; the verdict is that this angle is positive.  A target above the horizon plane is always declared visible, and
the only targets wrongly declared visible lie less than one planet radius above the plane through the centre.

Partial: the full claim ("visible iff above the horizon plane of the lander") fails exactly in that parallax band, see
`C58_lander_parallax`; for Titan the ephemeris of Saturn is used for the body itself. -/
theorem C58_lander_planet_partial (eph : Ephemeris) (target observer : String) (lat : ℝ) (n : ℕ) (R : LanderToPlanet)
    (h : LanderToPlanet.init eph target observer lat n = .ok R) :
    ∃ (P : Planet) (o t : V3), Planet.init observer = .ok P ∧
      eph (if observer = "TITAN" then "SATURN" else observer) = .ok o ∧ eph target = .ok t ∧
      R.range = V3.norm (icrfToBi P ((1000:ℝ) • (t - o))) ∧ R.times.length = n ∧ R.sights.length = n ∧
      ∀ (i : ℕ) (ti : ℝ) (S : Sight), R.times[i]? = some ti → R.sights[i]? = some S →
        0 ≤ S.elev ∧ S.elev ≤ 90 ∧
        ∀ T L : V3, T = icrfToBi P ((1000:ℝ) • (t - o)) → L = Spec.surfacePoint P.RP P.OMEGA (lat * π / 180) ti →
          (T ≠ 0 → sin (S.elev * π / 180) = max 0 (V3.dot L T / (V3.norm L * V3.norm T))) ∧
          (S.visible = true ↔ 0 < V3.dot L T) ∧
          (Spec.AboveHorizon L T → S.visible = true) ∧
          (S.visible = true → Spec.AboveHorizon L T ∨ (0 < V3.dot L T ∧ V3.dot L T ≤ P.RP ^ 2)) := by
  unfold LanderToPlanet.init at h
  simp only [bind, Except.bind, pure, Except.pure] at h
  cases hP : Planet.init observer with
  | error e => rw [hP] at h; simp at h
  | ok P =>
    rw [hP] at h
    simp only [] at h
    cases hD : targetDirection P eph target observer with
    | error e => rw [hD] at h; simp at h
    | ok x =>
      rw [hD] at h
      simp only [Except.ok.injEq] at h
      obtain ⟨o, t, ho, ht, h1, h2⟩ := targetDirection_inv hD
      have hO := planet_omega_ne hP
      have hRP := planet_rp_pos hP
      subst h
      refine ⟨P, o, t, rfl, ho, ht, h1, by simp [linspace0], by simp [linspace0], ?_⟩
      intro i ti S hti hS
      simp only at hti hS
      have hi : i < n := by
        have := (List.getElem?_eq_some_iff.mp hti).1
        simpa [linspace0] using this
      rw [linspace0_get _ _ _ hi] at hti
      rw [List.getElem?_map, linspace0_get _ _ _ hi] at hS
      simp only [Option.map, Option.some.injEq] at hti hS
      rw [surface_eq lat (2 * π / P.OMEGA) 360 (by field_simp; norm_num) n i, hti, h2] at hS
      obtain ⟨hne, hLL⟩ := surface_ne (OMEGA := P.OMEGA) (lat := lat * π / 180) (t := ti) hRP
      generalize hT : icrfToBi P ((1000:ℝ) • (t - o)) = T at hS
      have key : ∀ T L : V3, V3.dot L L = P.RP ^ 2 → (Spec.AboveHorizon L T ↔ P.RP ^ 2 < V3.dot L T) := by
        intro T L hL
        rw [Spec.AboveHorizon, ← hL]
        have : V3.dot (T - L) L = V3.dot L T - V3.dot L L := by
          simp only [V3.dot, V3.sub_x, V3.sub_y, V3.sub_z]; ring
        rw [this, sub_pos]
      by_cases hT0 : T = 0
      · rw [hT0, npUnit_zero, sight_none] at hS
        subst hS
        refine ⟨le_refl _, by norm_num, fun T' L' hT' hL' => ?_⟩
        subst hL'
        rw [hT', hT0]
        have hz : V3.dot (Spec.surfacePoint P.RP P.OMEGA (lat * π / 180) ti) 0 = 0 := by simp [V3.dot]
        rw [key _ _ hLL, hz]
        refine ⟨fun h => absurd rfl h, by simp, fun h => ?_, by simp⟩
        have : 0 < P.RP ^ 2 := by positivity
        linarith
      · obtain ⟨s1, s2, s3, s4⟩ := sight_spec hne hT0
        rw [hS] at s1 s2 s3 s4
        refine ⟨s1, s2, fun T' L' hT' hL' => ?_⟩
        subst hL'
        rw [hT', key _ _ hLL, s4]
        have : 0 < P.RP ^ 2 := by positivity
        refine ⟨fun _ => s3, Iff.rfl, fun h => by linarith, fun h => ?_⟩
        rcases lt_or_ge (P.RP ^ 2) (V3.dot (Spec.surfacePoint P.RP P.OMEGA (lat * π / 180) ti) T) with h' | h'
        · exact Or.inl h'
        · exact Or.inr ⟨h, h'⟩

/-- C58 fails for lander to planet by parallax: a target 10⁸ km away that is below the horizon plane of the lander is
declared visible. -/
theorem C58_lander_parallax (n : ℕ) (hn : 0 < n) : ∃ (eph : Ephemeris) (R : LanderToPlanet) (P : Planet) (S : Sight) (o t : V3),
    LanderToPlanet.init eph "MARS" "EARTH" 0 n = .ok R ∧ Planet.init "EARTH" = .ok P ∧ eph "EARTH" = .ok o ∧
      eph "MARS" = .ok t ∧ 1e8 ≤ V3.norm (t - o) ∧ R.times[0]? = some 0 ∧ R.sights[0]? = some S ∧ S.visible = true ∧
      ¬ Spec.AboveHorizon (Spec.surfacePoint P.RP P.OMEGA 0 0) (icrfToBi P ((1000:ℝ) • (t - o))) := by
  obtain ⟨P, hP⟩ := (C01_planet_names "EARTH").1.mpr (by simp [Spec.bodies])
  set eph : Ephemeris := fun s => if s = "MARS" then .ok ⟨-1e8, 1, 0⟩ else .ok 0 with he
  have hE : ∃ R, LanderToPlanet.init eph "MARS" "EARTH" 0 n = .ok R := by
    unfold LanderToPlanet.init targetDirection ephName
    rw [hP]
    simp only [bind, Except.bind, pure, Except.pure, he]
    exact ⟨_, rfl⟩
  obtain ⟨R, hR⟩ := hE
  obtain ⟨P', o, t, hP', ho, ht, -, hl1, hl2, hall⟩ := C58_lander_planet_partial eph "MARS" "EARTH" 0 n R hR
  rw [hP] at hP'
  injection hP' with hP'
  subst hP'
  have ho' : o = 0 := by
    simp [he] at ho; exact ho.symm
  have ht' : t = ⟨-1e8, 1, 0⟩ := by
    simp [he] at ht; rw [← ht]
  have ht0 : R.times[0]? = some 0 := by
    unfold LanderToPlanet.init targetDirection ephName at hR
    rw [hP] at hR
    simp only [bind, Except.bind, pure, Except.pure, he] at hR
    simp at hR
    rw [← hR, linspace0_get _ _ _ hn]; simp
  obtain ⟨S, hS⟩ : ∃ S, R.sights[0]? = some S := ⟨_, List.getElem?_eq_getElem (by omega)⟩
  obtain ⟨-, -, h3⟩ := hall 0 0 S ht0 hS
  obtain ⟨-, h4, -, -⟩ := h3 _ _ rfl rfl
  have hRP : P.RP = 6371e3 ∧ P.a0 = 0 * π / 180 ∧ P.d0 = 90 * π / 180 := by
    simp [Planet.init] at hP; subst hP; exact ⟨rfl, by simp [Planet.withScales], rfl⟩
  have hT : icrfToBi P ((1000:ℝ) • (t - o)) = ⟨1000, 1e11, 0⟩ := by
    rw [ho', ht']
    unfold icrfToBi
    rw [mul_mulVec, hRP.2.1, hRP.2.2, show π / 2 - 90 * π / 180 = 0 by ring, show π / 2 + 0 * π / 180 = π / 2 by ring]
    ext <;> simp [R1, R3, Mat3.mulVec, V3.dot]
    norm_num
  have hL : Spec.surfacePoint P.RP P.OMEGA 0 0 = ⟨6371e3, 0, 0⟩ := by
    rw [hRP.1]
    ext <;> simp [Spec.surfacePoint, Spec.up]
  refine ⟨eph, R, P, S, o, t, hR, hP, ho, ht, ?_, ht0, hS, ?_, ?_⟩
  · rw [ho', ht']
    unfold V3.norm V3.dot
    apply le_sqrt_of_sq_le
    simp
    norm_num
  · rw [h4, show (0:ℝ) * π / 180 = 0 by ring, hT, hL]
    simp [V3.dot]; norm_num
  · rw [hT, hL]
    simp [Spec.AboveHorizon, V3.dot]
    norm_num

/-- C58, lander to orbiter: for every planet, latitude, orbit and number of samples, the verdict of a sample is exactly that
the orbiter is above the horizon plane of the surface point at that time; the elevation lies in [0, 90] degrees and is the
angle of the line of sight above the horizon; the range is the length of the line of sight.  A sample whose orbit position
is not a number is declared not visible. -/
theorem C58_lander_orbiter (planet : String) (lat : ℝ) (orb : List (Option V3)) (T : ℝ) (n : ℕ) (R : LanderToOrbiter)
    (h : LanderToOrbiter.init planet lat orb T n = .ok R) :
    ∃ P, Planet.init planet = .ok P ∧ R.times = linspace0 T n ∧ R.sights.length = min n orb.length ∧
      ∀ (i : ℕ) (ti : ℝ) (S : Sight) (a : Option V3), R.times[i]? = some ti → R.sights[i]? = some S → orb[i]? = some a →
        0 ≤ S.elev ∧ S.elev ≤ 90 ∧ (a = none → S.visible = false) ∧
        ∀ x L O : V3, a = some x → L = Spec.surfacePoint P.RP P.OMEGA (lat * π / 180) ti → O = P.RP • x →
          R.ranges[i]? = some (some (V3.norm (O - L))) ∧
          (S.visible = true ↔ Spec.AboveHorizon L O) ∧
          (O ≠ L → sin (S.elev * π / 180) = max 0 (V3.dot L (O - L) / (V3.norm L * V3.norm (O - L)))) := by
  unfold LanderToOrbiter.init at h
  simp only [bind, Except.bind, pure, Except.pure] at h
  cases hP : Planet.init planet with
  | error e => rw [hP] at h; simp at h
  | ok P =>
    rw [hP] at h
    simp only [Except.ok.injEq] at h
    have hO := planet_omega_ne hP
    have hRP := planet_rp_pos hP
    have hpi := pi_pos
    subst h
    refine ⟨P, rfl, rfl, by simp [linspace0], ?_⟩
    intro i ti S a hti hS ha
    simp only at hti hS
    have hi : i < n := by
      have := (List.getElem?_eq_some_iff.mp hti).1
      simpa [linspace0] using this
    rw [linspace0_get _ _ _ hi] at hti
    rw [List.getElem?_map, List.getElem?_zipWith, linspace0_get _ _ _ hi, ha] at hS
    simp only [Option.map, Option.some.injEq] at hti hS
    have hL := surface_eq lat T (360 / (2 * π / P.OMEGA) * T) (by field_simp; ring) n i
    rw [hti] at hL
    rw [hL] at hS
    have hrange : (List.map Prod.fst (List.zipWith
        (fun lon o => landerOrbiterSample (landerPos P lat lon) (Option.map (fun x => P.RP • x) o))
        (linspace0 (360 / (2 * π / P.OMEGA) * T) n) orb))[i]? =
        some (landerOrbiterSample (Spec.surfacePoint P.RP P.OMEGA (lat * π / 180) ti) (Option.map (fun x => P.RP • x) a)).1 := by
      rw [List.getElem?_map, List.getElem?_zipWith, linspace0_get _ _ _ hi, ha]
      simp only [Option.map_some, hL]
    obtain ⟨hne, hLL⟩ := surface_ne (OMEGA := P.OMEGA) (lat := lat * π / 180) (t := ti) hRP
    cases a with
    | none =>
      simp only [landerOrbiterSample, bind, Option.bind, sight_none] at hS
      subst hS
      exact ⟨le_refl _, by norm_num, fun _ => rfl, fun x L O hx => by simp at hx⟩
    | some x =>
      simp only [landerOrbiterSample, bind, Option.bind] at hS
      set O := P.RP • x with hOd
      set L := Spec.surfacePoint P.RP P.OMEGA (lat * π / 180) ti with hLd
      by_cases hz : O - L = 0
      · rw [hz, npUnit_zero, sight_none] at hS
        subst hS
        refine ⟨le_refl _, by norm_num, fun h => by simp at h, fun x' L' O' hx' hL' hO' => ?_⟩
        simp only [Option.some.injEq] at hx'
        subst hx'
        rw [hL', hO']
        refine ⟨?_, ?_, ?_⟩
        · simp only [hrange]; rfl
        · simp only [Spec.AboveHorizon]
          rw [hz]
          simp [V3.dot]
        · intro hne'
          exfalso; apply hne'
          have hx := congrArg V3.x hz; have hy := congrArg V3.y hz; have hzz := congrArg V3.z hz
          simp only [V3.sub_x, V3.sub_y, V3.sub_z, V3.zero_x, V3.zero_y, V3.zero_z] at hx hy hzz
          exact V3.ext (by linarith) (by linarith) (by linarith)
      · obtain ⟨s1, s2, s3, s4⟩ := sight_spec hne hz
        rw [hS] at s1 s2 s3 s4
        refine ⟨s1, s2, fun h => by simp at h, fun x' L' O' hx' hL' hO' => ?_⟩
        simp only [Option.some.injEq] at hx'
        subst hx'
        rw [hL', hO']
        refine ⟨?_, ?_, fun _ => s3⟩
        · simp only [hrange]; rfl
        · rw [s4, Spec.AboveHorizon, V3.dot_comm]

/-- C58, orbiter to planet.  For every ephemeris, target, observing body and orbit with positions outside the body: the
verdict of a sample is exactly that the half line from the orbiter in the direction of the target does not pass through the
body; a verdict "not visible" is also right for the segment to the actual position of the target; and a wrong verdict
"visible" is only possible when the orbiter is within the parallax sliver: its distance `d` to the line from the body to the
target is in `[1, 1 + |a|/|T|)` planet radii, or it is less than `|a|²/|T|` on the near side of the terminator plane.

Partial: the full claim is the equivalence with the segment; it fails in the sliver (`C58_orbiter_parallax`). -/
theorem C58_orbiter_planet_partial (eph : Ephemeris) (target observer : String) (orb : List (Option V3)) (tSec : ℝ) (n : ℕ)
    (R : OrbiterToPlanet) (h : OrbiterToPlanet.init eph target observer orb tSec n = .ok R) :
    ∃ (P : Planet) (o t : V3), Planet.init observer = .ok P ∧
      eph (if observer = "TITAN" then "SATURN" else observer) = .ok o ∧ eph target = .ok t ∧
      R.times = linspace0 tSec n ∧ R.visible.length = orb.length ∧
      ∀ (i : ℕ) (a : V3) (v : Bool) (T : V3), orb[i]? = some (some a) → R.visible[i]? = some v → T = icrfToBi P ((1000:ℝ) • (t - o)) → T ≠ 0 →
        1 ≤ V3.norm a →
        R.range = V3.norm T ∧ R.d[i]? = some (some (V3.norm (V3.cross a T) / V3.norm T)) ∧
        (v = true ↔ ¬ Spec.BlockedAtInfinity P.RP (P.RP • a) T) ∧
        (v = false → Spec.Blocked P.RP (P.RP • a) T) ∧
        (v = true → ¬ Spec.Blocked P.RP (P.RP • a) T ∨
          (1 ≤ V3.norm (V3.cross a T) / V3.norm T ∧
            V3.norm (V3.cross a T) / V3.norm T < 1 + P.RP * V3.norm a / V3.norm T) ∨
          (0 ≤ V3.dot a T / V3.norm T ∧ V3.dot a T / V3.norm T < P.RP * V3.norm a ^ 2 / V3.norm T)) := by
  unfold OrbiterToPlanet.init at h
  simp only [bind, Except.bind, pure, Except.pure] at h
  cases hP : Planet.init observer with
  | error e => rw [hP] at h; simp at h
  | ok P =>
    rw [hP] at h
    simp only [] at h
    cases hD : targetDirection P eph target observer with
    | error e => rw [hD] at h; simp at h
    | ok x =>
      rw [hD] at h
      simp only [Except.ok.injEq] at h
      obtain ⟨o, t, ho, ht, h1, h2⟩ := targetDirection_inv hD
      have hRP := planet_rp_pos hP
      subst h
      refine ⟨P, o, t, rfl, ho, ht, rfl, by simp, ?_⟩
      intro i a v T ha hv hT hT0 hout
      rw [← hT] at h1 h2
      have hnT := V3.norm_pos hT0
      have hcross : V3.norm (V3.cross (0 - a) ((1 / V3.norm T) • T)) = V3.norm (V3.cross a T) / V3.norm T := by
        rw [V3.cross_smul_right, V3.norm_smul, abs_of_pos (by positivity)]
        have : V3.cross (0 - a) T = (-1 : ℝ) • V3.cross a T := by
          ext <;> simp only [V3.cross, V3.sub_x, V3.sub_y, V3.sub_z, V3.zero_x, V3.zero_y, V3.zero_z, V3.smul_x, V3.smul_y,
            V3.smul_z] <;> ring
        rw [this, V3.norm_smul]
        norm_num; ring
      have hdot : V3.dot ((1 / V3.norm T) • T) ((-1 : ℝ) • a) > 0 ↔ V3.dot a T < 0 := by
        rw [V3.dot_smul_left, V3.dot_smul_right, V3.dot_comm T a]
        have : 1 / V3.norm T * (-1 * V3.dot a T) = -V3.dot a T / V3.norm T := by ring
        rw [this, gt_iff_lt, div_pos_iff_of_pos_right hnT]
        exact neg_pos
      have hlt : V3.norm (V3.cross a T) / V3.norm T < 1 ↔ V3.norm (V3.cross a T) < V3.norm T := div_lt_one hnT
      simp only [List.getElem?_map, ha, Option.map_some, h2, npUnit_some hT0, orbiterPlanetSample, Option.some.injEq,
        hcross] at hv
      have hv' : v = false ↔ V3.norm (V3.cross a T) < V3.norm T ∧ V3.dot a T < 0 := by
        rw [← hv, ← hlt, ← hdot, show (1.0:ℝ) = 1 by norm_num]
        split_ifs with hc
        · exact ⟨fun _ => hc, fun _ => rfl⟩
        · exact ⟨fun h => by simp at h, fun h => absurd h hc⟩
      have hv'' : v = true ↔ ¬ (V3.norm (V3.cross a T) < V3.norm T ∧ V3.dot a T < 0) := by
        rw [← hv']; simp
      refine ⟨h1, ?_, ?_, ?_, ?_⟩
      · simp only [List.getElem?_map, ha, Option.map_some, h2, npUnit_some hT0, orbiterPlanetSample, hcross]
      · rw [hv'', blockedAtInfinity_iff hRP hT0 hout]
      · intro hf
        obtain ⟨c1, c2⟩ := hv'.mp hf
        exact blocked_of_test hRP hT0 c1 c2
      · intro hvt
        by_cases hb : Spec.Blocked P.RP (P.RP • a) T
        · right
          obtain ⟨b1, b2⟩ := blocked_sliver hRP hout hb
          by_cases hd : V3.dot a T < 0
          · left
            have hc : ¬ V3.norm (V3.cross a T) < V3.norm T := fun hc => hv''.mp hvt ⟨hc, hd⟩
            push Not at hc
            refine ⟨(one_le_div hnT).mpr hc, ?_⟩
            rw [div_lt_iff₀ hnT]
            have : (1 + P.RP * V3.norm a / V3.norm T) * V3.norm T = V3.norm T + P.RP * V3.norm a := by field_simp
            rw [this]; exact b1
          · right
            push Not at hd
            exact ⟨div_nonneg hd hnT.le, div_lt_div_of_pos_right b2 hnT⟩
        · exact Or.inl hb

/-- C58 fails for orbiter to planet by parallax: an orbiter grazing the shadow cylinder is declared to see a target 10⁸ km
away although the segment to it passes through the planet. -/
theorem C58_orbiter_parallax : ∃ (eph : Ephemeris) (R : OrbiterToPlanet) (P : Planet) (a o t : V3),
    OrbiterToPlanet.init eph "MARS" "EARTH" [some a] 0 1 = .ok R ∧ Planet.init "EARTH" = .ok P ∧ eph "EARTH" = .ok o ∧
      eph "MARS" = .ok t ∧ V3.norm (t - o) = 1e8 ∧ 1 ≤ V3.norm a ∧ R.visible = [true] ∧
      Spec.Blocked P.RP (P.RP • a) (icrfToBi P ((1000:ℝ) • (t - o))) := by
  obtain ⟨P, hP⟩ := (C01_planet_names "EARTH").1.mpr (by simp [Spec.bodies])
  set eph : Ephemeris := fun s => if s = "MARS" then .ok ⟨0, 1e8, 0⟩ else .ok 0 with he
  set a : V3 := ⟨-1, 1, 0⟩ with had
  have hna : 1 ≤ V3.norm a := by
    unfold V3.norm; apply le_sqrt_of_sq_le; simp [V3.dot, had]
  have hE : ∃ R, OrbiterToPlanet.init eph "MARS" "EARTH" [some a] 0 1 = .ok R := by
    unfold OrbiterToPlanet.init targetDirection ephName
    rw [hP]
    simp only [bind, Except.bind, pure, Except.pure, he]
    exact ⟨_, rfl⟩
  obtain ⟨R, hR⟩ := hE
  obtain ⟨P', o, t, hP', ho, ht, -, hl, hall⟩ := C58_orbiter_planet_partial eph "MARS" "EARTH" [some a] 0 1 R hR
  rw [hP] at hP'
  injection hP' with hP'
  subst hP'
  have ho' : o = 0 := by
    simp [he] at ho; exact ho.symm
  have ht' : t = ⟨0, 1e8, 0⟩ := by
    simp [he] at ht; rw [← ht]
  have hRP : P.RP = 6371e3 ∧ P.a0 = 0 * π / 180 ∧ P.d0 = 90 * π / 180 := by
    simp [Planet.init] at hP; subst hP; exact ⟨rfl, by simp [Planet.withScales], rfl⟩
  have hT : icrfToBi P ((1000:ℝ) • (t - o)) = ⟨1e11, 0, 0⟩ := by
    rw [ho', ht']
    unfold icrfToBi
    rw [mul_mulVec, hRP.2.1, hRP.2.2, show π / 2 - 90 * π / 180 = 0 by ring, show π / 2 + 0 * π / 180 = π / 2 by ring]
    ext <;> simp [R1, R3, Mat3.mulVec, V3.dot]
    norm_num
  have hT0 : (⟨1e11, 0, 0⟩ : V3) ≠ 0 := by
    intro h; have := congrArg V3.x h; norm_num at this
  obtain ⟨v, hv⟩ : ∃ v, R.visible = [v] := List.length_eq_one_iff.mp (by simpa using hl)
  obtain ⟨-, -, h3, -, -⟩ := hall 0 a v ⟨1e11, 0, 0⟩ rfl (by rw [hv]; rfl) hT.symm hT0 hna
  have hRP0 := planet_rp_pos hP
  refine ⟨eph, R, P, a, o, t, hR, hP, by simpa using ho, ht, ?_, hna, ?_, ?_⟩
  · rw [ho', ht']
    apply V3.norm_eq_of_sq (by norm_num)
    simp [V3.dot]; norm_num
  · rw [hv]
    congr 1
    rw [h3, blockedAtInfinity_iff hRP0 hT0 hna]
    rintro ⟨h, -⟩
    have := dot_lt_of_norm_lt h
    simp [V3.dot, V3.cross, had] at this
  · rw [hT]
    refine ⟨P.RP / (1e11 + P.RP), by positivity, ?_, ?_⟩
    · rw [div_le_one (by positivity)]; norm_num
    · apply norm_lt_of_sq hRP0
      rw [hRP.1]
      simp [V3.dot, had]
      norm_num

/-- Cases for `C58_lander_orbiter` and `C58_orbiter_planet_partial`: one orbit position at two Mars radii (and one missing)
above a lander on Mars, and seen from Earth's direction. -/
example : ∃ (R : LanderToOrbiter) (Q : OrbiterToPlanet), LanderToOrbiter.init "MARS" 30 [some ⟨2, 0, 0⟩, none] 100 2 = .ok R ∧
    R.sights.length = 2 ∧ OrbiterToPlanet.init (fun s => if s = "EARTH" then .ok ⟨1.5e8, 0, 0⟩ else .ok ⟨0, 2e8, 0⟩) "EARTH"
      "MARS" [some ⟨2, 0, 0⟩, none] 100 2 = .ok Q ∧ Q.visible.length = 2 := by
  obtain ⟨P, hP, -⟩ := demo_mars
  have h1 : ∃ R, LanderToOrbiter.init "MARS" 30 [some ⟨2, 0, 0⟩, none] 100 2 = .ok R := by
    unfold LanderToOrbiter.init
    rw [hP]
    simp only [bind, Except.bind, pure, Except.pure]
    exact ⟨_, rfl⟩
  have h2 : ∃ Q, OrbiterToPlanet.init (fun s => if s = "EARTH" then .ok ⟨1.5e8, 0, 0⟩ else .ok ⟨0, 2e8, 0⟩) "EARTH"
      "MARS" [some ⟨2, 0, 0⟩, none] 100 2 = .ok Q := by
    unfold OrbiterToPlanet.init targetDirection ephName
    rw [hP]
    simp only [bind, Except.bind, pure, Except.pure]
    exact ⟨_, rfl⟩
  obtain ⟨R, hR⟩ := h1
  obtain ⟨Q, hQ⟩ := h2
  obtain ⟨-, -, -, l1, -⟩ := C58_lander_orbiter _ _ _ _ _ R hR
  obtain ⟨-, -, -, -, -, -, -, l2, -⟩ := C58_orbiter_planet_partial _ _ _ _ _ _ Q hQ
  exact ⟨R, Q, hR, l1, hQ, l2⟩

/-- C58 for a capture orbit and a lander on the same planet: with an exact root finder for Kepler's equation there is one
two-body motion `R` of the orbiter, starting at the periapsis of the approach, such that at every sample time the verdict
is that the orbiter is above the horizon plane of the lander carried along by the rotation of the planet. -/
theorem C58_lander_sees_orbiter (name : String) (v : V3) (rp psi apo lat : ℝ) (hEI : Option ℝ) (A : Approach) (Hv : V3)
    (hA : Approach.init name v rp psi false hEI = .ok A) (hv : v ≠ 0) (hrp : 0 < rp) (hH : A.hVec = some Hv)
    (hne : Hv.x ≠ 0 ∨ Hv.y ≠ 0) (hra : 0 < A.P.RP + apo * 1000) :
    ∃ R U : ℝ → V3, Spec.TwoBodyMotion A.P.GM R U ∧ A.rpVec = some (R 0) ∧
      ∀ (newton : (ℝ → ℝ) → ℝ → ℝ),
        (∀ (e M : ℝ), -1 < e → e < 1 → (fun E => E - e * sin E - M) (newton (fun E => E - e * sin E - M) M) = 0) →
      ∀ (T : ℝ) (n : ℕ), ∃ ts xs S, (PropOrbiter.mk A apo).timedTraj newton T n = some (ts, xs) ∧
        LanderToOrbiter.init name lat xs T n = .ok S ∧ S.sights.length = n ∧
        ∀ (i : ℕ) (t : ℝ) (s : Sight), S.times[i]? = some t → S.sights[i]? = some s →
          (s.visible = true ↔ Spec.AboveHorizon (Spec.surfacePoint A.P.RP A.P.OMEGA (lat * π / 180) t) (R t)) ∧
          S.ranges[i]? = some (some (V3.norm (R t - Spec.surfacePoint A.P.RP A.P.OMEGA (lat * π / 180) t))) := by
  obtain ⟨R, U, h1, h2, -, h3⟩ := C56_timed_arrays_partial name v rp psi apo hEI A Hv hA hv hrp hH hne hra
  obtain ⟨P, hP, hAP, -⟩ := approach_init_inv hA
  have hRP := planet_rp_pos hP
  refine ⟨R, U, h1, h2, fun newton hN T n => ?_⟩
  obtain ⟨ts, xs, h4, h5, h6, h7⟩ := h3 newton hN T n
  obtain ⟨S, hS⟩ : ∃ S, LanderToOrbiter.init name lat xs T n = .ok S := by
    unfold LanderToOrbiter.init; rw [hP]; exact ⟨_, rfl⟩
  obtain ⟨P', hP', hts, hl, hall⟩ := C58_lander_orbiter name lat xs T n S hS
  rw [hP] at hP'
  injection hP' with hP'
  subst hP'
  refine ⟨ts, xs, S, h4, hS, by rw [hl, h6]; simp, fun i t s ht hs => ?_⟩
  have hi : i < n := by
    have := (List.getElem?_eq_some_iff.mp ht).1
    rw [hts] at this
    simpa [linspace0] using this
  obtain ⟨h8, h9⟩ := h7 i hi
  have hti : t = i * (T / (n - 1)) := by
    rw [hts, linspace0_get _ _ _ hi] at ht
    exact (Option.some.inj ht).symm
  obtain ⟨-, -, -, hh⟩ := hall i t s _ ht hs h9
  rw [hAP] at *
  obtain ⟨q1, q2, -⟩ := hh _ _ _ rfl rfl rfl
  have hq : P.RP • (1 / P.RP) • R (i * (T / (n - 1))) = R t := by
    rw [V3.smul_smul, mul_one_div_cancel hRP.ne', V3.one_smul, hti]
  rw [hq] at q1 q2
  exact ⟨q2, q1⟩

/-- C58 for a capture orbit that stays outside the planet: "not visible" is reported exactly when the half line from the
orbiter towards the target passes through the planet. -/
theorem C58_orbit_sees_planet (name target : String) (v : V3) (rp psi apo : ℝ) (hEI : Option ℝ) (A : Approach) (Hv o t : V3)
    (eph : Ephemeris)
    (hA : Approach.init name v rp psi false hEI = .ok A) (hv : v ≠ 0) (hrp : A.P.RP ≤ rp) (hH : A.hVec = some Hv)
    (hne : Hv.x ≠ 0 ∨ Hv.y ≠ 0) (hapo : 0 ≤ apo) (ho : eph (if name = "TITAN" then "SATURN" else name) = .ok o)
    (ht : eph target = .ok t) (hot : t ≠ o) :
    ∃ R U : ℝ → V3, Spec.TwoBodyMotion A.P.GM R U ∧ A.rpVec = some (R 0) ∧ (∀ t, A.P.RP ≤ V3.norm (R t)) ∧
      ∀ (newton : (ℝ → ℝ) → ℝ → ℝ),
        (∀ (e M : ℝ), -1 < e → e < 1 → (fun E => E - e * sin E - M) (newton (fun E => E - e * sin E - M) M) = 0) →
      ∀ (T : ℝ) (n : ℕ), ∃ ts xs S, (PropOrbiter.mk A apo).timedTraj newton T n = some (ts, xs) ∧
        OrbiterToPlanet.init eph target name xs T n = .ok S ∧ S.visible.length = n ∧
        ∀ (i : ℕ) (ti : ℝ) (b : Bool), S.times[i]? = some ti → S.visible[i]? = some b →
          (b = false ↔ Spec.BlockedAtInfinity A.P.RP (R ti) (icrfToBi A.P ((1000:ℝ) • (t - o)))) := by
  obtain ⟨P, hP, hAP, -⟩ := approach_init_inv hA
  have hRP := planet_rp_pos hP
  have hRPA : 0 < A.P.RP := by rw [hAP]; exact hRP
  obtain ⟨R, U, h1, h2, hb, h3⟩ := C56_timed_arrays_partial name v rp psi apo hEI A Hv hA hv (by linarith) hH hne (by linarith)
  have hb' : ∀ t, A.P.RP ≤ V3.norm (R t) := fun t =>
    le_trans (le_min hrp (by linarith)) (hb t).1
  refine ⟨R, U, h1, h2, hb', fun newton hN T n => ?_⟩
  obtain ⟨ts, xs, h4, h5, h6, h7⟩ := h3 newton hN T n
  obtain ⟨S, hS⟩ : ∃ S, OrbiterToPlanet.init eph target name xs T n = .ok S := by
    unfold OrbiterToPlanet.init targetDirection ephName
    rw [hP]
    simp only [bind, Except.bind, pure, Except.pure, ho, ht]
    exact ⟨_, rfl⟩
  obtain ⟨P', o', t', hP', ho', ht', hts, hl, hall⟩ := C58_orbiter_planet_partial eph target name xs T n S hS
  rw [hP] at hP'
  injection hP' with hP'
  subst hP'
  rw [ho] at ho'; rw [ht] at ht'
  injection ho' with ho'; injection ht' with ht'
  subst ho' ht'
  refine ⟨ts, xs, S, h4, hS, by rw [hl, h6], fun i ti b hti hbv => ?_⟩
  have hi : i < n := by
    have := (List.getElem?_eq_some_iff.mp hti).1
    rw [hts] at this
    simpa [linspace0] using this
  obtain ⟨h8, h9⟩ := h7 i hi
  have hti' : ti = i * (T / (n - 1)) := by
    rw [hts, linspace0_get _ _ _ hi] at hti
    exact (Option.some.inj hti).symm
  rw [hAP] at *
  have hT0 : icrfToBi P ((1000:ℝ) • (t - o)) ≠ 0 := by
    rw [Ne, rot_zero (icrf_rot P), ← V3.norm_eq_zero, V3.norm_smul]
    intro h
    have : V3.norm (t - o) = 0 := by
      rcases mul_eq_zero.mp h with h | h
      · norm_num at h
      · exact h
    rw [V3.norm_eq_zero] at this
    apply hot
    have hx := congrArg V3.x this; have hy := congrArg V3.y this; have hz := congrArg V3.z this
    simp only [V3.sub_x, V3.sub_y, V3.sub_z, V3.zero_x, V3.zero_y, V3.zero_z] at hx hy hz
    exact V3.ext (by linarith) (by linarith) (by linarith)
  have hout : 1 ≤ V3.norm ((1 / P.RP) • R (i * (T / (n - 1)))) := by
    rw [V3.norm_smul, abs_of_pos (by positivity), one_div, inv_mul_eq_div, one_le_div hRP]
    exact hb' _
  obtain ⟨-, -, q, -, -⟩ := hall i _ b _ h9 hbv rfl hT0 hout
  have hq : P.RP • (1 / P.RP) • R (i * (T / (n - 1))) = R ti := by
    rw [V3.smul_smul, mul_one_div_cancel hRP.ne', V3.one_smul, hti']
  rw [hq] at q
  constructor
  · intro h
    by_contra h'
    have := q.mpr h'
    rw [h] at this; exact absurd this (by simp)
  · intro h
    cases b with
    | false => rfl
    | true => exact absurd h (q.mp rfl)

/-- Case for `C58_lander_planet_partial` and `C72_time_axis_partial`: a lander at Earth looking at Mars, with constant ephemeris positions. -/
example : ∃ (eph : Ephemeris) (R : LanderToPlanet), LanderToPlanet.init eph "MARS" "EARTH" 30 101 = .ok R ∧
    R.sights.length = 101 := by
  obtain ⟨P, hP⟩ := (C01_planet_names "EARTH").1.mpr (by simp [Spec.bodies])
  refine ⟨fun s => if s = "MARS" then .ok ⟨2e8, 0, 0⟩ else .ok ⟨0, 1.5e8, 0⟩, ?_⟩
  unfold LanderToPlanet.init targetDirection ephName
  rw [hP]
  simp only [bind, Except.bind, pure, Except.pure]
  exact ⟨_, rfl, by simp [linspace0]⟩

/-- Case for `C58_lander_sees_orbiter` and `C58_orbit_sees_planet`: the arrival at Earth used for C53 and C56, with constant
ephemeris positions. -/
example : ∃ A Hv, Approach.init "EARTH" ⟨0, 10 * 1, 0⟩ 6771e3 0 false none = .ok A ∧ (⟨0, 10 * 1, 0⟩ : V3) ≠ 0 ∧
    A.hVec = some Hv ∧ (Hv.x ≠ 0 ∨ Hv.y ≠ 0) ∧ A.P.RP ≤ 6771e3 ∧ (0:ℝ) ≤ 35786 ∧
    (fun _ => .ok ⟨2e8, 0, 0⟩ : Ephemeris) "MARS" = .ok ⟨2e8, 0, 0⟩ ∧ (⟨2e8, 0, 0⟩ : V3) ≠ 0 := by
  obtain ⟨A, Hv, h1, h2, h3, h4, -⟩ := earth_capture
  refine ⟨A, Hv, h1, h2, h3, h4, ?_, by norm_num, rfl, ?_⟩
  · obtain ⟨P, hP, hAP, -⟩ := approach_init_inv h1
    have : P.RP = 6371e3 := by simp [Planet.init] at hP; subst hP; rfl
    rw [hAP, this]; norm_num
  · intro h; have := congrArg V3.x h; norm_num at this

/-! ### C72 -/

theorem trapzFrom_nonpos : ∀ (l : List (ℝ × ℝ)) (acc : ℝ), l.Pairwise (fun p q => p.1 ≥ q.1) → (∀ p ∈ l, 0 ≤ p.2) →
    ∀ x ∈ trapzFrom acc l, x ≤ acc
  | [], _, _, _ => by simp [trapzFrom]
  | [_], _, _, _ => by simp [trapzFrom]
  | p :: q :: rest, acc, h1, h2 => by
      intro x hx
      simp only [trapzFrom, List.mem_cons] at hx
      have hpq : p.1 ≥ q.1 := (List.pairwise_cons.mp h1).1 q (by simp)
      have hp := h2 p (by simp)
      have hq := h2 q (by simp)
      have hacc : acc + (q.1 - p.1) * (p.2 + q.2) / 2 ≤ acc := by nlinarith
      rcases hx with rfl | hx
      · exact hacc
      · exact le_trans (trapzFrom_nonpos (q :: rest) _ (List.pairwise_cons.mp h1).2 (fun y hy => h2 y (by simp [hy])) x hx) hacc

theorem linspace0_pairwise_lt {T : ℝ} (hT : 0 < T) {n : ℕ} (hn : 2 ≤ n) : (linspace0 T n).Pairwise (· < ·) := by
  have h2 : (2:ℝ) ≤ n := by exact_mod_cast hn
  have hs : 0 < T / ((n:ℝ) - 1) := div_pos hT (by linarith)
  unfold linspace0
  rw [List.pairwise_map]
  refine List.Pairwise.imp (fun {a b} hab => ?_) List.pairwise_lt_range
  have : (a:ℝ) < b := by exact_mod_cast hab
  exact mul_lt_mul_of_pos_right this hs

theorem linspace0_pairwise_gt {T : ℝ} (hT : T < 0) {n : ℕ} (hn : 2 ≤ n) : (linspace0 T n).Pairwise (· > ·) := by
  have h2 : (2:ℝ) ≤ n := by exact_mod_cast hn
  have hs : T / ((n:ℝ) - 1) < 0 := div_neg_of_neg_of_pos hT (by linarith)
  unfold linspace0
  rw [List.pairwise_map]
  refine List.Pairwise.imp (fun {a b} hab => ?_) List.pairwise_lt_range
  have : (a:ℝ) < b := by exact_mod_cast hab
  exact mul_lt_mul_of_neg_right this hs

theorem linspace0_last (T : ℝ) {n : ℕ} (hn : 2 ≤ n) : (linspace0 T n)[n - 1]? = some T := by
  rw [linspace0_get _ _ _ (by omega)]
  have h2 : (2:ℝ) ≤ n := by exact_mod_cast hn
  have : ((n:ℝ) - 1) ≠ 0 := by intro h; linarith
  rw [Nat.cast_sub (by omega)]
  congr 1
  push_cast
  field_simp

theorem landerToPlanet_times {eph : Ephemeris} {target observer : String} {lat : ℝ} {n : ℕ} {R : LanderToPlanet}
    (h : LanderToPlanet.init eph target observer lat n = .ok R) : ∃ P, Planet.init observer = .ok P ∧
      R.times = linspace0 (2 * π / P.OMEGA) n ∧ R.longitudes = linspace0 360 n := by
  unfold LanderToPlanet.init at h
  simp only [bind, Except.bind, pure, Except.pure] at h
  cases hP : Planet.init observer with
  | error e => rw [hP] at h; simp at h
  | ok P =>
    rw [hP] at h
    simp only [] at h
    cases hD : targetDirection P eph target observer with
    | error e => rw [hD] at h; simp at h
    | ok x =>
      rw [hD] at h
      simp only [Except.ok.injEq] at h
      subst h
      exact ⟨P, rfl, rfl, rfl⟩

/-- C72 for prograde rotators: the time axis of the lander-to-planet visibility starts at zero, increases strictly and ends
after exactly one rotation, when the lander is back where it started; the longitudes are those of the rotating surface
point.

Partial: the full claim is for every body; it fails for the retrograde ones (`C72_retrograde`). -/
theorem C72_time_axis_partial (eph : Ephemeris) (target observer : String) (lat : ℝ) (n : ℕ) (R : LanderToPlanet)
    (h : LanderToPlanet.init eph target observer lat n = .ok R) (hr : ¬ Spec.retrograde observer) (hn : 2 ≤ n) :
    ∃ P, Planet.init observer = .ok P ∧ R.times.length = n ∧ R.times[0]? = some 0 ∧
      R.times.Pairwise (· < ·) ∧ R.times[n - 1]? = some (2 * π / |P.OMEGA|) ∧
      (∀ (i : ℕ) (t lon : ℝ), R.times[i]? = some t → R.longitudes[i]? = some lon → lon * π / 180 = P.OMEGA * t) ∧
      ∀ l, Spec.surfacePoint P.RP P.OMEGA l (2 * π / |P.OMEGA|) = Spec.surfacePoint P.RP P.OMEGA l 0 := by
  obtain ⟨P, hP, ht, hl⟩ := landerToPlanet_times h
  have hO : 0 < P.OMEGA := (C01_planet_reference_data observer P hP).2.2 hr
  have hpi := pi_pos
  refine ⟨P, hP, ?_, ?_, ?_, ?_, ?_, ?_⟩
  · rw [ht]; simp [linspace0]
  · rw [ht, linspace0_get _ _ _ (by omega)]; simp
  · rw [ht]; exact linspace0_pairwise_lt (by positivity) hn
  · rw [ht, abs_of_pos hO, linspace0_last _ hn]
  · intro i t lon h1 h2
    have hi : i < n := by
      have := (List.getElem?_eq_some_iff.mp h1).1
      rw [ht] at this
      simpa [linspace0] using this
    rw [ht, linspace0_get _ _ _ hi] at h1
    rw [hl, linspace0_get _ _ _ hi] at h2
    rw [← Option.some.inj h1, ← Option.some.inj h2]
    field_simp
    ring
  · intro l
    rw [abs_of_pos hO, Spec.surfacePoint, Spec.surfacePoint, show P.OMEGA * (2 * π / P.OMEGA) = 0 + 2 * π by field_simp; ring,
      mul_zero]
    unfold Spec.up
    rw [cos_add_two_pi, sin_add_two_pi]

/-- C72 fails for Venus and Uranus: the time axis runs backwards from zero to minus one rotation, and the data volume
computed on it is never positive, whatever the visibility and the transmission schedule. -/
theorem C72_retrograde (eph : Ephemeris) (target observer : String) (lat : ℝ) (n : ℕ) (R : LanderToPlanet)
    (h : LanderToPlanet.init eph target observer lat n = .ok R) (hr : Spec.retrograde observer) (hn : 2 ≤ n) :
    (∃ P, Planet.init observer = .ok P ∧ R.times.Pairwise (· > ·) ∧ R.times[0]? = some 0 ∧
      R.times[n - 1]? = some (-(2 * π / |P.OMEGA|))) ∧
    ∀ (rate : ℝ) (tx : List Bool) (dv : List ℝ), 0 ≤ rate →
      computeDataVolume rate R.times (R.sights.map Sight.visible) tx = .ok dv → ∀ x ∈ dv, x ≤ 0 := by
  obtain ⟨P, hP, ht, hl⟩ := landerToPlanet_times h
  have hO : P.OMEGA < 0 := (C01_planet_reference_data observer P hP).2.1.mpr hr
  have hpi := pi_pos
  have hT : 2 * π / P.OMEGA < 0 := div_neg_of_pos_of_neg (by positivity) hO
  refine ⟨⟨P, hP, ?_, ?_, ?_⟩, ?_⟩
  · rw [ht]; exact linspace0_pairwise_gt hT hn
  · rw [ht, linspace0_get _ _ _ (by omega)]; simp
  · rw [ht, abs_of_neg hO, linspace0_last _ hn]
    congr 1; rw [div_neg, neg_neg]
  · intro rate tx dv hr0 hdv x hx
    unfold computeDataVolume at hdv
    split_ifs at hdv with hc
    unfold cumTrapz at hdv
    split at hdv
    · simp at hdv
    · rename_i hsamp
      simp at hdv
      rw [← hdv, List.mem_cons] at hx
      rcases hx with rfl | hx
      · exact le_refl _
      · refine trapzFrom_nonpos _ _ ?_ ?_ x hx
        · have h1 := linspace0_pairwise_gt hT hn
          rw [← ht] at h1
          refine List.Pairwise.imp (R := fun p q : ℝ × ℝ => p.1 > q.1) (fun h => le_of_lt h) ?_
          rw [← List.pairwise_map (f := Prod.fst) (R := fun a b : ℝ => a > b)]
          have hlen : R.times.length ≤ (((R.sights.map Sight.visible).zip tx).map
              (fun p => rate * boolNum p.1 * boolNum p.2)).length := by
            push Not at hc
            rw [List.length_map, List.length_zip, hc.1, hc.2, min_self]
          rw [List.map_fst_zip hlen]
          exact h1
        · intro p hp
          have := List.of_mem_zip hp
          have h3 := this.2
          simp only [List.mem_map] at h3
          obtain ⟨q, -, hq⟩ := h3
          rw [← hq]
          have b0 : ∀ b, 0 ≤ boolNum b := by intro b; cases b <;> simp [boolNum]
          exact mul_nonneg (mul_nonneg hr0 (b0 _)) (b0 _)

/-- Case for `C72_time_axis_partial`: landers on Mars (prograde) and Venus (retrograde). -/
example : (∃ R, LanderToPlanet.init (fun _ => .ok 0) "EARTH" "MARS" 0 2 = .ok R) ∧ ¬ Spec.retrograde "MARS" ∧
    (∃ R, LanderToPlanet.init (fun _ => .ok 0) "EARTH" "VENUS" 0 2 = .ok R) ∧ Spec.retrograde "VENUS" := by
  obtain ⟨P, hP⟩ := (C01_planet_names "MARS").1.mpr (by simp [Spec.bodies])
  obtain ⟨Q, hQ⟩ := (C01_planet_names "VENUS").1.mpr (by simp [Spec.bodies])
  unfold LanderToPlanet.init targetDirection ephName
  rw [hP, hQ]
  simp only [bind, Except.bind, pure, Except.pure]
  exact ⟨⟨_, rfl⟩, by simp [Spec.retrograde], ⟨_, rfl⟩, by simp [Spec.retrograde]⟩

end AMAT.Props
