import Verif.Props.VisibilityProps

/-
C130: which pairs of bodies the visibility classes can handle.
-/

noncomputable section

open Classical

namespace AMAT.Spec

/-- What the planetary ephemeris files offer: a position of each planet, different ones for different planets, and none of
Titan (DE432s contains no satellites but the Moon). -/
structure PlanetFile (eph : String → Except PyErr V3) : Prop where
  known : ∀ n ∈ bodies, n ≠ "TITAN" → ∃ p, eph n = .ok p
  apart : ∀ n ∈ bodies, ∀ m ∈ bodies, ∀ p, eph n = .ok p → eph m = .ok p → n = m
  titan : ∀ p, eph "TITAN" ≠ .ok p

end AMAT.Spec

namespace AMAT.Props

open Real

theorem targetDirection_ok {P : Planet} {eph : Ephemeris} {target observer : String} {o t : V3}
    (ho : eph (if observer = "TITAN" then "SATURN" else observer) = .ok o) (ht : eph target = .ok t) :
    ∃ x, targetDirection P eph target observer = .ok x := by
  unfold targetDirection ephName
  simp only [ho, bind, Except.bind, ht, pure, Except.pure]
  exact ⟨_, rfl⟩

/-- **C130** (partial).  Full claim: for every two different bodies of the documented list both analyses yield the direction and
distance of the target.  With a planetary ephemeris they do exactly if the target is not Titan and the pair is not Saturn seen
from Titan: Titan as a target raises, and for Saturn seen from Titan the distance is zero. -/
theorem C130_pairs_partial (eph : Ephemeris) (hE : Spec.PlanetFile eph) (target observer : String) (ht : target ∈ Spec.bodies)
    (ho : observer ∈ Spec.bodies) (hne : target ≠ observer) (lat T : ℝ) (orb : List (Option V3)) (n : ℕ) :
    ((∃ R, LanderToPlanet.init eph target observer lat n = .ok R) ↔ target ≠ "TITAN") ∧
    ((∃ R, OrbiterToPlanet.init eph target observer orb T n = .ok R) ↔ target ≠ "TITAN") ∧
    (∀ R, LanderToPlanet.init eph target observer lat n = .ok R → 0 ≤ R.range ∧
      (0 < R.range ↔ ¬ (target = "SATURN" ∧ observer = "TITAN"))) ∧
    ∀ R, OrbiterToPlanet.init eph target observer orb T n = .ok R → 0 ≤ R.range ∧
      (0 < R.range ↔ ¬ (target = "SATURN" ∧ observer = "TITAN")) := by
  obtain ⟨P, hP⟩ := (C01_planet_names observer).1.mpr ho
  set ob := if observer = "TITAN" then "SATURN" else observer with hob
  have hobm : ob ∈ Spec.bodies ∧ ob ≠ "TITAN" := by
    rw [hob]; split_ifs with h
    · exact ⟨by simp [Spec.bodies], by decide⟩
    · exact ⟨ho, h⟩
  obtain ⟨o, hoo⟩ := hE.known ob hobm.1 hobm.2
  have hdir : (∃ x, targetDirection P eph target observer = .ok x) ↔ target ≠ "TITAN" := by
    constructor
    · rintro ⟨x, hx⟩ rfl
      obtain ⟨o', t, -, h2, -⟩ := targetDirection_inv hx
      exact hE.titan t h2
    · intro h
      obtain ⟨t, htt⟩ := hE.known target ht h
      exact targetDirection_ok hoo htt
  have hrange : ∀ x, targetDirection P eph target observer = .ok x → 0 ≤ x.1 ∧
      (0 < x.1 ↔ ¬ (target = "SATURN" ∧ observer = "TITAN")) := by
    intro x hx
    obtain ⟨o', t, h1, h2, h3, -⟩ := targetDirection_inv hx
    rw [← hob, hoo] at h1
    obtain rfl : o = o' := Except.ok.inj h1
    have htT : target ≠ "TITAN" := hdir.mp ⟨x, hx⟩
    have hx1 : x.1 = 1000 * V3.norm (t - o) := by
      rw [h3, IsRotation.norm (icrf_rot P), V3.norm_smul, abs_of_pos (by norm_num)]
    refine ⟨by rw [hx1]; have := V3.norm_nonneg (t - o); positivity, ?_⟩
    have hz : x.1 = 0 ↔ target = ob := by
      rw [hx1]
      constructor
      · intro h0
        have h4 : t - o = 0 := V3.norm_eq_zero.mp (by linarith)
        have h5 : t = o := by
          have a := congrArg V3.x h4; have b := congrArg V3.y h4; have c := congrArg V3.z h4
          simp only [V3.sub_x, V3.sub_y, V3.sub_z, V3.zero_x, V3.zero_y, V3.zero_z] at a b c
          ext <;> linarith
        exact hE.apart target ht ob hobm.1 t h2 (by rw [hoo, h5])
      · intro h0
        rw [h0, hoo] at h2
        obtain rfl : o = t := Except.ok.inj h2
        have : V3.norm (o - o) = 0 := by rw [V3.norm_eq_zero]; ext <;> simp
        rw [this, mul_zero]
    have hxn : 0 ≤ x.1 := by rw [hx1]; have := V3.norm_nonneg (t - o); positivity
    have hpair : target = ob ↔ target = "SATURN" ∧ observer = "TITAN" := by
      rw [hob]; split_ifs with h
      · simp [h]
      · exact ⟨fun h' => absurd h' hne, fun h' => absurd h'.2 h⟩
    rw [← hpair, ← hz]
    exact ⟨fun h => h.ne', fun h => lt_of_le_of_ne hxn (Ne.symm h)⟩
  have hL : ∀ R, LanderToPlanet.init eph target observer lat n = .ok R →
      ∃ x, targetDirection P eph target observer = .ok x ∧ R.range = x.1 := by
    intro R hR
    unfold LanderToPlanet.init at hR
    simp only [hP, bind, Except.bind, pure, Except.pure] at hR
    cases hx : targetDirection P eph target observer with
    | error e => rw [hx] at hR; simp at hR
    | ok x => rw [hx] at hR; simp only [Except.ok.injEq] at hR; exact ⟨x, rfl, by rw [← hR]⟩
  have hO : ∀ R, OrbiterToPlanet.init eph target observer orb T n = .ok R →
      ∃ x, targetDirection P eph target observer = .ok x ∧ R.range = x.1 := by
    intro R hR
    unfold OrbiterToPlanet.init at hR
    simp only [hP, bind, Except.bind, pure, Except.pure] at hR
    cases hx : targetDirection P eph target observer with
    | error e => rw [hx] at hR; simp at hR
    | ok x => rw [hx] at hR; simp only [Except.ok.injEq] at hR; exact ⟨x, rfl, by rw [← hR]⟩
  refine ⟨⟨fun ⟨R, hR⟩ => hdir.mp ?_, fun h => ?_⟩, ⟨fun ⟨R, hR⟩ => hdir.mp ?_, fun h => ?_⟩, fun R hR => ?_, fun R hR => ?_⟩
  · obtain ⟨x, hx, -⟩ := hL R hR; exact ⟨x, hx⟩
  · obtain ⟨x, hx⟩ := hdir.mpr h
    unfold LanderToPlanet.init
    simp only [hP, bind, Except.bind, pure, Except.pure, hx]
    exact ⟨_, rfl⟩
  · obtain ⟨x, hx, -⟩ := hO R hR; exact ⟨x, hx⟩
  · obtain ⟨x, hx⟩ := hdir.mpr h
    unfold OrbiterToPlanet.init
    simp only [hP, bind, Except.bind, pure, Except.pure, hx]
    exact ⟨_, rfl⟩
  · obtain ⟨x, hx, hr⟩ := hL R hR; rw [hr]; exact hrange x hx
  · obtain ⟨x, hx, hr⟩ := hO R hR; rw [hr]; exact hrange x hx

/-- **C130** (finding): Saturn seen from Titan.  The lander never sees it, wherever it stands, and the orbiter always does. -/
theorem C130_saturn_from_titan (eph : Ephemeris) (p : V3) (hp : eph "SATURN" = .ok p) (lat T : ℝ) (orb : List (Option V3)) (n : ℕ) :
    (∃ R, LanderToPlanet.init eph "SATURN" "TITAN" lat n = .ok R ∧ R.range = 0 ∧ R.sights.length = n ∧
      ∀ S ∈ R.sights, S.beta = none ∧ S.elev = 0 ∧ S.visible = false) ∧
    ∃ R, OrbiterToPlanet.init eph "SATURN" "TITAN" orb T n = .ok R ∧ R.range = 0 ∧ R.visible.length = orb.length ∧
      ∀ b ∈ R.visible, b = true := by
  obtain ⟨P, hP⟩ := (C01_planet_names "TITAN").1.mpr (by simp [Spec.bodies])
  have hz : p - p = 0 := by ext <;> simp
  have hx : targetDirection P eph "SATURN" "TITAN" = .ok (0, none) := by
    unfold targetDirection ephName
    simp only [if_true, hp, bind, Except.bind, pure, Except.pure, hz, npUnit_zero, Option.map]
    rw [V3.norm_eq_zero.mpr rfl, zero_mul]
  constructor
  · unfold LanderToPlanet.init
    simp only [hP, bind, Except.bind, pure, Except.pure, hx]
    refine ⟨_, rfl, rfl, by simp [linspace0], fun S hS => ?_⟩
    obtain ⟨lon, -, rfl⟩ := List.mem_map.mp hS
    unfold sight
    cases npUnit (landerPos P lat lon) <;> simp [bind, Option.bind, pyMax0]
  · unfold OrbiterToPlanet.init
    simp only [hP, bind, Except.bind, pure, Except.pure, hx]
    refine ⟨_, rfl, rfl, by simp, fun b hb => ?_⟩
    simp only [List.map_map, List.mem_map, Function.comp_def] at hb
    obtain ⟨a, -, rfl⟩ := hb
    unfold orbiterPlanetSample
    cases a <;> rfl

/-- A planetary file: planet `k` of the list at `k` million kilometres. -/
def demoFile : Ephemeris := fun s =>
  if s = "TITAN" then .error .valueError
  else if s ∈ Spec.bodies then .ok ⟨1e6 * (Spec.bodies.idxOf s : ℝ), 0, 0⟩ else .error .valueError

/-- A case of `C130_pairs_partial`: the Earth seen from Mars and from Titan, Titan from the Earth. -/
example : Spec.PlanetFile demoFile ∧ (∃ R, LanderToPlanet.init demoFile "EARTH" "MARS" 20 101 = .ok R ∧ 0 < R.range) ∧
    (∃ R, LanderToPlanet.init demoFile "EARTH" "TITAN" 20 101 = .ok R ∧ 0 < R.range) ∧
    ¬ ∃ R, LanderToPlanet.init demoFile "TITAN" "EARTH" 20 101 = .ok R := by
  have hE : Spec.PlanetFile demoFile := by
    refine ⟨fun n hn h => ⟨⟨1e6 * (Spec.bodies.idxOf n : ℝ), 0, 0⟩, by unfold demoFile; rw [if_neg h, if_pos hn]⟩, ?_, ?_⟩
    · intro n hn m hm p h1 h2
      unfold demoFile at h1 h2
      split_ifs at h1 h2
      simp only [Except.ok.injEq] at h1 h2
      have h3 := congrArg V3.x (h1.trans h2.symm)
      simp only [mul_eq_mul_left_iff, Nat.cast_inj] at h3
      rcases h3 with h3 | h3
      · exact (List.idxOf_inj hn).mp h3
      · norm_num at h3
    · intro p h
      unfold demoFile at h
      simp at h
  have a := C130_pairs_partial demoFile hE "EARTH" "MARS" (by simp [Spec.bodies]) (by simp [Spec.bodies]) (by decide) 20 0 [] 101
  have b := C130_pairs_partial demoFile hE "EARTH" "TITAN" (by simp [Spec.bodies]) (by simp [Spec.bodies]) (by decide) 20 0 [] 101
  have c := C130_pairs_partial demoFile hE "TITAN" "EARTH" (by simp [Spec.bodies]) (by simp [Spec.bodies]) (by decide) 20 0 [] 101
  refine ⟨hE, ?_, ?_, fun h => c.1.mp h rfl⟩
  · obtain ⟨R, hR⟩ := a.1.mpr (by decide)
    exact ⟨R, hR, (a.2.2.1 R hR).2.mpr (by decide)⟩
  · obtain ⟨R, hR⟩ := b.1.mpr (by decide)
    exact ⟨R, hR, (b.2.2.1 R hR).2.mpr (by decide)⟩

/-- A case of `C130_saturn_from_titan`. -/
example : ∃ R, LanderToPlanet.init demoFile "SATURN" "TITAN" 20 101 = .ok R ∧ R.range = 0 := by
  obtain ⟨⟨R, h1, h2, -⟩, -⟩ := C130_saturn_from_titan demoFile ⟨1e6 * (Spec.bodies.idxOf "SATURN" : ℝ), 0, 0⟩
    (by unfold demoFile; rw [if_neg (by decide), if_pos (by simp [Spec.bodies])]) 20 0 [] 101
  exact ⟨R, h1, h2⟩

end AMAT.Props
