import Verif.Props.TrajectoryProps

/-
Property C98: the times at which a flight is reported.
-/

noncomputable section

open Real

namespace AMAT.Props

open AMAT Lits

/-- The grid handed to the integrators, in seconds: multiples of the step, one more than needed to reach the requested
duration. -/
theorem tGrid_get (name : String) (P : Planet) (hP : Planet.init name = .ok P) (tSec dt : ℝ) (ht : 0 ≤ tSec)
    (hdt : 0 < dt) :
    (Vehicle.tGrid P tSec dt).length = ⌈tSec / dt⌉₊ + 1 ∧
    ∀ k < ⌈tSec / dt⌉₊ + 1, (Vehicle.tGrid P tSec dt)[k]? = some (k * dt / P.tau) := by
  obtain ⟨_, _, _, _, _, _, _, _, _, htau, _⟩ := C01_planet_consistent name P hP
  have e : ⌈((tSec + dt) / P.tau) / (dt / P.tau)⌉₊ = ⌈tSec / dt⌉₊ + 1 := by
    rw [show ((tSec + dt) / P.tau) / (dt / P.tau) = tSec / dt + 1 by field_simp]
    exact Nat.ceil_add_one (by positivity)
  constructor
  · simp [Vehicle.tGrid, arange0, e]
  · intro k hk
    simp only [Vehicle.tGrid, arange0, e, List.getElem?_map, List.getElem?_range hk, Option.map_some, Option.some.injEq]
    ring

/-- C98: whatever the verdict, and for both back ends, point `k` of the stored flight is at time `k·dt` seconds
(`k·dt/60` in the plot arrays), and there are at most so many points as are needed to reach the requested
duration. -/
theorem C98_sampled_every_step (name : String) (V : Vehicle) (hP : Planet.init name = .ok V.planet)
    (mode : ScipyMode) (I : Integrator) (hI : SolveIvpLike I) (tSec dt deltaDeg : ℝ) (ht : 0 ≤ tSec) (hdt : 0 < dt)
    (out : PropOut)
    (h : V.propogateEntry mode I tSec dt deltaDeg = .ok out ∨ V.propogateEntry2 mode I tSec dt deltaDeg = .ok out) :
    out.index ≤ ⌈tSec / dt⌉₊ + 1 ∧ out.c.t.length = out.index ∧
    (∀ k < out.index, out.c.t[k]? = some (k * dt)) ∧
    (∀ k < out.index, out.plotc.t[k]? = some (k * dt / 60)) ∧
    ∀ x ∈ out.c.t, 0 ≤ x ∧ x < tSec + dt := by
  obtain ⟨_, _, _, _, _, _, _, _, _, htau, _⟩ := C01_planet_consistent name V.planet hP
  have hal : Spec.Aligned V.planet (samples V I tSec dt deltaDeg) out := by
    rcases h with h | h
    · exact C24_arrays_aligned V mode I tSec dt deltaDeg out h
    · exact (C24_arrays_aligned_variants V mode I tSec dt deltaDeg out V.init (fun _ => 0)).1 h
  have hplot : out.plotc.t = out.c.t.map (· / 60) := by
    have hp : ∀ {S : List (ℝ × FState)} {hi : ℝ},
        V.postProcess mode (TrajArrays.ofSamples S) (deltaDeg * π / 180.0) hi = .ok out →
        out.plotc.t = out.c.t.map (· / 60) := by
      intro S hi h
      obtain ⟨idx, flag, qc, qr, heat, hc, hq, hq2, hh, rfl⟩ := postProcess_inv h
      have l60 : (60.0 : ℝ) = 60 := by norm_num
      simp [TrajArrays.truncate, Planet.toPlotUnits, Planet.dimensionalizeArr, TrajArrays.ofSamples, List.map_take, l60]
    rcases h with h | h
    · exact hp h
    · exact hp h
  obtain ⟨h1, h2, a3, -⟩ := hal
  obtain ⟨g1, g2⟩ := tGrid_get name V.planet hP tSec dt ht hdt
  obtain ⟨i1, -⟩ := hI (fun t y => V.EOM y t (deltaDeg * π / 180.0))
    (V.planet.nonDimState (Vehicle.entryState V.planet V.init)) (Vehicle.tGrid V.planet tSec dt)
  change (samples V I tSec dt deltaDeg).map Prod.fst <+: _ at i1
  have hle : out.index ≤ ⌈tSec / dt⌉₊ + 1 := by
    have := i1.length_le
    rw [List.length_map, g1] at this
    omega
  have hlen : out.c.t.length = out.index := by rw [a3]; simp [h2]
  have hget : ∀ k < out.index, out.c.t[k]? = some (k * dt) := by
    intro k hk
    have hk2 : k < (samples V I tSec dt deltaDeg).length := by omega
    have e1 : ((samples V I tSec dt deltaDeg).map Prod.fst)[k]? = some (k * dt / V.planet.tau) := by
      rw [← g2 k (by omega)]
      obtain ⟨rest, hrest⟩ := i1
      rw [← hrest, List.getElem?_append_left (by simpa using hk2)]
    rw [List.getElem?_map, Option.map_eq_some_iff] at e1
    obtain ⟨p, hp, hp2⟩ := e1
    rw [a3, List.getElem?_map, List.getElem?_take_of_lt hk, hp, Option.map_some, hp2]
    congr 1
    field_simp
  refine ⟨hle, hlen, hget, ?_, ?_⟩
  · intro k hk
    rw [hplot, List.getElem?_map, hget k hk]
    rfl
  · intro x hx
    obtain ⟨k, hk⟩ := List.mem_iff_getElem?.mp hx
    have hk' : k < out.index := by rw [← hlen]; exact (List.getElem?_eq_some_iff.mp hk).1
    rw [hget k hk', Option.some.injEq] at hk
    subst hk
    refine ⟨by positivity, ?_⟩
    have hk3 : (k : ℝ) ≤ ⌈tSec / dt⌉₊ := by exact_mod_cast (by omega : k ≤ ⌈tSec / dt⌉₊)
    have hc := Nat.ceil_lt_add_one (show 0 ≤ tSec / dt by positivity)
    have : (k : ℝ) < tSec / dt + 1 := lt_of_le_of_lt hk3 hc
    calc (k : ℝ) * dt < (tSec / dt + 1) * dt := mul_lt_mul_of_pos_right this hdt
      _ = tSec + dt := by field_simp

/-- C98: an undecided verdict (exit flag 0) is only given after the requested duration has been flown in full: the last
point is not before it, and less than a step after it; and all points are between the trap and the skip altitude. -/
theorem C98_undecided_flies_all (name : String) (V : Vehicle) (hP : Planet.init name = .ok V.planet)
    (mode : ScipyMode) (I : Integrator) (hI : OdeintLike I) (tSec dt deltaDeg : ℝ) (ht : 0 ≤ tSec) (hdt : 0 < dt)
    (out : PropOut) (h : V.propogateEntry mode I tSec dt deltaDeg = .ok out) (hflag : out.exitflag = 0) :
    out.index = ⌈tSec / dt⌉₊ + 1 ∧
    (∃ last, out.c.t.getLast? = some last ∧ tSec ≤ last ∧ last < tSec + dt) ∧
    ∀ r ∈ out.c.r, V.planet.hTrap ≤ r - V.planet.RP ∧ r - V.planet.RP ≤ V.planet.hSkip := by
  obtain ⟨hle, hlen, hget, -, hall⟩ := C98_sampled_every_step name V hP mode I (OdeintLike.toIvp hI) tSec dt deltaDeg ht
    hdt out (.inl h)
  have hal := C24_arrays_aligned V mode I tSec dt deltaDeg out h
  obtain ⟨g1, g2⟩ := tGrid_get name V.planet hP tSec dt ht hdt
  have hsl : (samples V I tSec dt deltaDeg).length = ⌈tSec / dt⌉₊ + 1 := by
    rw [← g1, ← (hI (fun t y => V.EOM y t (deltaDeg * π / 180.0))
      (V.planet.nonDimState (Vehicle.entryState V.planet V.init)) (Vehicle.tGrid V.planet tSec dt)).1, List.length_map]
    rfl
  have key : out.index = (samples V I tSec dt deltaDeg).length ∧
      ∀ r ∈ out.c.r, V.planet.hTrap ≤ r - V.planet.RP ∧ r - V.planet.RP ≤ V.planet.hSkip := by
    have hp : V.postProcess mode (TrajArrays.ofSamples (samples V I tSec dt deltaDeg)) (deltaDeg * π / 180.0) 0
      = .ok out := h
    obtain ⟨idx, flag, qc, qr, heat, hc, hq, hq2, hh, rfl⟩ := postProcess_inv hp
    simp only at hflag
    subst hflag
    have hne : (V.planet.dimensionalizeArr (TrajArrays.ofSamples (samples V I tSec dt deltaDeg))).r ≠ [] := by
      intro h0
      have := congrArg List.length h0
      simp [Planet.dimensionalizeArr, TrajArrays.ofSamples, hsl] at this
    obtain ⟨idx', flag', hc', -, -, -, -, -, hz⟩ := C22_classification name V.planet hP _ hne
    rw [hc] at hc'
    simp only [Except.ok.injEq, Prod.mk.injEq] at hc'
    obtain ⟨rfl, rfl⟩ := hc'
    obtain ⟨z1, z2⟩ := hz rfl
    refine ⟨?_, ?_⟩
    · simpa [Planet.dimensionalizeArr, TrajArrays.ofSamples] using z1
    · intro r hr
      exact z2 r (List.mem_of_mem_take hr)
  obtain ⟨k1, k2⟩ := key
  have hidx : out.index = ⌈tSec / dt⌉₊ + 1 := by rw [k1, hsl]
  refine ⟨hidx, ?_, k2⟩
  have hlast := hget ⌈tSec / dt⌉₊ (by omega)
  refine ⟨⌈tSec / dt⌉₊ * dt, ?_, ?_, ?_⟩
  · rw [List.getLast?_eq_getElem?, hlen, hidx]
    exact hlast
  · have := mul_le_mul_of_nonneg_right (Nat.le_ceil (tSec / dt)) hdt.le
    rwa [div_mul_cancel₀ _ hdt.ne'] at this
  · exact (hall _ (List.mem_of_getElem? hlast)).2

/-- C98: the converse: a propagation that returns and has all of its points strictly between trap and skip altitude is
undecided. -/
theorem C98_undecided_if_between (name : String) (V : Vehicle) (hP : Planet.init name = .ok V.planet)
    (mode : ScipyMode) (I : Integrator) (tSec dt deltaDeg : ℝ) (out : PropOut)
    (h : V.propogateEntry mode I tSec dt deltaDeg = .ok out)
    (hin : ∀ q ∈ samples V I tSec dt deltaDeg, V.planet.hTrap < q.2.r * V.planet.RP - V.planet.RP ∧
      q.2.r * V.planet.RP - V.planet.RP < V.planet.hSkip) :
    out.exitflag = 0 := by
  have hpos : samples V I tSec dt deltaDeg ≠ [] := by
    obtain ⟨h1, h2, -⟩ := C24_arrays_aligned V mode I tSec dt deltaDeg out h
    intro h0
    rw [h0, List.length_nil] at h2
    omega
  have hp : V.postProcess mode (TrajArrays.ofSamples (samples V I tSec dt deltaDeg)) (deltaDeg * π / 180.0) 0
    = .ok out := h
  obtain ⟨idx, flag, qc, qr, heat, hc, hq, hq2, hh, rfl⟩ := postProcess_inv hp
  have hmem : ∀ x ∈ (V.planet.dimensionalizeArr (TrajArrays.ofSamples (samples V I tSec dt deltaDeg))).r,
      V.planet.hTrap < x - V.planet.RP ∧ x - V.planet.RP < V.planet.hSkip := by
    intro x hx
    simp only [Planet.dimensionalizeArr, TrajArrays.ofSamples, List.map_map, List.mem_map, Function.comp] at hx
    obtain ⟨q, hq, rfl⟩ := hx
    have := hin q hq
    simpa only [mul_comm] using this
  have hne : (V.planet.dimensionalizeArr (TrajArrays.ofSamples (samples V I tSec dt deltaDeg))).r ≠ [] := by
    intro h0
    have := congrArg List.length h0
    simp [Planet.dimensionalizeArr, TrajArrays.ofSamples] at this
    exact hpos this
  obtain ⟨idx', flag', hc', -, h3, h4, -, h6, -⟩ := C22_classification name V.planet hP _ hne
  rw [hc] at hc'
  simp only [Except.ok.injEq, Prod.mk.injEq] at hc'
  obtain ⟨rfl, rfl⟩ := hc'
  rcases h3 with h3 | h3 | h3
  · obtain ⟨-, x, hx, hx2⟩ := h4.mp h3
    exact absurd (hmem x hx).2 (by linarith)
  · exact h3
  · obtain ⟨⟨x, hx, hx2⟩, -⟩ := h6 h3
    exact absurd (hmem x hx).1 (by linarith)

/-- Case for the three theorems of C98: 1200 s at Venus in steps of 0.1 s, held at 150 km, is undecided, and has 12001
points up to the requested time. -/
example : ∃ (P : Planet) (out : PropOut), Planet.init "VENUS" = .ok P ∧
    (demoEntry P 150 11).propogateEntry .strict constIntegrator 1200 0.1 0 = .ok out ∧
    out.exitflag = 0 ∧ out.index = 12001 ∧ out.c.t[12000]? = some 1200 := by
  obtain ⟨P, hP⟩ := (C01_planet_names "VENUS").1.mpr (by simp [Spec.bodies])
  have hT : P.hTrap = 10000 := by simp [Planet.init] at hP; subst hP; norm_num [Planet.withScales]
  have hS : 150000 < P.hSkip := by simp [Planet.init] at hP; subst hP; norm_num [Planet.withScales]
  obtain ⟨out, ho, -⟩ := demo_flight hP (h := 150) (v := 11) .strict 0 (by rw [hT]; norm_num) (by linarith)
  obtain ⟨_, hR, _⟩ := C01_planet_consistent "VENUS" P hP
  have e := demoEntry_altitude P hR.ne' 150 11
  have hflag : out.exitflag = 0 := by
    refine C98_undecided_if_between "VENUS" (demoEntry P 150 11) hP .strict constIntegrator 1200 0.1 0 out ho ?_
    obtain ⟨S, e1, e2⟩ := samples_const "VENUS" (demoEntry P 150 11) hP 1200 0.1 0 (by norm_num) (by norm_num)
    intro q hq
    have hq2 : q.2 = P.nonDimState (Vehicle.entryState P (demoEntry P 150 11).init) := by
      rw [e1, List.mem_cons] at hq
      rcases hq with rfl | hq
      · rfl
      · exact e2 q hq
    rw [hq2, show (demoEntry P 150 11).planet = P from rfl, e, hT]
    constructor <;> linarith
  have hceil : ⌈(1200 : ℝ) / 0.1⌉₊ = 12000 := by
    rw [show (1200 : ℝ) / 0.1 = ((12000 : ℕ) : ℝ) by norm_num, Nat.ceil_natCast]
  obtain ⟨h1, -⟩ := C98_undecided_flies_all "VENUS" (demoEntry P 150 11) hP .strict constIntegrator
    constIntegrator_ok.1 1200 0.1 0 (by norm_num) (by norm_num) out ho hflag
  obtain ⟨-, -, h3, -⟩ := C98_sampled_every_step "VENUS" (demoEntry P 150 11) hP .strict constIntegrator
    constIntegrator_ok.2 1200 0.1 0 (by norm_num) (by norm_num) out (.inl ho)
  rw [hceil] at h1
  refine ⟨P, out, hP, ho, hflag, h1, ?_⟩
  rw [h3 12000 (by omega)]
  norm_num

end AMAT.Props
