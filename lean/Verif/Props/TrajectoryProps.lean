import Mathlib.Tactic.FieldSimp
import Mathlib.Tactic.NormNum
import Verif.Model.Trajectory
import Verif.Lemmas.Lists
import Verif.Lemmas.Propagate
import Verif.Lemmas.Lits
import Verif.Props.PlanetProps

/-! Properties C22, C23, C24, C62, C16: what `propogateEntry` stores. -/

noncomputable section

open Classical Real

namespace AMAT.Props

open AMAT Lits

/-! ### C22 -/

/-- C22: classification of a non-empty radius history never fails; the flag is 1, 0 or -1, and each flag has the
documented meaning for the history and for the retained points `r[0:index]`. -/
theorem C22_classification (name : String) (P : Planet) (hP : Planet.init name = .ok P) (r : List ℝ)
    (hr : r ≠ []) :
    ∃ idx flag, P.classifyTrajectory r = .ok (idx, flag) ∧ idx ≤ r.length ∧
      (flag = 1 ∨ flag = 0 ∨ flag = -1) ∧
      (flag = 1 ↔ (∀ x ∈ r, 0 ≤ x - P.RP) ∧ ∃ x ∈ r, P.hSkip < x - P.RP) ∧
      (flag = 1 → (∀ x ∈ r.take idx, x - P.RP ≤ P.hSkip) ∧
        ∃ h : idx < r.length, P.hSkip < r[idx] - P.RP) ∧
      (flag = -1 → (∃ x ∈ r, x - P.RP ≤ P.hTrap) ∧ ∀ x ∈ r.take idx, P.hTrap ≤ x - P.RP) ∧
      (flag = 0 → idx = r.length ∧ ∀ x ∈ r, P.hTrap ≤ x - P.RP ∧ x - P.RP ≤ P.hSkip) := by
  obtain ⟨_, _, _, _, _, hTr, hTS, _⟩ := C01_planet_consistent name P hP
  set h := r.map P.computeH with hh
  have hne : h ≠ [] := by simpa [hh] using hr
  obtain ⟨M, hM, hMm, hMub⟩ := pyMax_spec hne
  obtain ⟨m, hm, hmm, hmlb⟩ := pyMin_spec hne
  have memh : ∀ x, x ∈ r → x - P.RP ∈ h := fun x hx => List.mem_map.mpr ⟨x, hx, rfl⟩
  have exr : ∀ y ∈ h, ∃ x ∈ r, x - P.RP = y := by
    intro y hy; obtain ⟨x, hx, rfl⟩ := List.mem_map.mp hy; exact ⟨x, hx, rfl⟩
  have hlen : h.length = r.length := by simp [hh]
  have htake : ∀ n x, x ∈ r.take n → x - P.RP ∈ h.take n := by
    intro n x hx
    rw [hh, ← List.map_take]
    exact List.mem_map.mpr ⟨x, hx, rfl⟩
  have hget : ∀ (i : ℕ) (h1 : i < h.length), h[i] = r[i]'(hlen ▸ h1) - P.RP := by
    intro i h1; simp [hh, Planet.computeH]
  have unfold1 : P.classifyTrajectory r =
      if m ≥ 0 ∧ M > P.hSkip then .ok (argmaxBool (h.map fun x => decide (x > P.hSkip)), 1)
      else if m ≥ P.hTrap ∧ M < P.hSkip then .ok (h.length, 0)
      else if m ≤ P.hTrap then .ok (argmaxBool (h.map fun x => decide (x < P.hTrap)), -1)
      else .ok (h.length, 0) := by
    exact classify_eq P hM hm
  have one_iff : ((∀ x ∈ r, 0 ≤ x - P.RP) ∧ ∃ x ∈ r, P.hSkip < x - P.RP) ↔ (m ≥ 0 ∧ M > P.hSkip) := by
    constructor
    · rintro ⟨h1, x, hx, h2⟩
      obtain ⟨y, hy, he⟩ := exr m hmm
      exact ⟨he ▸ h1 y hy, lt_of_lt_of_le h2 (hMub _ (memh x hx))⟩
    · rintro ⟨h1, h2⟩
      obtain ⟨y, hy, he⟩ := exr M hMm
      exact ⟨fun x hx => le_trans h1 (hmlb _ (memh x hx)), y, hy, by rw [he]; exact h2⟩
  rw [unfold1, one_iff]
  by_cases c1 : m ≥ 0 ∧ M > P.hSkip
  · rw [if_pos c1]
    obtain ⟨s1, s2, _, s4⟩ := argmaxBool_spec h (fun x => x > P.hSkip)
    refine ⟨_, _, rfl, hlen ▸ s4, Or.inl rfl, by simp [c1], ?_, by simp, by simp⟩
    intro _
    refine ⟨fun x hx => not_lt.mp (s1 _ (htake _ x hx)), ?_⟩
    obtain ⟨h1, h2⟩ := s2 ⟨M, hMm, c1.2⟩
    refine ⟨hlen ▸ h1, ?_⟩
    rw [← hget _ h1]
    exact h2
  · rw [if_neg c1]
    by_cases c2 : m ≥ P.hTrap ∧ M < P.hSkip
    · rw [if_pos c2]
      refine ⟨_, _, rfl, hlen.le, Or.inr (Or.inl rfl), by simp [c1], by simp, by simp, ?_⟩
      intro _
      refine ⟨hlen, fun x hx => ⟨le_trans c2.1 (hmlb _ (memh x hx)), ?_⟩⟩
      have := hMub _ (memh x hx); linarith [c2.2]
    · rw [if_neg c2]
      by_cases c3 : m ≤ P.hTrap
      · rw [if_pos c3]
        obtain ⟨s1, s2, _, s4⟩ := argmaxBool_spec h (fun x => x < P.hTrap)
        refine ⟨_, _, rfl, hlen ▸ s4, Or.inr (Or.inr rfl), by simp [c1], by simp, ?_, by simp⟩
        intro _
        obtain ⟨y, hy, he⟩ := exr m hmm
        exact ⟨⟨y, hy, he ▸ c3⟩, fun x hx => not_lt.mp (s1 _ (htake _ x hx))⟩
      · rw [if_neg c3]
        refine ⟨_, _, rfl, hlen.le, Or.inr (Or.inl rfl), by simp [c1], by simp, by simp, ?_⟩
        intro _
        push Not at c3
        have hm0 : m ≥ 0 := by linarith
        have hM1 : M ≤ P.hSkip := by
          by_contra hc; push Not at hc; exact c1 ⟨hm0, hc⟩
        exact ⟨hlen, fun x hx => ⟨le_trans c3.le (hmlb _ (memh x hx)), le_trans (hMub _ (memh x hx)) hM1⟩⟩

/-- The hypotheses of C22 are met, e.g. by a one-point history at Venus. -/
example : ∃ P, Planet.init "VENUS" = .ok P ∧ ([7e6] : List ℝ) ≠ [] :=
  let ⟨P, hP⟩ := (C01_planet_names "VENUS").1.mpr (by simp [Spec.bodies])
  ⟨P, hP, by simp⟩

/-! ### C23 -/

/-- C23 (finding): the claim is false of the code.  At every supported body a vehicle that first drops below `h_trap`
(but not below ground) and later rises above `h_skip` is classified as skipped out. -/
theorem C23_trapped_first_still_skips (name : String) (P : Planet) (hP : Planet.init name = .ok P) :
    ∃ (r : List ℝ) (idx : ℕ), P.classifyTrajectory r = .ok (idx, 1) ∧
      ∃ i j : ℕ, ∃ (hi : i < r.length) (hj : j < r.length), i < j ∧ r[i] - P.RP < P.hTrap ∧
        P.hSkip < r[j] - P.RP ∧ ∀ k, ∀ hk : k < j, r[k]'(hk.trans hj) - P.RP ≤ P.hSkip := by
  obtain ⟨_, _, _, _, _, hTr, hTS, _⟩ := C01_planet_consistent name P hP
  have hr : [P.RP, P.RP + P.hSkip + 1] ≠ [] := by simp
  obtain ⟨idx, flag, h1, _, _, h2, _⟩ := C22_classification name P hP _ hr
  have : flag = 1 := by
    rw [h2]
    constructor
    · intro x hx
      simp only [List.mem_cons, List.not_mem_nil, or_false] at hx
      rcases hx with rfl | rfl <;> linarith
    · exact ⟨P.RP + P.hSkip + 1, by simp, by linarith⟩
  subst this
  refine ⟨_, idx, h1, 0, 1, by simp, by simp, by norm_num, ?_, ?_, ?_⟩
  · simp; exact hTr
  · simp only [List.getElem_cons_succ, List.getElem_cons_zero]; linarith
  · intro k hk
    have : k = 0 := by omega
    subst this
    simp; linarith

/-- Case for `C23_trapped_first_still_skips`: Titan. -/
example : ∃ (P : Planet) (r : List ℝ) (idx : ℕ), Planet.init "TITAN" = .ok P ∧ P.classifyTrajectory r = .ok (idx, 1) ∧
    ∃ x ∈ r, x - P.RP < P.hTrap := by
  obtain ⟨P, hP⟩ := (C01_planet_names "TITAN").1.mpr (by simp [Spec.bodies])
  obtain ⟨r, idx, h, i, j, hi, hj, -, h2, -⟩ := C23_trapped_first_still_skips "TITAN" P hP
  exact ⟨P, r, idx, hP, h, r[i], List.getElem_mem hi, h2⟩

/-- C23, the part that holds: a history that goes below ground anywhere is never classified as skipped out, and one
that stays at or above `h_trap` is classified as skipped out exactly when it exceeds `h_skip`.  Missing from the full
claim: histories that visit `[0, h_trap)` before exceeding `h_skip` (see `C23_trapped_first_still_skips`). -/
theorem C23_never_skips_partial (name : String) (P : Planet) (hP : Planet.init name = .ok P)
    (r : List ℝ) (idx : ℕ) (flag : ℤ) (h : P.classifyTrajectory r = .ok (idx, flag)) :
    ((∃ x ∈ r, x < P.RP) → flag ≠ 1) ∧
    ((∀ x ∈ r, P.hTrap ≤ x - P.RP) → (flag = 1 ↔ ∃ x ∈ r, P.hSkip < x - P.RP)) := by
  obtain ⟨_, _, _, _, _, hTr, hTS, _⟩ := C01_planet_consistent name P hP
  have hr : r ≠ [] := by
    exact classify_nonempty h
  obtain ⟨idx', flag', h1, _, _, h2, _⟩ := C22_classification name P hP r hr
  rw [h] at h1
  obtain ⟨rfl, rfl⟩ : idx = idx' ∧ flag = flag' := by simpa using h1
  constructor
  · rintro ⟨x, hx, hlt⟩ h1
    have := (h2.mp h1).1 x hx
    linarith
  · intro hall
    rw [h2]
    exact ⟨fun h => h.2, fun h => ⟨fun x hx => by linarith [hall x hx], h⟩⟩

/-- Case for `C23_never_skips_partial`: at Venus, from 150 km up to 200 km. -/
example : ∃ (P : Planet) (idx : ℕ), Planet.init "VENUS" = .ok P ∧
    P.classifyTrajectory [P.RP + 150e3, P.RP + 200e3] = .ok (idx, 1) := by
  obtain ⟨P, hP⟩ := (C01_planet_names "VENUS").1.mpr (by simp [Spec.bodies])
  have hT : P.hTrap = 10000 := by simp [Planet.init] at hP; subst hP; rfl
  have hS : P.hSkip = 180000 := by simp [Planet.init] at hP; subst hP; rfl
  obtain ⟨idx, flag, h, -⟩ := C22_classification "VENUS" P hP [P.RP + 150e3, P.RP + 200e3] (by simp)
  have := ((C23_never_skips_partial "VENUS" P hP _ _ _ h).2 (by
    intro x hx
    simp only [List.mem_cons, List.not_mem_nil, or_false] at hx
    rw [hT]
    rcases hx with rfl | rfl <;> ring_nf <;> norm_num)).mpr ⟨P.RP + 200e3, by simp, by rw [hS]; ring_nf; norm_num⟩
  subst this
  exact ⟨P, idx, hP, h⟩

/-! ### C24 -/

/-- The samples produced by the integrator inside `propogateEntry`. -/
def samples (V : Vehicle) (I : Integrator) (tSec dt deltaDeg : ℝ) : List (ℝ × FState) :=
  I (fun t y => V.EOM y t (deltaDeg * π / 180.0)) (V.planet.nonDimState (Vehicle.entryState V.planet V.init))
    (Vehicle.tGrid V.planet tSec dt)

/-- Specification: every array stored in `out` is obtained from one and the same non-empty prefix of the solver
samples `full` by the fixed scaling of the planet, and every per-point history has the same number of entries. -/
def Spec.Aligned (P : Planet) (full : List (ℝ × FState)) (out : PropOut) : Prop :=
  let S := full.take out.index
  1 ≤ out.index ∧ out.index ≤ full.length ∧
  out.c.t = S.map (fun p => P.tau * p.1) ∧
  out.c.r = S.map (fun p => p.2.r * P.RP) ∧
  out.c.theta = S.map (fun p => p.2.theta) ∧
  out.c.phi = S.map (fun p => p.2.phi) ∧
  out.c.v = S.map (fun p => p.2.v * P.Vref) ∧
  out.c.psi = S.map (fun p => p.2.psi) ∧
  out.c.gamma = S.map (fun p => p.2.gamma) ∧
  out.c.drange = S.map (fun p => p.2.drange * P.RP) ∧
  (∀ l ∈ [out.c.t, out.c.r, out.c.theta, out.c.phi, out.c.v, out.c.psi, out.c.gamma, out.c.drange,
      out.plotc.t, out.plotc.r, out.plotc.theta, out.plotc.phi, out.plotc.v, out.plotc.psi, out.plotc.gamma,
      out.plotc.drange, out.accDragG, out.dynPresAtm, out.stagPresAtm, out.qStagCon, out.qStagRad,
      out.qStagTotal, out.heatload], l.length = out.index) ∧
  out.accNetG.length = out.index

theorem postProcess_aligned {V : Vehicle} {mode : ScipyMode} {S : List (ℝ × FState)} {delta hi : ℝ}
    {out : PropOut} (h : V.postProcess mode (TrajArrays.ofSamples S) delta hi = .ok out) :
    Spec.Aligned V.planet S out := by
  obtain ⟨idx, flag, qc, qr, heat, hc, hq, hq2, hh, rfl⟩ := postProcess_inv h
  obtain ⟨hne, rfl, _⟩ := cumTrapz_ok hh
  have hidx : idx ≤ S.length := by
    have := classify_index_le hc
    simpa [Planet.dimensionalizeArr, TrajArrays.ofSamples] using this
  have lc : qc.length = idx := by
    rw [qStagConvective_length hq]; simp [Planet.dimensionalizeArr, TrajArrays.ofSamples, hidx]
  have lr : qr.length = idx := by
    rw [qStagRadiative_length hq2]; simp [Planet.dimensionalizeArr, TrajArrays.ofSamples, hidx]
  have hpos : 1 ≤ idx := by
    by_contra h0
    have : idx = 0 := by omega
    subst this
    simp at hne
  refine ⟨hpos, hidx, ?_, ?_, ?_, ?_, ?_, ?_, ?_, ?_, ?_, ?_⟩
  · simp [TrajArrays.truncate, Planet.dimensionalizeArr, TrajArrays.ofSamples, Function.comp_def, List.map_take]
  · simp [TrajArrays.truncate, Planet.dimensionalizeArr, TrajArrays.ofSamples, Function.comp_def, List.map_take]
  · simp [TrajArrays.truncate, Planet.dimensionalizeArr, TrajArrays.ofSamples, List.map_take]
  · simp [TrajArrays.truncate, Planet.dimensionalizeArr, TrajArrays.ofSamples, List.map_take]
  · simp [TrajArrays.truncate, Planet.dimensionalizeArr, TrajArrays.ofSamples, Function.comp_def, List.map_take]
  · simp [TrajArrays.truncate, Planet.dimensionalizeArr, TrajArrays.ofSamples, List.map_take]
  · simp [TrajArrays.truncate, Planet.dimensionalizeArr, TrajArrays.ofSamples, List.map_take]
  · simp [TrajArrays.truncate, Planet.dimensionalizeArr, TrajArrays.ofSamples, Function.comp_def, List.map_take]
  · simp [TrajArrays.truncate, Planet.dimensionalizeArr, TrajArrays.ofSamples, Planet.toPlotUnits, hidx, lc, lr,
      trapzFrom_length]
    omega
  · simp [Planet.dimensionalizeArr, TrajArrays.ofSamples, hidx]

/-- C24 (and C62, unit conversion): whenever `propogateEntry` returns, every stored array is obtained from the same
non-empty prefix of the integrator's samples by a fixed unit conversion, all arrays have length `index`, and the
per-point histories (loads, pressures, heat rates, heat load) have that same length. -/
theorem C24_arrays_aligned (V : Vehicle) (mode : ScipyMode) (I : Integrator) (tSec dt deltaDeg : ℝ)
    (out : PropOut) (h : V.propogateEntry mode I tSec dt deltaDeg = .ok out) :
    Spec.Aligned V.planet (samples V I tSec dt deltaDeg) out := postProcess_aligned h

/-- C24 for `propogateEntry2` and for the two prediction helpers `propogateEntry_util(2)`. -/
theorem C24_arrays_aligned_variants (V : Vehicle) (mode : ScipyMode) (I : Integrator) (tSec dt deltaDeg : ℝ)
    (out : PropOut) (s : InitState) (rho : ℝ → ℝ) :
    (V.propogateEntry2 mode I tSec dt deltaDeg = .ok out →
      Spec.Aligned V.planet (samples V I tSec dt deltaDeg) out) ∧
    (V.propogateEntryUtil mode I s tSec dt deltaDeg rho = .ok out →
      Spec.Aligned V.planet (samples { V.dummyVehicle rho with init := s } I tSec dt deltaDeg) out) ∧
    (V.propogateEntryUtil2 mode I s tSec dt deltaDeg rho = .ok out →
      Spec.Aligned V.planet (samples { V.dummyVehicle rho with init := s } I tSec dt deltaDeg) out) :=
  ⟨fun h => postProcess_aligned h, fun h => postProcess_aligned (V := V.dummyVehicle rho) h,
    fun h => postProcess_aligned (V := V.dummyVehicle rho) h⟩

/-- The first retained point of arrays aligned with the integrator samples. -/
theorem aligned_first_point (name : String) (V : Vehicle) (hP : Planet.init name = .ok V.planet)
    (I : Integrator) (hI : SolveIvpLike I) (tSec dt deltaDeg : ℝ) (out : PropOut)
    (h : Spec.Aligned V.planet (samples V I tSec dt deltaDeg) out) :
    out.c.t.head? = some 0 ∧
    out.c.r.head? = some (V.planet.RP + V.init.h0Km * 1000) ∧
    out.c.theta.head? = some (V.init.theta0Deg * (π / 180)) ∧
    out.c.phi.head? = some (V.init.phi0Deg * (π / 180)) ∧
    out.c.v.head? = some (V.init.v0Kms * 1000) ∧
    out.c.psi.head? = some (V.init.psi0Deg * (π / 180)) ∧
    out.c.gamma.head? = some (V.init.gamma0Deg * (π / 180)) ∧
    out.c.drange.head? = some (V.init.drange0Km * 1000) := by
  obtain ⟨h1, h2, ht, hr, hth, hph, hv, hps, hg, hd, _⟩ := h
  obtain ⟨_, hR, _, _, _, _, _, _, hV, _⟩ := C01_planet_consistent name _ hP
  obtain ⟨g1, g2, g3⟩ := hI (fun t y => V.EOM y t (deltaDeg * π / 180.0))
    (V.planet.nonDimState (Vehicle.entryState V.planet V.init)) (Vehicle.tGrid V.planet tSec dt)
  change (samples V I tSec dt deltaDeg).map Prod.fst <+: _ at g1
  change ∀ p, (samples V I tSec dt deltaDeg).head? = some p → _ at g3
  cases hS : samples V I tSec dt deltaDeg with
  | nil => rw [hS] at h2; simp at h2; omega
  | cons p S =>
      have hp := g3 p (by rw [hS]; rfl)
      have hp1 : p.1 = 0 := by
        rw [hS] at g1
        obtain ⟨t, ht⟩ := g1
        have h0 := congrArg List.head? ht
        simp only [List.map_cons, List.cons_append, List.head?_cons, Vehicle.tGrid, arange0] at h0
        cases hn : ⌈((tSec + dt) / V.planet.tau) / (dt / V.planet.tau)⌉₊ with
        | zero => rw [hn] at h0; simp at h0
        | succ n => rw [hn, List.range_succ_eq_map] at h0; simpa using h0
      obtain ⟨n, hn⟩ : ∃ n, out.index = n + 1 := ⟨out.index - 1, by omega⟩
      rw [hS, hn, List.take_succ_cons] at ht hr hth hph hv hps hg hd
      have l60 : (180.0:ℝ) = 180 := by norm_num
      have l3 : (1.0e3:ℝ) = 1000 := by norm_num
      have l4 : (1.000e3:ℝ) = 1000 := by norm_num
      have l5 : (1e3:ℝ) = 1000 := by norm_num
      rw [ht, hr, hth, hph, hv, hps, hg, hd]
      simp only [List.map_cons, List.head?_cons, hp, hp1, Planet.nonDimState, Vehicle.entryState,
        Planet.computeR, l60, l3, l4, l5, Option.some.injEq, div_mul_cancel₀ _ hR.ne',
        div_mul_cancel₀ _ hV.ne', mul_zero, true_and]
      simp only [mul_div_assoc, and_self]

/-- C24: the first retained point is the entry state that was requested (for an integrator that, as documented,
returns the initial state as its first sample). -/
theorem C24_first_point_is_entry_state (name : String) (V : Vehicle) (hP : Planet.init name = .ok V.planet)
    (mode : ScipyMode) (I : Integrator) (hI : SolveIvpLike I) (tSec dt deltaDeg : ℝ) (out : PropOut)
    (h : V.propogateEntry mode I tSec dt deltaDeg = .ok out) :
    out.c.t.head? = some 0 ∧
    out.c.r.head? = some (V.planet.RP + V.init.h0Km * 1000) ∧
    out.c.theta.head? = some (V.init.theta0Deg * (π / 180)) ∧
    out.c.phi.head? = some (V.init.phi0Deg * (π / 180)) ∧
    out.c.v.head? = some (V.init.v0Kms * 1000) ∧
    out.c.psi.head? = some (V.init.psi0Deg * (π / 180)) ∧
    out.c.gamma.head? = some (V.init.gamma0Deg * (π / 180)) ∧
    out.c.drange.head? = some (V.init.drange0Km * 1000) :=
  aligned_first_point name V hP I hI tSec dt deltaDeg out (C24_arrays_aligned V mode I tSec dt deltaDeg out h)

theorem postProcess_returns (name : String) (V : Vehicle) (hP : Planet.init name = .ok V.planet)
    (mode : ScipyMode) (delta hi : ℝ) (hmode : mode = .legacy ∨ hi = 0) (p : ℝ × FState) (S : List (ℝ × FState))
    (h0 : V.planet.hTrap < p.2.r * V.planet.RP - V.planet.RP)
    (h1 : p.2.r * V.planet.RP - V.planet.RP < V.planet.hSkip)
    (hneq : ∀ q ∈ S, q.2.r * V.planet.RP - V.planet.RP ≠ V.planet.hTrap) :
    ∃ out, V.postProcess mode (TrajArrays.ofSamples (p :: S)) delta hi = .ok out := by
  set si := V.planet.dimensionalizeArr (TrajArrays.ofSamples (p :: S)) with hsi
  have hr : si.r = (p :: S).map (fun q => q.2.r * V.planet.RP) := by
    simp [hsi, Planet.dimensionalizeArr, TrajArrays.ofSamples, Function.comp_def]
  have hrne : si.r ≠ [] := by rw [hr]; simp
  obtain ⟨idx, flag, hc, hle, hfl, _, hf1, hf2, hf3⟩ := C22_classification name V.planet hP si.r hrne
  have hidx : 1 ≤ idx := by
    by_contra hcon
    have h00 : idx = 0 := by omega
    subst h00
    rcases hfl with rfl | rfl | rfl
    · obtain ⟨_, hlt, hbad⟩ := hf1 rfl
      simp only [hr, List.map_cons, List.getElem_cons_zero] at hbad
      linarith
    · have := (hf3 rfl).1
      rw [hr] at this; simp at this
    · -- the first test that is true has index 0, but the first altitude is above `h_trap`
      have hne : si.r.map V.planet.computeH ≠ [] := by simpa using hrne
      obtain ⟨M, hM, hMm, hMub⟩ := pyMax_spec hne
      obtain ⟨m, hm, hmm, hmlb⟩ := pyMin_spec hne
      rw [classify_eq _ hM hm] at hc
      split_ifs at hc with c1 c2 c3
      · simp at hc
      · simp at hc
      · obtain ⟨_, s2, _, _⟩ := argmaxBool_spec (si.r.map V.planet.computeH) (fun x => x < V.planet.hTrap)
        have hlt : m < V.planet.hTrap := by
          rcases lt_or_eq_of_le c3 with h | h
          · exact h
          · exfalso
            obtain ⟨x, hx, hxm⟩ := List.mem_map.mp hmm
            rw [hr] at hx
            obtain ⟨q, hq, rfl⟩ := List.mem_map.mp hx
            have hx' : q.2.r * V.planet.RP - V.planet.RP = V.planet.hTrap := by rw [← h, ← hxm]; rfl
            rcases List.mem_cons.mp hq with rfl | hq
            · linarith
            · exact hneq q hq hx'
        obtain ⟨h2, h3⟩ := s2 ⟨m, hmm, hlt⟩
        simp only [Except.ok.injEq, Prod.mk.injEq, and_true] at hc
        simp only [hc] at h3
        simp only [hr, List.map_cons, List.getElem_cons_zero, Planet.computeH] at h3
        linarith
      · simp at hc
  have hID : (∃ f, qConvFn V.planet.ID = some f) ∧ ∃ f, qRadFn V.planet.ID = some f := by
    have e := (C01_planet_consistent name V.planet hP).1
    have hs := (C01_planet_names name).1.mp ⟨_, hP⟩
    rw [e]
    simp only [Spec.bodies, List.mem_cons, List.not_mem_nil, or_false] at hs
    rcases hs with rfl | rfl | rfl | rfl | rfl | rfl | rfl | rfl <;> simp [qConvFn, qRadFn]
  obtain ⟨⟨fc, hfc⟩, ⟨fr, hfr⟩⟩ := hID
  simp only [Vehicle.postProcess, ← hsi, hc, bind, Except.bind, pure, Except.pure,
    Vehicle.qStagConvective, Vehicle.qStagRadiative, hfc, hfr, Option.map_some, needNumber, TrajArrays.truncate]
  have hne : List.zip (si.t.take idx) (List.zipWith (· + ·)
      (List.zipWith (fun r v => fc V.RN (V.planet.rhoVec V.atm r) v) (si.r.take idx) (si.v.take idx))
      (List.zipWith (fun r v => fr V.RN (V.planet.rhoVec V.atm r) v) (si.r.take idx) (si.v.take idx))) ≠ [] := by
    obtain ⟨n, rfl⟩ : ∃ n, idx = n + 1 := ⟨idx - 1, by omega⟩
    simp [hsi, Planet.dimensionalizeArr, TrajArrays.ofSamples]
  cases hz : List.zip (si.t.take idx) (List.zipWith (· + ·)
      (List.zipWith (fun r v => fc V.RN (V.planet.rhoVec V.atm r) v) (si.r.take idx) (si.v.take idx))
      (List.zipWith (fun r v => fr V.RN (V.planet.rhoVec V.atm r) v) (si.r.take idx) (si.v.take idx))) with
  | nil => exact absurd hz hne
  | cons a l =>
      have hn : ¬ (mode = .strict ∧ hi ≠ 0) := by
        rintro ⟨rfl, h⟩
        rcases hmode with hm | hm
        · cases hm
        · exact h hm
      simp only [cumTrapz, if_neg hn]
      exact ⟨_, rfl⟩

/-- C24: sufficient condition for success.  If the sampled altitudes start strictly between `h_trap` and `h_skip` and
none of them equals `h_trap` exactly, the propagation returns (with at least one retained point). -/
theorem C24_returns (name : String) (V : Vehicle) (hP : Planet.init name = .ok V.planet)
    (mode : ScipyMode) (I : Integrator) (tSec dt deltaDeg : ℝ) (p : ℝ × FState) (S : List (ℝ × FState))
    (hS : samples V I tSec dt deltaDeg = p :: S)
    (h0 : V.planet.hTrap < p.2.r * V.planet.RP - V.planet.RP)
    (h1 : p.2.r * V.planet.RP - V.planet.RP < V.planet.hSkip)
    (hneq : ∀ q ∈ S, q.2.r * V.planet.RP - V.planet.RP ≠ V.planet.hTrap) :
    ∃ out, V.propogateEntry mode I tSec dt deltaDeg = .ok out := by
  have hsol : Vehicle.solveTrajectory V I (V.planet.nonDimState (Vehicle.entryState V.planet V.init)) tSec dt
      (deltaDeg * π / 180.0) = TrajArrays.ofSamples (p :: S) := by
    rw [← hS]; rfl
  simp only [Vehicle.propogateEntry, hsol]
  exact postProcess_returns name V hP mode _ 0 (Or.inr rfl) p S h0 h1 hneq

/-- C24 (finding): starting above `h_skip` (with no later sample below ground) is not reported as a trajectory at all:
the call raises `ValueError`, for every vehicle, bank angle and integrator. -/
theorem C24_entry_above_skip_raises (name : String) (V : Vehicle) (hP : Planet.init name = .ok V.planet)
    (mode : ScipyMode) (I : Integrator) (tSec dt deltaDeg : ℝ) (p : ℝ × FState) (S : List (ℝ × FState))
    (hS : samples V I tSec dt deltaDeg = p :: S)
    (h0 : V.planet.hSkip < p.2.r * V.planet.RP - V.planet.RP)
    (hpos : ∀ q ∈ S, 0 ≤ q.2.r * V.planet.RP - V.planet.RP) :
    V.propogateEntry mode I tSec dt deltaDeg = .error .valueError := by
  obtain ⟨_, _, _, _, _, hTr, hTS, _⟩ := C01_planet_consistent name _ hP
  set si := V.planet.dimensionalizeArr (TrajArrays.ofSamples (p :: S)) with hsi
  have hr : si.r = (p :: S).map (fun q => q.2.r * V.planet.RP) := by
    simp [hsi, Planet.dimensionalizeArr, TrajArrays.ofSamples, Function.comp_def]
  have hrne : si.r ≠ [] := by rw [hr]; simp
  obtain ⟨idx, flag, hc, hle, hfl, hf0, hf1, _⟩ := C22_classification name V.planet hP si.r hrne
  have hflag : flag = 1 := by
    rw [hf0, hr]
    constructor
    · intro x hx
      obtain ⟨q, hq, rfl⟩ := List.mem_map.mp hx
      rcases List.mem_cons.mp hq with rfl | hq
      · linarith
      · exact hpos q hq
    · exact ⟨_, List.mem_map.mpr ⟨p, by simp, rfl⟩, h0⟩
  have hidx : idx = 0 := by
    by_contra hne
    obtain ⟨n, rfl⟩ : ∃ n, idx = n + 1 := ⟨idx - 1, by omega⟩
    have := (hf1 hflag).1 (p.2.r * V.planet.RP) (by rw [hr]; simp)
    linarith
  subst hidx
  have hsol : Vehicle.solveTrajectory V I (V.planet.nonDimState (Vehicle.entryState V.planet V.init)) tSec dt
      (deltaDeg * π / 180.0) = TrajArrays.ofSamples (p :: S) := by
    rw [← hS]; rfl
  have hID : (∃ f, qConvFn V.planet.ID = some f) ∧ ∃ f, qRadFn V.planet.ID = some f := by
    have e := (C01_planet_consistent name V.planet hP).1
    have hs := (C01_planet_names name).1.mp ⟨_, hP⟩
    rw [e]
    simp only [Spec.bodies, List.mem_cons, List.not_mem_nil, or_false] at hs
    rcases hs with rfl | rfl | rfl | rfl | rfl | rfl | rfl | rfl <;> simp [qConvFn, qRadFn]
  obtain ⟨⟨fc, hfc⟩, ⟨fr, hfr⟩⟩ := hID
  simp [Vehicle.propogateEntry, hsol, Vehicle.postProcess, ← hsi, hc, bind, Except.bind,
    Vehicle.qStagConvective, Vehicle.qStagRadiative, hfc, hfr, needNumber, TrajArrays.truncate, cumTrapz]

/-- An integrator that keeps the state constant: the simplest function meeting both documented contracts. -/
def constIntegrator : Integrator := fun _ y0 grid => grid.map (fun t => (t, y0))

theorem constIntegrator_ok : OdeintLike constIntegrator ∧ SolveIvpLike constIntegrator := by
  have h : ∀ f y0 grid, (constIntegrator f y0 grid).map Prod.fst = grid := by
    intro f y0 grid; simp [constIntegrator, Function.comp_def]
  have h2 : ∀ f y0 grid p, (constIntegrator f y0 grid).head? = some p → p.2 = y0 := by
    intro f y0 grid p hp
    cases grid with
    | nil => simp [constIntegrator] at hp
    | cons a l => simp [constIntegrator] at hp; rw [← hp]
  refine ⟨fun f y0 grid => ⟨h f y0 grid, h2 f y0 grid⟩, fun f y0 grid => ⟨?_, ?_, h2 f y0 grid⟩⟩
  · rw [h]
  · intro hg; simpa [constIntegrator] using hg

/-- `odeint` meets the weaker contract stated for `solve_ivp`. -/
theorem OdeintLike.toIvp {I : Integrator} (h : OdeintLike I) : SolveIvpLike I := by
  intro f y0 grid
  refine ⟨by rw [(h f y0 grid).1], ?_, (h f y0 grid).2⟩
  intro hg hI
  have := (h f y0 grid).1
  rw [hI] at this
  exact hg (by simpa using this.symm)

/-- Samples of the constant integrator for a positive step: at least the entry state. -/
theorem samples_const (name : String) (V : Vehicle) (hP : Planet.init name = .ok V.planet)
    (tSec dt deltaDeg : ℝ) (ht : 0 ≤ tSec) (hdt : 0 < dt) :
    ∃ S, samples V constIntegrator tSec dt deltaDeg
      = (0, V.planet.nonDimState (Vehicle.entryState V.planet V.init)) :: S ∧
      ∀ q ∈ S, q.2 = V.planet.nonDimState (Vehicle.entryState V.planet V.init) := by
  obtain ⟨_, _, _, _, _, _, _, _, _, htau, _⟩ := C01_planet_consistent name _ hP
  unfold samples constIntegrator Vehicle.tGrid arange0
  have hpos : 0 < ((tSec + dt) / V.planet.tau) / (dt / V.planet.tau) := by positivity
  obtain ⟨n, hn⟩ : ∃ n, ⌈((tSec + dt) / V.planet.tau) / (dt / V.planet.tau)⌉₊ = n + 1 :=
    ⟨_, (Nat.succ_pred_eq_of_pos (Nat.ceil_pos.mpr hpos)).symm⟩
  rw [hn, List.range_succ_eq_map]
  refine ⟨_, by simp only [List.map_cons, Nat.cast_zero, zero_mul]; rfl, ?_⟩
  intro q hq
  simp only [List.map_map, List.mem_map] at hq
  obtain ⟨a, _, rfl⟩ := hq
  rfl

/-- A vehicle at altitude `h` km and speed `v` km/s in air of density 1, for the examples. -/
def demoEntry (P : Planet) (h v : ℝ) : Vehicle :=
  Vehicle.mk' 500 100 0.2 1 0 1 P ⟨fun _ => 1, fun _ => 1, fun _ => 1, fun _ => 1⟩ false (fun _ => 1)
    ⟨h, 0, 0, v, 0, -7, 0, 0⟩

theorem demoEntry_altitude (P : Planet) (hR : P.RP ≠ 0) (h v : ℝ) :
    (P.nonDimState (Vehicle.entryState P (demoEntry P h v).init)).r * P.RP - P.RP = h * 1000 := by
  simp only [Planet.nonDimState, Vehicle.entryState, Planet.computeR, demoEntry, Vehicle.mk', div_mul_cancel₀ _ hR]
  norm_num

/-- For the examples (case for `C24_returns`): a propagation that stays where it starts, between trap and skip altitude,
succeeds on every planet, with both propagators. -/
theorem demo_flight {name : String} {P : Planet} (hP : Planet.init name = .ok P) {h v : ℝ} (mode : ScipyMode)
    (deltaDeg : ℝ) (h1 : P.hTrap < h * 1000) (h2 : h * 1000 < P.hSkip) :
    ∃ out, (demoEntry P h v).propogateEntry mode constIntegrator 1200 0.1 deltaDeg = .ok out ∧
      (demoEntry P h v).propogateEntry2 mode constIntegrator 1200 0.1 deltaDeg = .ok out ∧
      out.c.r[0]? = some (P.RP + h * 1000) ∧ out.c.v[0]? = some (v * 1000) ∧
      (∀ x ∈ out.c.r, x = P.RP + h * 1000) ∧ ∀ x ∈ out.c.v, x = v * 1000 := by
  obtain ⟨_, hR, _, _, _, _, _, _, hV, _⟩ := C01_planet_consistent name P hP
  obtain ⟨S, e1, e2⟩ := samples_const name (demoEntry P h v) hP 1200 0.1 deltaDeg (by norm_num) (by norm_num)
  have hp : (demoEntry P h v).planet = P := rfl
  have e := demoEntry_altitude P hR.ne' h v
  obtain ⟨out, ho⟩ := C24_returns name (demoEntry P h v) hP mode constIntegrator 1200 0.1 deltaDeg _ S e1
    (by rw [hp, e]; exact h1) (by rw [hp, e]; exact h2) (by intro q hq; rw [e2 q hq, hp, e]; exact h1.ne')
  refine ⟨out, ho, ho, ?_⟩
  obtain ⟨f1, f2, -, -, f5, -⟩ := C24_first_point_is_entry_state name (demoEntry P h v) hP mode constIntegrator
    constIntegrator_ok.2 1200 0.1 deltaDeg out ho
  obtain ⟨-, -, -, a4, -, -, a7, -⟩ := C24_arrays_aligned (demoEntry P h v) mode constIntegrator 1200 0.1 deltaDeg out ho
  have hall : ∀ q ∈ samples (demoEntry P h v) constIntegrator 1200 0.1 deltaDeg,
      q.2 = P.nonDimState (Vehicle.entryState P (demoEntry P h v).init) := by
    intro q hq
    rw [e1, List.mem_cons] at hq
    rcases hq with rfl | hq
    · rfl
    · exact e2 q hq
  refine ⟨?_, ?_, ?_, ?_⟩
  · rw [← List.head?_eq_getElem?, f2]; rfl
  · rw [← List.head?_eq_getElem?, f5]; rfl
  · intro x hx
    rw [a4, List.mem_map] at hx
    obtain ⟨q, hq, rfl⟩ := hx
    rw [hall q (List.mem_of_mem_take hq), hp]
    linarith
  · intro x hx
    rw [a7, List.mem_map] at hx
    obtain ⟨q, hq, rfl⟩ := hx
    rw [hall q (List.mem_of_mem_take hq), hp]
    simp only [Planet.nonDimState, Vehicle.entryState, demoEntry, Vehicle.mk', div_mul_cancel₀ _ hV.ne']
    norm_num

/-- Non-vacuity of C22-C24, C62: at Venus, entering at 150 km, the propagation succeeds.  Case for `C24_arrays_aligned`
and `C24_first_point_is_entry_state`. -/
theorem C24_example : ∃ (V : Vehicle) (I : Integrator) (out : PropOut), Planet.init "VENUS" = .ok V.planet ∧
    OdeintLike I ∧ V.propogateEntry .strict I 1200 0.1 0 = .ok out ∧
    Spec.Aligned V.planet (samples V I 1200 0.1 0) out ∧ out.c.v.head? = some 11000 := by
  obtain ⟨P, hP⟩ := (C01_planet_names "VENUS").1.mpr (by simp [Spec.bodies])
  have hT : P.hTrap = 10000 := by simp [Planet.init] at hP; subst hP; rfl
  have hS : P.hSkip = 180000 := by simp [Planet.init] at hP; subst hP; rfl
  obtain ⟨out, ho, -⟩ := demo_flight hP (h := 150) (v := 11) .strict 0 (by rw [hT]; norm_num) (by rw [hS]; norm_num)
  obtain ⟨-, -, -, -, f5, -⟩ := C24_first_point_is_entry_state "VENUS" (demoEntry P 150 11) hP .strict constIntegrator
    constIntegrator_ok.2 1200 0.1 0 out ho
  refine ⟨demoEntry P 150 11, constIntegrator, out, hP, constIntegrator_ok.1, ho, C24_arrays_aligned _ _ _ _ _ _ _ ho, ?_⟩
  rw [f5]
  norm_num [demoEntry, Vehicle.mk']

/-- Case for `C24_entry_above_skip_raises`: entering at 200 km at Venus. -/
example : ∃ P, Planet.init "VENUS" = .ok P ∧
    (demoEntry P 200 11).propogateEntry .strict constIntegrator 1200 0.1 0 = .error .valueError := by
  obtain ⟨P, hP⟩ := (C01_planet_names "VENUS").1.mpr (by simp [Spec.bodies])
  have hS : P.hSkip = 180000 := by simp [Planet.init] at hP; subst hP; rfl
  have hR := (C01_planet_consistent "VENUS" P hP).2.1
  obtain ⟨S, e1, e2⟩ := samples_const "VENUS" (demoEntry P 200 11) hP 1200 0.1 0 (by norm_num) (by norm_num)
  have hp : (demoEntry P 200 11).planet = P := rfl
  have e := demoEntry_altitude P hR.ne' 200 11
  refine ⟨P, hP, C24_entry_above_skip_raises "VENUS" _ hP _ _ _ _ _ _ _ e1 (by rw [hp, e, hS]; norm_num) ?_⟩
  intro q hq
  rw [e2 q hq, hp, e]
  norm_num

/-! ### C62 -/

/-- C62: the stored plot arrays are the stored SI arrays in minutes, km, km/s and degrees, altitude being the
distance above the planet radius. -/
theorem C62_plot_units (V : Vehicle) (mode : ScipyMode) (I : Integrator) (tSec dt deltaDeg : ℝ)
    (out : PropOut) (h : V.propogateEntry mode I tSec dt deltaDeg = .ok out) :
    out.c.t = out.plotc.t.map (· * 60) ∧
    out.c.r = out.plotc.r.map (fun x => V.planet.RP + 1000 * x) ∧
    out.c.v = out.plotc.v.map (· * 1000) ∧
    out.c.drange = out.plotc.drange.map (· * 1000) ∧
    out.c.theta = out.plotc.theta.map (· * (π / 180)) ∧
    out.c.phi = out.plotc.phi.map (· * (π / 180)) ∧
    out.c.psi = out.plotc.psi.map (· * (π / 180)) ∧
    out.c.gamma = out.plotc.gamma.map (· * (π / 180)) := by
  obtain ⟨idx, flag, qc, qr, heat, hc, hq, hq2, hh, rfl⟩ := postProcess_inv h
  have hpi := Real.pi_ne_zero
  have l60' : (60.0:ℝ) = 60 := by norm_num
  have l6 : (1e-3:ℝ) = 1 / 1000 := by norm_num
  have l7 : (1.0e-3:ℝ) = 1 / 1000 := by norm_num
  have key : ∀ (l : List ℝ) (f g : ℝ → ℝ), (∀ x, g (f x) = x) →
      l.take idx = ((l.map f).take idx).map g := by
    intro l f g hfg
    rw [← List.map_take, List.map_map]
    conv_lhs => rw [← List.map_id (l.take idx)]
    apply List.map_congr_left
    intro x _
    simp [hfg]
  simp only [TrajArrays.truncate, Planet.toPlotUnits]
  refine ⟨key _ _ _ ?_, key _ _ _ ?_, key _ _ _ ?_, key _ _ _ ?_, key _ _ _ ?_, key _ _ _ ?_, key _ _ _ ?_,
    key _ _ _ ?_⟩ <;> intro x <;> (try simp only [l60', l6, l7]) <;> field_simp
  ring

/-- Case for `C62_plot_units`: the flight of `C24_example`. -/
example : ∃ (V : Vehicle) (I : Integrator) (out : PropOut), V.propogateEntry .strict I 1200 0.1 0 = .ok out ∧
    out.c.r = out.plotc.r.map (fun x => V.planet.RP + 1000 * x) ∧ out.c.v.head? = some 11000 := by
  obtain ⟨V, I, out, -, -, ho, -, hv⟩ := C24_example
  exact ⟨V, I, out, ho, (C62_plot_units V _ _ _ _ _ out ho).2.1, hv⟩

/-- C62: re-using a stored plot-unit point as the initial state of the next segment reproduces the physical state
of that point exactly. -/
theorem C62_restart_exact (P : Planet) (s : FState) (heat : ℝ) :
    Vehicle.entryState P
      { h0Km := (s.r - P.RP) * 1E-3, theta0Deg := s.theta * 180 / π, phi0Deg := s.phi * 180 / π,
        v0Kms := s.v * 1E-3, psi0Deg := s.psi * 180 / π, gamma0Deg := s.gamma * 180 / π,
        drange0Km := s.drange * 1.0E-3, heatLoad0 := heat } = s := by
  have hpi := Real.pi_ne_zero
  have l60 : (180.0:ℝ) = 180 := by norm_num
  have l3 : (1.0e3:ℝ) = 1000 := by norm_num
  have l4 : (1.000e3:ℝ) = 1000 := by norm_num
  have l5 : (1e3:ℝ) = 1000 := by norm_num
  have l6 : (1e-3:ℝ) = 1 / 1000 := by norm_num
  have l7 : (1.0e-3:ℝ) = 1 / 1000 := by norm_num
  simp only [Vehicle.entryState, Planet.computeR, l60, l3, l4, l5, l6, l7]
  ext <;> field_simp
  ring

end AMAT.Props
