import Verif.Spec.Corridor
import Verif.Props.DiveEvent
import Verif.Props.CorridorProps

/-
C109: the limits found by the corridor searches against the exact flights.
-/

noncomputable section

open Classical

namespace AMAT.Spec

open AMAT Real AMAT.Props

/-- The exact flight of the vehicle for the requested time lasts, stays away from the obstacles of C100 and, at the output
times after its start, from the two altitudes that decide where the code ends it; and the orbit of the vehicle at its last
output point inside the atmosphere clearly rises beyond the radius `rho` (verdict `-1`) or clearly falls short (`1`). -/
def FlightVerdict (V : Vehicle) (tSec dt deltaDeg L rho : ℝ) (ans : ℤ) : Prop :=
  ∃ (y : ℝ → FState) (S : Finset ℝ) (k : ℕ),
    y 0 = V.planet.nonDimState (Vehicle.entryState V.planet V.init) ∧
    SwitchedFlight (fun t s => V.EOM s t (deltaDeg * π / 180.0)) y 0 ((tSec + dt) / V.planet.tau) S ∧
    (∀ t ∈ Set.Icc 0 ((tSec + dt) / V.planet.tau), Departure V.planet (y t)) ∧
    (∀ j : ℕ, 1 ≤ j → j ≤ ⌈tSec / dt⌉₊ →
      (y (j * dt / V.planet.tau)).r * V.planet.RP - V.planet.RP ≠ V.planet.hTrap ∧
      (y (j * dt / V.planet.tau)).r * V.planet.RP - V.planet.RP ≠ V.planet.hSkip) ∧
    LastInside V.planet (⌈tSec / dt⌉₊ + 1) (fun j => (y (j * dt / V.planet.tau)).r * V.planet.RP - V.planet.RP) k ∧
    ((ans = -1 ∧ RisesBeyond V.planet L rho (y (k * dt / V.planet.tau))) ∨
      (ans = 1 ∧ FallsShort V.planet L rho (y (k * dt / V.planet.tau))))

/-- The solver's samples lie within `ρ` of a curve from the entry state that satisfies the equations of motion up to `ρ`. -/
def SolvedWithin (V : Vehicle) (I : Integrator) (tSec dt deltaDeg ρ : ℝ) : Prop :=
  ∃ (z : ℝ → FState) (S : Finset ℝ), z 0 = V.planet.nonDimState (Vehicle.entryState V.planet V.init) ∧
    NearFlight (fun t s => V.EOM s t (deltaDeg * π / 180.0)) z 0 ((tSec + dt) / V.planet.tau) S ρ ∧
    ∀ p ∈ samples V I tSec dt deltaDeg, Near ρ p.2 (z p.1)

end AMAT.Spec

namespace AMAT.Props

open AMAT Real AMAT.Spec AMAT.Data AMAT.Lits Filter

/-- The index `classifyTrajectory` returns. -/
theorem lastInside_index (name : String) (P : Planet) (hP : Planet.init name = .ok P) {N k : ℕ} {alt : ℕ → ℝ}
    (h : LastInside P N alt k) (r : List ℝ) (hN : r.length = N)
    (hr : ∀ (j : ℕ) (hj : j < r.length), r[j] - P.RP = alt j) :
    ∃ flag, P.classifyTrajectory r = .ok (k + 1, flag) := by
  obtain ⟨_, _, _, _, _, hTr, hTS, _⟩ := C01_planet_consistent name P hP
  have hne : r ≠ [] := by
    rintro rfl
    simp only [List.length_nil] at hN
    subst hN
    rcases h with ⟨-, h, -⟩ | ⟨-, h, -⟩ | ⟨h, -⟩ <;> omega
  have hne' : r.map P.computeH ≠ [] := by simpa using hne
  obtain ⟨M, hM, hMm, hMb⟩ := pyMax_spec hne'
  obtain ⟨m, hm, hmm, hmb⟩ := pyMin_spec hne'
  have hget : ∀ (j : ℕ) (hj : j < (r.map P.computeH).length), (r.map P.computeH)[j] = alt j := by
    intro j hj
    rw [List.getElem_map]
    exact hr j (by simpa using hj)
  have hlen : (r.map P.computeH).length = N := by simpa using hN
  have hmemj : ∀ j < N, alt j ∈ r.map P.computeH := fun j hj => by
    rw [← hget j (by rw [hlen]; exact hj)]; exact List.getElem_mem _
  have hexj : ∀ x ∈ r.map P.computeH, ∃ j < N, alt j = x := fun x hx => by
    obtain ⟨j, hj, rfl⟩ := List.mem_iff_getElem.mp hx
    exact ⟨j, by rw [← hlen]; exact hj, (hget j hj).symm⟩
  obtain ⟨jM, hjM, eM⟩ := hexj M hMm
  obtain ⟨jm, hjm, em⟩ := hexj m hmm
  -- where the first point with a property is
  have first : ∀ (p : ℝ → Prop) [DecidablePred p], k + 1 < N → p (alt (k + 1)) → (∀ j ≤ k, ¬ p (alt j)) →
      argmaxBool ((r.map P.computeH).map fun x => decide (p x)) = k + 1 := by
    intro p _ hk hp hnp
    obtain ⟨s1, s2, -, s4⟩ := argmaxBool_spec (r.map P.computeH) p
    obtain ⟨h1, h2⟩ := s2 ⟨_, hmemj _ hk, hp⟩
    rw [hget] at h2
    refine le_antisymm ?_ ?_
    · by_contra hn
      push Not at hn
      have : alt (k + 1) ∈ (r.map P.computeH).take (argmaxBool ((r.map P.computeH).map fun x => decide (p x))) := by
        rw [← hget (k + 1) (by rw [hlen]; exact hk)]
        exact List.mem_iff_getElem.mpr ⟨k + 1, by rw [List.length_take]; exact lt_min hn (by rw [hlen]; exact hk),
          by rw [List.getElem_take]⟩
      exact s1 _ this hp
    · by_contra hn
      exact hnp _ (by omega) h2
  rw [classify_eq P hM hm]
  rcases h with ⟨h1, h2, h3, h4⟩ | ⟨h1, h2, h3, h4⟩ | ⟨h1, h2⟩
  · rw [if_pos ⟨by rw [← em]; exact h1 jm hjm, lt_of_lt_of_le h3 (hMb _ (hmemj _ h2))⟩]
    exact ⟨1, by rw [first (fun x => x > P.hSkip) h2 h3 fun j hj => not_lt.mpr (h4 j hj)]⟩
  · have hmt : m < P.hTrap := lt_of_le_of_lt (hmb _ (hmemj _ h2)) h3
    rw [if_neg, if_neg (fun hc => absurd hc.1 (not_le.mpr hmt)), if_pos hmt.le]
    · exact ⟨-1, by rw [first (fun x => x < P.hTrap) h2 h3 fun j hj => not_lt.mpr (h4 j hj)]⟩
    · rintro ⟨c1, c2⟩
      rcases h1 with ⟨j, hj, hlt⟩ | hall
      · have := hmb _ (hmemj j hj); linarith
      · have := hall jM hjM; rw [eM] at this; linarith
  · have a1 := (h2 jm hjm).1
    have a2 := (h2 jM hjM).2
    rw [em] at a1
    rw [eM] at a2
    rw [if_neg (fun hc => absurd hc.2 (not_lt.mpr a2)), hlen, ← h1]
    split_ifs with c1 c2
    · exact ⟨0, rfl⟩
    · linarith
    · exact ⟨0, rfl⟩

/-! ### The orbit at the last point -/

theorem orbit_margin {name : String} {P : Planet} (hP : Planet.init name = .ok P) {L rho : ℝ} {s : FState}
    (hr : 0 < s.r) {ans : ℤ} (h : (ans = -1 ∧ RisesBeyond P L rho s) ∨ (ans = 1 ∧ FallsShort P L rho s)) :
    ∃ ε > 0, ∀ s', Near ε s' s → (ans = -1 ∧ RisesBeyond P L rho s') ∨ (ans = 1 ∧ FallsShort P L rho s') := by
  obtain ⟨_, hR, _⟩ := C01_planet_consistent name P hP
  -- the three entries that matter
  let q : ℝ × ℝ × ℝ → ℝ := fun x => radialSq P.GM ((x.2.1 * P.Vref) ^ 2 / 2 - P.GM / (x.1 * P.RP))
    (x.1 * P.RP * (x.2.1 * P.Vref) * cos x.2.2) rho
  have hq : ContinuousAt q (s.r, s.v, s.gamma) := by
    have hne : s.r * P.RP ≠ 0 := (mul_pos hr hR).ne'
    have c1 : ContinuousAt (fun x : ℝ × ℝ × ℝ => x.1 * P.RP) (s.r, s.v, s.gamma) := by fun_prop
    have c2 : ContinuousAt (fun x : ℝ × ℝ × ℝ => P.GM / (x.1 * P.RP)) (s.r, s.v, s.gamma) :=
      continuousAt_const.div c1 hne
    have c3 : ContinuousAt (fun x : ℝ × ℝ × ℝ => (x.2.1 * P.Vref) ^ 2 / 2) (s.r, s.v, s.gamma) := by fun_prop
    have c4 : ContinuousAt (fun x : ℝ × ℝ × ℝ => x.1 * P.RP * (x.2.1 * P.Vref) * cos x.2.2 / rho)
      (s.r, s.v, s.gamma) := by fun_prop
    exact ((continuousAt_const (y := (2:ℝ))).mul ((c3.sub c2).add continuousAt_const)).sub (c4.pow 2)
  have hr' : ContinuousAt (fun x : ℝ × ℝ × ℝ => x.1 * P.RP) (s.r, s.v, s.gamma) := by fun_prop
  have halt : ContinuousAt (fun x : ℝ × ℝ × ℝ => x.1 * P.RP - P.RP) (s.r, s.v, s.gamma) := by fun_prop
  have hev : ∀ᶠ x in nhds (s.r, s.v, s.gamma),
      (ans = -1 ∧ (L < x.1 * P.RP - P.RP ∧ (rho < x.1 * P.RP ∨ 0 < q x))) ∨
      (ans = 1 ∧ (x.1 * P.RP - P.RP < L ∨ (x.1 * P.RP < rho ∧ q x < 0))) := by
    rcases h with ⟨ha, h1, h2⟩ | ⟨ha, h1⟩
    · have e1 := halt.eventually (lt_mem_nhds h1)
      rcases h2 with h2 | h2
      · filter_upwards [e1, hr'.eventually (lt_mem_nhds h2)] with x x1 x2
        exact Or.inl ⟨ha, x1, Or.inl x2⟩
      · filter_upwards [e1, hq.eventually (lt_mem_nhds h2)] with x x1 x2
        exact Or.inl ⟨ha, x1, Or.inr x2⟩
    · rcases h1 with h1 | ⟨h1, h2⟩
      · filter_upwards [halt.eventually (gt_mem_nhds h1)] with x x1
        exact Or.inr ⟨ha, Or.inl x1⟩
      · filter_upwards [hr'.eventually (gt_mem_nhds h1), hq.eventually (gt_mem_nhds h2)] with x x1 x2
        exact Or.inr ⟨ha, Or.inr ⟨x1, x2⟩⟩
  rw [Metric.eventually_nhds_iff] at hev
  obtain ⟨ε, hε, hev⟩ := hev
  refine ⟨ε / 2, by linarith, fun s' hs' => ?_⟩
  have := hev (y := (s'.r, s'.v, s'.gamma)) (by
    rw [Prod.dist_eq, Prod.dist_eq, Real.dist_eq, Real.dist_eq, Real.dist_eq]
    exact max_lt (by linarith [hs'.r]) (max_lt (by linarith [hs'.v]) (by linarith [hs'.gamma])))
  exact this

theorem nearFlight_weaken {G : ℝ → FState → FState} {z : ℝ → FState} {a b δ δ' : ℝ} {S : Finset ℝ}
    (h : NearFlight G z a b S δ) (hd : δ ≤ δ') : NearFlight G z a b S δ' := by
  refine ⟨h.r, h.theta, h.phi, h.v, h.psi, h.gamma, h.drange, fun t h1 h2 => ?_⟩
  obtain ⟨w, w1, w2⟩ := h.rates t h1 h2
  exact ⟨w, w1, Near.mono w2 hd⟩

theorem solvedWithin_weaken {V : Vehicle} {I : Integrator} {tSec dt deltaDeg ρ ρ' : ℝ}
    (h : SolvedWithin V I tSec dt deltaDeg ρ) (hd : ρ ≤ ρ') : SolvedWithin V I tSec dt deltaDeg ρ' := by
  obtain ⟨z, S, z0, hz, hs⟩ := h
  exact ⟨z, S, z0, nearFlight_weaken hz hd, fun p hp => Near.mono (hs p hp) hd⟩

/-- C109: the verdict of `hitsTargetApoapsis` on one entry angle is the verdict of the exact flight, also for slightly
different entry angles.  If the exact flight at the entry angle `g₀` has a clear verdict, there is an accuracy such that
`hitsTargetApoapsis` returns this verdict for all entry angles within this accuracy of `g₀` and all solvers of this
accuracy. -/
theorem C109_verdict_of_flight (name : String) (F : AtmFile) (hF : (name, F) ∈ shippedFiles) (P : Planet)
    (hP : Planet.init name = .ok P) (atm : Atmosphere) (hatm : LoadedCubic P F.km (fileRows F) atm)
    (m beta LD A alpha RN : ℝ) (u : Bool) (f : ℝ → ℝ) (st : InitState) (hf : u = true → ContDiff ℝ 1 f)
    (tSec dt deltaDeg targetKm L : ℝ) (ht : 0 ≤ tSec) (hdt : 0 < dt) (hL : P.hLow = some L) (g₀ : ℝ) (ans : ℤ)
    (hv : FlightVerdict (Spec.atAngle (Vehicle.mk' m beta LD A alpha RN P atm u f st) g₀) tSec dt deltaDeg L
      (P.RP + 1000 * targetKm) ans) :
    ∃ ρ > 0, ∀ (g : ℝ) (I : Integrator) (mode : ScipyMode) (out : PropOut), |g - g₀| ≤ ρ → OdeintLike I →
      SolvedWithin (Spec.atAngle (Vehicle.mk' m beta LD A alpha RN P atm u f st) g) I tSec dt deltaDeg ρ →
      (Spec.atAngle (Vehicle.mk' m beta LD A alpha RN P atm u f st) g).propogateEntry mode I tSec dt deltaDeg = .ok out →
      (Spec.atAngle (Vehicle.mk' m beta LD A alpha RN P atm u f st) g).hitsTargetApoapsis mode I tSec dt deltaDeg targetKm
        = .ok ans := by
  obtain ⟨_, hR, hGM, _, _, _, _, _, hVr, htau, _⟩ := C01_planet_consistent name P hP
  obtain ⟨y, S, k, y0, hy, hreg, hoff, hlast, horb⟩ := hv
  set V := Vehicle.mk' m beta LD A alpha RN P atm u f st with hV
  change ∀ t ∈ Set.Icc 0 ((tSec + dt) / P.tau), Departure P (y t) at hreg
  change LastInside P _ (fun j => (y (j * dt / P.tau)).r * P.RP - P.RP) k at hlast
  change (ans = -1 ∧ RisesBeyond P L _ (y (k * dt / P.tau))) ∨ (ans = 1 ∧ FallsShort P L _ (y (k * dt / P.tau))) at horb
  obtain ⟨gr1, gr2⟩ := tGrid_get name P hP tSec dt ht hdt
  have hgridj : ∀ t ∈ Vehicle.tGrid P tSec dt, ∃ j : ℕ, j ≤ ⌈tSec / dt⌉₊ ∧ t = j * dt / P.tau := by
    intro t hmem
    obtain ⟨j, hj⟩ := List.mem_iff_getElem?.mp hmem
    have hjl := (List.getElem?_eq_some_iff.mp hj).1
    rw [gr1] at hjl
    rw [gr2 j hjl] at hj
    exact ⟨j, by omega, (Option.some.inj hj).symm⟩
  have hin : ∀ j : ℕ, j ≤ ⌈tSec / dt⌉₊ → (j:ℝ) * dt / P.tau ∈ Set.Icc 0 ((tSec + dt) / P.tau) := by
    intro j hj
    refine ⟨by positivity, ?_⟩
    have h1 : (j:ℝ) ≤ ⌈tSec / dt⌉₊ := by exact_mod_cast hj
    have h2 := Nat.ceil_lt_add_one (show 0 ≤ tSec / dt by positivity)
    have h3 : (j:ℝ) * dt ≤ tSec + dt := by
      have := mul_le_mul_of_nonneg_right (h1.trans h2.le) hdt.le
      rwa [add_mul, div_mul_cancel₀ _ hdt.ne', one_mul] at this
    exact div_le_div_of_nonneg_right h3 htau.le
  have hk : k ≤ ⌈tSec / dt⌉₊ := by
    rcases hlast with ⟨-, h, -⟩ | ⟨-, h, -⟩ | ⟨h, -⟩ <;> omega
  obtain ⟨ρ₁, hρ₁, hstable⟩ := C102_verdict_stable name F hF P hP atm hatm m beta LD A alpha RN u f
    { st with gamma0Deg := g₀ } hf tSec dt deltaDeg ht hdt y S y0 hy hreg (by
      intro t hmem hne
      obtain ⟨j, hj, rfl⟩ := hgridj t hmem
      refine hoff j ?_ hj
      by_contra hn
      exact hne (by rw [show j = 0 by omega]; simp))
  obtain ⟨C, ρ₂, hC, hρ₂, hclose⟩ := C102_errors_grow_linearly name F hF P hP atm hatm m beta LD A alpha RN u f
    { st with gamma0Deg := g₀ } hf (deltaDeg * π / 180.0) _ (show 0 ≤ (tSec + dt) / P.tau by positivity) y S hy hreg
  have hrk : 0 < (y (k * dt / P.tau)).r := by
    have := (hreg _ (hin k hk)).alt
    by_contra hn
    have := mul_nonpos_of_nonpos_of_nonneg (not_lt.mp hn) hR.le
    linarith
  obtain ⟨ε, hε, hmargin⟩ := orbit_margin hP hrk horb
  set ρ := min (min ρ₁ ρ₂) (ε / (1 + 3 * C)) with hρ
  have hρ0 : 0 < ρ := lt_min (lt_min hρ₁ hρ₂) (by positivity)
  have hρε : (1 + 3 * C) * ρ ≤ ε := by
    have := min_le_right (min ρ₁ ρ₂) (ε / (1 + 3 * C))
    rw [← hρ, le_div_iff₀ (by positivity)] at this
    linarith
  have hρa : ρ ≤ ρ₁ := (min_le_left _ _).trans (min_le_left _ _)
  have hρb : ρ ≤ ρ₂ := (min_le_left _ _).trans (min_le_right _ _)
  refine ⟨ρ, hρ0, fun g I mode out hg hI hsol hrun => ?_⟩
  obtain ⟨z, S', z0, hz, hsam⟩ := hsol
  have hz' : NearFlight (fun t s => (Vehicle.mk' m beta LD A alpha RN P atm u f { st with gamma0Deg := g₀ }).EOM s t
      (deltaDeg * π / 180.0)) z 0 ((tSec + dt) / P.tau) S' ρ := hz
  have hzy0 : Near ρ (z 0) (y 0) := by
    rw [z0, y0]
    have e : ∀ a : ℝ, |a - a| ≤ ρ := fun a => by rw [sub_self, abs_zero]; exact hρ0.le
    refine ⟨e _, e _, e _, e _, e _, ?_, e _⟩
    change |g * π / 180.0 - g₀ * π / 180.0| ≤ ρ
    rw [show (180.0:ℝ) = 180 by norm_num, show g * π / 180 - g₀ * π / 180 = (g - g₀) * (π / 180) by ring, abs_mul,
      abs_of_pos (show 0 < π / 180 by positivity)]
    have h4 := pi_le_four
    have : |g - g₀| * (π / 180) ≤ |g - g₀| * 1 := mul_le_mul_of_nonneg_left (by linarith) (abs_nonneg _)
    linarith
  have mono := fun {ρ' : ℝ} (h : ρ ≤ ρ') => nearFlight_weaken hz' h
  have hidx := hstable (Spec.atAngle V g) I mode out z S' hI rfl rfl z0 (Near.mono hzy0 hρa) (mono hρa)
    (fun p hp => Near.mono (hsam p hp) hρa) hrun
  -- the index
  obtain ⟨flag, hflag⟩ := lastInside_index name P hP hlast ((Vehicle.tGrid P tSec dt).map fun t => (y t).r * P.RP)
    (by rw [List.length_map, gr1]) (by
      intro j hj
      have hj' : j < ⌈tSec / dt⌉₊ + 1 := by simpa [gr1] using hj
      rw [List.getElem_map]
      have := gr2 j hj'
      rw [List.getElem?_eq_getElem (by rw [gr1]; exact hj')] at this
      rw [Option.some.inj this])
  rw [hidx] at hflag
  have hix : out.index = k + 1 := congrArg Prod.fst (Except.ok.inj hflag)
  -- the last point
  obtain ⟨s, ans', hs, hans, hpm, hiff⟩ := C31_verdict_partial name (Spec.atAngle V g) hP mode I tSec dt deltaDeg targetKm L hL
    out hrun
  have hal := C24_arrays_aligned (Spec.atAngle V g) mode I tSec dt deltaDeg out hrun
  obtain ⟨-, hle, -, er, eth, eph, ev, eps, eg, -⟩ := hal
  change out.index ≤ (samples (Spec.atAngle V g) I tSec dt deltaDeg).length at hle
  change out.c.r = ((samples (Spec.atAngle V g) I tSec dt deltaDeg).take out.index).map _ at er
  change out.c.v = ((samples (Spec.atAngle V g) I tSec dt deltaDeg).take out.index).map _ at ev
  change out.c.gamma = ((samples (Spec.atAngle V g) I tSec dt deltaDeg).take out.index).map _ at eg
  obtain ⟨i1, -⟩ := hI (fun t y => (Spec.atAngle V g).EOM y t (deltaDeg * π / 180.0))
    (P.nonDimState (Vehicle.entryState P (Spec.atAngle V g).init)) (Vehicle.tGrid P tSec dt)
  have j1 : (samples (Spec.atAngle V g) I tSec dt deltaDeg).map Prod.fst = Vehicle.tGrid P tSec dt := i1
  have hkl : k < (samples (Spec.atAngle V g) I tSec dt deltaDeg).length := by omega
  set p := (samples (Spec.atAngle V g) I tSec dt deltaDeg)[k] with hp
  have hpm' : p ∈ samples (Spec.atAngle V g) I tSec dt deltaDeg := List.getElem_mem _
  have hp1 : p.1 = k * dt / P.tau := by
    have h1 := gr2 k (by omega)
    rw [← j1, List.getElem?_map, List.getElem?_eq_getElem hkl] at h1
    exact Option.some.inj h1
  have lastOf : ∀ (q : ℝ × FState → ℝ), (((samples (Spec.atAngle V g) I tSec dt deltaDeg).take out.index).map q).getLast?
      = some (q p) := by
    intro q
    rw [List.getLast?_eq_getElem?, List.length_map, List.length_take, min_eq_left hle, hix, Nat.add_sub_cancel,
      List.getElem?_map, List.getElem?_take_of_lt (Nat.lt_succ_self k), List.getElem?_eq_getElem hkl]
    rfl
  have hspos := last_above_ground name (Spec.atAngle V g) hP hrun s hs
  obtain ⟨s1, s2, s3, -⟩ := hs
  rw [er, lastOf] at s1
  rw [ev, lastOf] at s2
  rw [eg, lastOf] at s3
  have s1 : p.2.r * P.RP = s.r := Option.some.inj s1
  have s2 : p.2.v * P.Vref = s.v := Option.some.inj s2
  have s3 : p.2.gamma = s.g := Option.some.inj s3
  have hnear : Near ε p.2 (y (k * dt / P.tau)) := by
    have a1 := hsam p hpm'
    have a2 := hclose z _ ρ ρ S' (show 0 ≤ (tSec + dt) / P.tau by positivity) le_rfl hρ0.le hρb hρb hzy0 hz'
      (k * dt / P.tau) (hin k hk)
    rw [hp1] at a1
    have tri : ∀ {a b c : ℝ}, |a - b| ≤ ρ → |b - c| ≤ C * (ρ + 2 * ρ) → |a - c| ≤ ε := fun {a b c} h1 h2 => by
      have := abs_sub_le a b c
      linarith
    exact ⟨tri a1.r a2.r, tri a1.theta a2.theta, tri a1.phi a2.phi, tri a1.v a2.v, tri a1.psi a2.psi,
      tri a1.gamma a2.gamma, tri a1.drange a2.drange⟩
  have hfin := hmargin _ hnear
  rw [hans]
  have hiff' : ans' = -1 ↔ L ≤ s.r - P.RP ∧ (P.RP + 1000 * targetKm ≤ s.r ∨ 0 ≤ radialSqAt P (P.RP + 1000 * targetKm) p.2) := by
    rw [hiff]
    unfold Reaches radialSqAt
    rw [norm_pos_r hspos, relative_elements _ s hspos, s1, s2, s3]
    rfl
  unfold RisesBeyond FallsShort at hfin
  rw [s1] at hfin
  rcases hfin with ⟨rfl, h1, h2⟩ | ⟨rfl, h1⟩
  · rw [hiff'.mpr ⟨h1.le, h2.imp le_of_lt le_of_lt⟩]
  · have : ans' ≠ -1 := by
      rw [Ne, hiff']
      rintro ⟨c1, c2⟩
      rcases h1 with h1 | ⟨h1, h2⟩
      · linarith
      · rcases c2 with c2 | c2 <;> linarith
    rw [hpm.resolve_left this]

/-- C109: one accuracy serves for a whole range of entry angles. -/
theorem C109_verdict_of_flights (name : String) (F : AtmFile) (hF : (name, F) ∈ shippedFiles) (P : Planet)
    (hP : Planet.init name = .ok P) (atm : Atmosphere) (hatm : LoadedCubic P F.km (fileRows F) atm)
    (m beta LD A alpha RN : ℝ) (u : Bool) (f : ℝ → ℝ) (st : InitState) (hf : u = true → ContDiff ℝ 1 f)
    (tSec dt deltaDeg targetKm L : ℝ) (ht : 0 ≤ tSec) (hdt : 0 < dt) (hL : P.hLow = some L) (K : Set ℝ) (hK : IsCompact K)
    (ans : ℤ)
    (hv : ∀ g ∈ K, FlightVerdict (Spec.atAngle (Vehicle.mk' m beta LD A alpha RN P atm u f st) g) tSec dt deltaDeg L
      (P.RP + 1000 * targetKm) ans) :
    ∃ ρ > 0, ∀ (g : ℝ) (I : Integrator) (mode : ScipyMode) (out : PropOut), g ∈ K → OdeintLike I →
      SolvedWithin (Spec.atAngle (Vehicle.mk' m beta LD A alpha RN P atm u f st) g) I tSec dt deltaDeg ρ →
      (Spec.atAngle (Vehicle.mk' m beta LD A alpha RN P atm u f st) g).propogateEntry mode I tSec dt deltaDeg = .ok out →
      (Spec.atAngle (Vehicle.mk' m beta LD A alpha RN P atm u f st) g).hitsTargetApoapsis mode I tSec dt deltaDeg targetKm
        = .ok ans := by
  refine hK.induction_on (p := fun K' => ∃ ρ > 0, ∀ (g : ℝ) (I : Integrator) (mode : ScipyMode) (out : PropOut), g ∈ K' →
      OdeintLike I →
      SolvedWithin (Spec.atAngle (Vehicle.mk' m beta LD A alpha RN P atm u f st) g) I tSec dt deltaDeg ρ →
      (Spec.atAngle (Vehicle.mk' m beta LD A alpha RN P atm u f st) g).propogateEntry mode I tSec dt deltaDeg = .ok out →
      (Spec.atAngle (Vehicle.mk' m beta LD A alpha RN P atm u f st) g).hitsTargetApoapsis mode I tSec dt deltaDeg targetKm
        = .ok ans) ⟨1, one_pos, fun g I mode out h => absurd h (by simp)⟩ ?_ ?_ ?_
  · rintro s t hst ⟨ρ, hρ, h⟩
    exact ⟨ρ, hρ, fun g I mode out hg => h g I mode out (hst hg)⟩
  · rintro s t ⟨ρ, hρ, h⟩ ⟨ρ', hρ', h'⟩
    refine ⟨min ρ ρ', lt_min hρ hρ', fun g I mode out hg hI hs hr => ?_⟩
    rcases hg with hg | hg
    · exact h g I mode out hg hI (solvedWithin_weaken hs (min_le_left _ _)) hr
    · exact h' g I mode out hg hI (solvedWithin_weaken hs (min_le_right _ _)) hr
  · intro g₀ hg₀
    obtain ⟨ρ, hρ, h⟩ := C109_verdict_of_flight name F hF P hP atm hatm m beta LD A alpha RN u f st hf tSec dt deltaDeg
      targetKm L ht hdt hL g₀ ans (hv g₀ hg₀)
    refine ⟨Metric.closedBall g₀ ρ, mem_nhdsWithin_of_mem_nhds (Metric.closedBall_mem_nhds _ hρ), ρ, hρ,
      fun g I mode out hg => h g I mode out ?_⟩
    rwa [← Real.dist_eq]

theorem bound_of_flights (name : String) (F : AtmFile) (hF : (name, F) ∈ shippedFiles) (P : Planet)
    (hP : Planet.init name = .ok P) (atm : Atmosphere) (hatm : LoadedCubic P F.km (fileRows F) atm)
    (m beta LD A alpha RN : ℝ) (u : Bool) (f : ℝ → ℝ) (st : InitState) (hf : u = true → ContDiff ℝ 1 f)
    (tSec dt deltaDeg targetKm L : ℝ) (ht : 0 ≤ tSec) (hdt : 0 < dt) (hL : P.hLow = some L)
    (lo c₁ c₂ hi tol : ℝ) (htol : 0 < tol) (hwide : tol < |hi - lo|) (a b : ℤ) (hab : a ≠ b)
    (hord : (lo ≤ c₁ ∧ c₁ ≤ c₂ ∧ c₂ ≤ hi) ∨ (hi ≤ c₂ ∧ c₂ ≤ c₁ ∧ c₁ ≤ lo))
    (ha : ∀ g ∈ Set.uIcc lo c₁, FlightVerdict (Spec.atAngle (Vehicle.mk' m beta LD A alpha RN P atm u f st) g) tSec dt
      deltaDeg L (P.RP + 1000 * targetKm) a)
    (hb : ∀ g ∈ Set.uIcc c₂ hi, FlightVerdict (Spec.atAngle (Vehicle.mk' m beta LD A alpha RN P atm u f st) g) tSec dt
      deltaDeg L (P.RP + 1000 * targetKm) b) :
    ∃ ρ > 0, ∀ (V : Vehicle) (S : SearchEnv) (search : ℕ → Vehicle → ℝ → ℝ → ℝ → Option (Vehicle × Py (ℝ × ℝ)))
      (test : Vehicle → Py ℤ), Spec.IsSearch S search test → S.tSec = tSec → S.dt = dt → S.targetKm = targetKm →
      (∀ g, test (Spec.atAngle V g) = (Spec.atAngle (Vehicle.mk' m beta LD A alpha RN P atm u f st) g).hitsTargetApoapsis
        S.mode S.I S.tSec S.dt deltaDeg S.targetKm) → OdeintLike S.I →
      (∀ g ∈ Set.uIcc lo hi,
        SolvedWithin (Spec.atAngle (Vehicle.mk' m beta LD A alpha RN P atm u f st) g) S.I tSec dt deltaDeg ρ ∧
        ∃ out, (Spec.atAngle (Vehicle.mk' m beta LD A alpha RN P atm u f st) g).propogateEntry S.mode S.I tSec dt deltaDeg
          = .ok out) →
      ∃ lim n, (∀ fuel, n ≤ fuel → search fuel V lo hi tol = some (V, .ok (lim, 1))) ∧
        lim ∈ Set.uIcc lo hi ∧ ∃ c ∈ Set.uIcc c₁ c₂, |lim - c| ≤ tol := by
  obtain ⟨ρ, hρ, h⟩ := C109_verdict_of_flights name F hF P hP atm hatm m beta LD A alpha RN u f st hf tSec dt deltaDeg
      targetKm L ht hdt hL _ isCompact_uIcc a ha
  obtain ⟨ρ', hρ', h'⟩ := C109_verdict_of_flights name F hF P hP atm hatm m beta LD A alpha RN u f st hf tSec dt deltaDeg
      targetKm L ht hdt hL _ isCompact_uIcc b hb
  refine ⟨min ρ ρ', lt_min hρ hρ', fun V S search test hs e1 e2 e3 htest hI hall => ?_⟩
  subst e1 e2 e3
  have hsub : Set.uIcc lo c₁ ⊆ Set.uIcc lo hi ∧ Set.uIcc c₂ hi ⊆ Set.uIcc lo hi := by
    rcases hord with ⟨o1, o2, o3⟩ | ⟨o1, o2, o3⟩
    · rw [Set.uIcc_of_le o1, Set.uIcc_of_le o3, Set.uIcc_of_le (by linarith)]
      exact ⟨Set.Icc_subset_Icc_right (by linarith), Set.Icc_subset_Icc_left (by linarith)⟩
    · rw [Set.uIcc_of_ge o3, Set.uIcc_of_ge o1, Set.uIcc_of_ge (by linarith)]
      exact ⟨Set.Icc_subset_Icc_left (by linarith), Set.Icc_subset_Icc_right (by linarith)⟩
  have hex : ∀ g : ℝ, ∃ v : ℤ, (v = -1 ∨ v = 1) ∧ (g ∈ Set.uIcc lo hi → test (Spec.atAngle V g) = .ok v) := by
    intro g
    by_cases hg : g ∈ Set.uIcc lo hi
    · obtain ⟨-, out, ho⟩ := hall g hg
      obtain ⟨s, v, -, hv, hpm, -⟩ := C31_verdict_partial name (Spec.atAngle (Vehicle.mk' m beta LD A alpha RN P atm u f st) g)
        hP S.mode S.I S.tSec S.dt deltaDeg S.targetKm L hL out ho
      exact ⟨v, hpm, fun _ => by rw [htest, hv]⟩
    · exact ⟨1, Or.inr rfl, fun h => absurd h hg⟩
  choose v hpm hv using hex
  have va : ∀ g ∈ Set.uIcc lo c₁, v g = a := by
    intro g hg
    obtain ⟨hsol, out, ho⟩ := hall g (hsub.1 hg)
    have h1 := h g S.I S.mode out hg hI (solvedWithin_weaken hsol (min_le_left _ _)) ho
    have h2 := hv g (hsub.1 hg)
    rw [htest, h1] at h2
    exact (Except.ok.inj h2).symm
  have vb : ∀ g ∈ Set.uIcc c₂ hi, v g = b := by
    intro g hg
    obtain ⟨hsol, out, ho⟩ := hall g (hsub.2 hg)
    have h1 := h' g S.I S.mode out hg hI (solvedWithin_weaken hsol (min_le_right _ _)) ho
    have h2 := hv g (hsub.2 hg)
    rw [htest, h1] at h2
    exact (Except.ok.inj h2).symm
  have vlo := va lo Set.left_mem_uIcc
  have vhi := vb hi Set.right_mem_uIcc
  obtain ⟨lim, l1, l2, ⟨g, g1, g2, g3⟩, l3, ⟨n, hn⟩⟩ := C32_search_brackets_bound hs V v hpm lo hi tol htol hwide hv
    (by rw [vlo, vhi]; exact hab)
  have n1 : lim ∉ Set.uIcc lo c₁ := fun hc => by rw [va lim hc, vhi] at l2; exact hab l2
  have n2 : g ∉ Set.uIcc c₂ hi := fun hc => by rw [vb g hc, vlo] at g3; exact hab g3.symm
  refine ⟨lim, n + 1, fun fuel hfuel => l3 n fuel hn hfuel, l1, ?_⟩
  have gd := abs_le.mp g2
  rcases hord with ⟨o1, o2, o3⟩ | ⟨o1, o2, o3⟩
  · rw [Set.uIcc_of_le o1, Set.mem_Icc, not_and, not_le] at n1
    rw [Set.uIcc_of_le o3, Set.mem_Icc, not_and'] at n2
    rw [Set.uIcc_of_le (by linarith)] at l1 g1
    have q1 := n1 l1.1
    have q2 := n2 g1.2
    rw [Set.uIcc_of_le o2]
    rcases le_or_gt lim c₂ with h | h
    · exact ⟨lim, ⟨q1.le, h⟩, by rw [sub_self, abs_zero]; exact htol.le⟩
    · exact ⟨c₂, ⟨o2, le_rfl⟩, by rw [abs_of_pos (by linarith)]; linarith⟩
  · rw [Set.uIcc_of_ge o3, Set.mem_Icc, not_and'] at n1
    rw [Set.uIcc_of_ge o1, Set.mem_Icc, not_and] at n2
    rw [Set.uIcc_of_ge (by linarith)] at l1 g1
    have q1 := n1 l1.2
    have q2 := n2 g1.1
    rw [Set.uIcc_of_ge o2]
    rcases le_or_gt c₂ lim with h | h
    · exact ⟨lim, ⟨h, by linarith⟩, by rw [sub_self, abs_zero]; exact htol.le⟩
    · exact ⟨c₂, ⟨le_rfl, o2⟩, by rw [abs_of_neg (by linarith)]; linarith⟩

/-- C109: the overshoot limit of exact flights.  If, flown lift down (bank angle 180°), the exact flights at all entry angles
between `lo` and `c₁` have one clear verdict and those at all entry angles between `c₂` and `hi` the other one, then
`findOverShootLimit` with an accurate enough solver returns a limit that is within the tolerance of an angle between `c₁`
and `c₂`, and leaves the vehicle as it was. -/
theorem C109_overshoot_limit (name : String) (F : AtmFile) (hF : (name, F) ∈ shippedFiles) (P : Planet)
    (hP : Planet.init name = .ok P) (atm : Atmosphere) (hatm : LoadedCubic P F.km (fileRows F) atm)
    (m beta LD A alpha RN : ℝ) (u : Bool) (f : ℝ → ℝ) (st : InitState) (hf : u = true → ContDiff ℝ 1 f)
    (tSec dt targetKm L : ℝ) (ht : 0 ≤ tSec) (hdt : 0 < dt) (hL : P.hLow = some L)
    (lo c₁ c₂ hi tol : ℝ) (htol : 0 < tol) (hwide : tol < |hi - lo|) (a b : ℤ) (hab : a ≠ b)
    (hord : (lo ≤ c₁ ∧ c₁ ≤ c₂ ∧ c₂ ≤ hi) ∨ (hi ≤ c₂ ∧ c₂ ≤ c₁ ∧ c₁ ≤ lo))
    (ha : ∀ g ∈ Set.uIcc lo c₁, FlightVerdict (Spec.atAngle (Vehicle.mk' m beta LD A alpha RN P atm u f st) g) tSec dt
      180 L (P.RP + 1000 * targetKm) a)
    (hb : ∀ g ∈ Set.uIcc c₂ hi, FlightVerdict (Spec.atAngle (Vehicle.mk' m beta LD A alpha RN P atm u f st) g) tSec dt
      180 L (P.RP + 1000 * targetKm) b) :
    ∃ ρ > 0, ∀ (mode : ScipyMode) (I : Integrator), OdeintLike I →
      (∀ g ∈ Set.uIcc lo hi,
        SolvedWithin (Spec.atAngle (Vehicle.mk' m beta LD A alpha RN P atm u f st) g) I tSec dt 180 ρ ∧
        ∃ out, (Spec.atAngle (Vehicle.mk' m beta LD A alpha RN P atm u f st) g).propogateEntry mode I tSec dt 180
          = .ok out) →
      ∃ lim n, lim ∈ Set.uIcc lo hi ∧ (∃ c ∈ Set.uIcc c₁ c₂, |lim - c| ≤ tol) ∧
        ∀ fuel, n ≤ fuel → Vehicle.findOverShootLimit ⟨mode, I, tSec, dt, targetKm⟩ fuel
          (Vehicle.mk' m beta LD A alpha RN P atm u f st) lo hi tol =
          some (Vehicle.mk' m beta LD A alpha RN P atm u f st, .ok (lim, 1)) := by
  obtain ⟨ρ, hρ, h⟩ := bound_of_flights name F hF P hP atm hatm m beta LD A alpha RN u f st hf tSec dt 180 targetKm L ht
    hdt hL lo c₁ c₂ hi tol htol hwide a b hab hord ha hb
  refine ⟨ρ, hρ, fun mode I hI hall => ?_⟩
  obtain ⟨lim, n, h1, h2, h3⟩ := h (Vehicle.mk' m beta LD A alpha RN P atm u f st) ⟨mode, I, tSec, dt, targetKm⟩ _ _
    Spec.IsSearch.over rfl rfl rfl (fun _ => rfl) hI hall
  exact ⟨lim, n, h2, h3, h1⟩

/-- C109: the undershoot limit of exact flights: the same for `findUnderShootLimit` and the flights flown lift up (bank angle
0). -/
theorem C109_undershoot_limit (name : String) (F : AtmFile) (hF : (name, F) ∈ shippedFiles) (P : Planet)
    (hP : Planet.init name = .ok P) (atm : Atmosphere) (hatm : LoadedCubic P F.km (fileRows F) atm)
    (m beta LD A alpha RN : ℝ) (u : Bool) (f : ℝ → ℝ) (st : InitState) (hf : u = true → ContDiff ℝ 1 f)
    (tSec dt targetKm L : ℝ) (ht : 0 ≤ tSec) (hdt : 0 < dt) (hL : P.hLow = some L)
    (lo c₁ c₂ hi tol : ℝ) (htol : 0 < tol) (hwide : tol < |hi - lo|) (a b : ℤ) (hab : a ≠ b)
    (hord : (lo ≤ c₁ ∧ c₁ ≤ c₂ ∧ c₂ ≤ hi) ∨ (hi ≤ c₂ ∧ c₂ ≤ c₁ ∧ c₁ ≤ lo))
    (ha : ∀ g ∈ Set.uIcc lo c₁, FlightVerdict (Spec.atAngle (Vehicle.mk' m beta LD A alpha RN P atm u f st) g) tSec dt
      0 L (P.RP + 1000 * targetKm) a)
    (hb : ∀ g ∈ Set.uIcc c₂ hi, FlightVerdict (Spec.atAngle (Vehicle.mk' m beta LD A alpha RN P atm u f st) g) tSec dt
      0 L (P.RP + 1000 * targetKm) b) :
    ∃ ρ > 0, ∀ (mode : ScipyMode) (I : Integrator), OdeintLike I →
      (∀ g ∈ Set.uIcc lo hi,
        SolvedWithin (Spec.atAngle (Vehicle.mk' m beta LD A alpha RN P atm u f st) g) I tSec dt 0 ρ ∧
        ∃ out, (Spec.atAngle (Vehicle.mk' m beta LD A alpha RN P atm u f st) g).propogateEntry mode I tSec dt 0
          = .ok out) →
      ∃ lim n, lim ∈ Set.uIcc lo hi ∧ (∃ c ∈ Set.uIcc c₁ c₂, |lim - c| ≤ tol) ∧
        ∀ fuel, n ≤ fuel → Vehicle.findUnderShootLimit ⟨mode, I, tSec, dt, targetKm⟩ fuel
          (Vehicle.mk' m beta LD A alpha RN P atm u f st) lo hi tol =
          some (Vehicle.mk' m beta LD A alpha RN P atm u f st, .ok (lim, 1)) := by
  obtain ⟨ρ, hρ, h⟩ := bound_of_flights name F hF P hP atm hatm m beta LD A alpha RN u f st hf tSec dt 0 targetKm L ht
    hdt hL lo c₁ c₂ hi tol htol hwide a b hab hord ha hb
  refine ⟨ρ, hρ, fun mode I hI hall => ?_⟩
  obtain ⟨lim, n, h1, h2, h3⟩ := h (Vehicle.mk' m beta LD A alpha RN P atm u f st) ⟨mode, I, tSec, dt, targetKm⟩ _ _
    Spec.IsSearch.under rfl rfl rfl (fun _ => rfl) hI hall
  exact ⟨lim, n, h2, h3, h1⟩

/-- C109: the entry-angle limit of exact ballistic flights: the same for `findEFPALimitD` and a vehicle built without lift (for
any other vehicle the search is `findUnderShootLimit`, `C37_ballistic_search_is_lift_up_search`). -/
theorem C109_ballistic_limit (name : String) (F : AtmFile) (hF : (name, F) ∈ shippedFiles) (P : Planet)
    (hP : Planet.init name = .ok P) (atm : Atmosphere) (hatm : LoadedCubic P F.km (fileRows F) atm)
    (m beta A alpha RN : ℝ) (u : Bool) (f : ℝ → ℝ) (st : InitState) (hf : u = true → ContDiff ℝ 1 f)
    (tSec dt targetKm L : ℝ) (ht : 0 ≤ tSec) (hdt : 0 < dt) (hL : P.hLow = some L)
    (lo c₁ c₂ hi tol : ℝ) (htol : 0 < tol) (hwide : tol < |hi - lo|) (a b : ℤ) (hab : a ≠ b)
    (hord : (lo ≤ c₁ ∧ c₁ ≤ c₂ ∧ c₂ ≤ hi) ∨ (hi ≤ c₂ ∧ c₂ ≤ c₁ ∧ c₁ ≤ lo))
    (ha : ∀ g ∈ Set.uIcc lo c₁, FlightVerdict (Spec.atAngle (Vehicle.mk' m beta 0 A alpha RN P atm u f st) g) tSec dt
      0 L (P.RP + 1000 * targetKm) a)
    (hb : ∀ g ∈ Set.uIcc c₂ hi, FlightVerdict (Spec.atAngle (Vehicle.mk' m beta 0 A alpha RN P atm u f st) g) tSec dt
      0 L (P.RP + 1000 * targetKm) b) :
    ∃ ρ > 0, ∀ (mode : ScipyMode) (I : Integrator), OdeintLike I →
      (∀ g ∈ Set.uIcc lo hi,
        SolvedWithin (Spec.atAngle (Vehicle.mk' m beta 0 A alpha RN P atm u f st) g) I tSec dt 0 ρ ∧
        ∃ out, (Spec.atAngle (Vehicle.mk' m beta 0 A alpha RN P atm u f st) g).propogateEntry mode I tSec dt 0
          = .ok out) →
      ∃ lim n, lim ∈ Set.uIcc lo hi ∧ (∃ c ∈ Set.uIcc c₁ c₂, |lim - c| ≤ tol) ∧
        ∀ fuel, n ≤ fuel → Vehicle.findEFPALimitD ⟨mode, I, tSec, dt, targetKm⟩ fuel
          (Vehicle.mk' m beta 0 A alpha RN P atm u f st) lo hi tol =
          some (Vehicle.mk' m beta 0 A alpha RN P atm u f st, .ok (lim, 1)) := by
  obtain ⟨ρ, hρ, h⟩ := bound_of_flights name F hF P hP atm hatm m beta 0 A alpha RN u f st hf tSec dt 0 targetKm L ht
    hdt hL lo c₁ c₂ hi tol htol hwide a b hab hord ha hb
  refine ⟨ρ, hρ, fun mode I hI hall => ?_⟩
  obtain ⟨lim, n, h1, h2, h3⟩ := h (Vehicle.mk' m beta 0 A alpha RN P atm u f st) ⟨mode, I, tSec, dt, targetKm⟩ _ _
    Spec.IsSearch.efpa rfl rfl rfl (fun _ => rfl) hI hall
  exact ⟨lim, n, h2, h3, h1⟩

/-! ### Case -/

/-- For a while, the flights from all entry angles of a compact set stay close to where they start. -/
theorem short_flights (name : String) (F : AtmFile) (hF : (name, F) ∈ shippedFiles) (P : Planet)
    (hP : Planet.init name = .ok P) (atm : Atmosphere) (hatm : LoadedCubic P F.km (fileRows F) atm)
    (m beta LD A alpha RN : ℝ) (u : Bool) (f : ℝ → ℝ) (st : InitState) (hf : u = true → ContDiff ℝ 1 f)
    (d h0 h1 v0 v1 c η κ : ℝ) (hh : 0 < h0) (hv : 0 < v0) (hc : 0 < c) (hη : 0 < η) (hκ : 0 < κ)
    (K : Set ℝ) (hK : IsCompact K)
    (hs : ∀ g ∈ K, Safe P h0 h1 v0 v1 c η (P.nonDimState (Vehicle.entryState P { st with gamma0Deg := g }))) :
    ∃ T > 0, ∀ g ∈ K, ∃ (y : ℝ → FState) (S : Finset ℝ),
      y 0 = P.nonDimState (Vehicle.entryState P { st with gamma0Deg := g }) ∧
      SwitchedFlight (fun t s => (Vehicle.mk' m beta LD A alpha RN P atm u f st).EOM s t d) y 0 T S ∧
      ∀ t ∈ Set.Icc 0 T, Near κ (y t) (y 0) := by
  obtain ⟨_, hR, _⟩ := C01_planet_consistent name P hP
  refine hK.induction_on (p := fun K' => ∃ T > 0, ∀ g ∈ K', ∃ (y : ℝ → FState) (S : Finset ℝ),
      y 0 = P.nonDimState (Vehicle.entryState P { st with gamma0Deg := g }) ∧
      SwitchedFlight (fun t s => (Vehicle.mk' m beta LD A alpha RN P atm u f st).EOM s t d) y 0 T S ∧
      ∀ t ∈ Set.Icc 0 T, Near κ (y t) (y 0)) ⟨1, one_pos, fun g h => absurd h (by simp)⟩ ?_ ?_ ?_
  · rintro s t hst ⟨T, hT, h⟩
    exact ⟨T, hT, fun g hg => h g (hst hg)⟩
  · rintro s t ⟨T, hT, h⟩ ⟨T', hT', h'⟩
    refine ⟨min T T', lt_min hT hT', fun g hg => ?_⟩
    rcases hg with hg | hg
    · obtain ⟨y, S, y0, hy, hn⟩ := h g hg
      exact ⟨y, S, y0, flight_mono hy le_rfl (min_le_left _ _), fun t ht => hn t ⟨ht.1, ht.2.trans (min_le_left _ _)⟩⟩
    · obtain ⟨y, S, y0, hy, hn⟩ := h' g hg
      exact ⟨y, S, y0, flight_mono hy le_rfl (min_le_right _ _), fun t ht => hn t ⟨ht.1, ht.2.trans (min_le_right _ _)⟩⟩
  · intro g₀ hg₀
    have hs0 := hs g₀ hg₀
    obtain ⟨y, b, S, hb0, -, y0, hy, -⟩ := C100_flight_continues name F hF P hP atm hatm m beta LD A alpha RN u f st hf d 1
      h0 h1 v0 v1 c η one_pos hh hv hc hη _ hs0
    set κ' := min (κ / 3) (min (min (min (h0 / 2 / P.RP) (1 / P.RP)) (min (η / 2 / P.RP) (v0 / 2))) (min 1 (c / 2))) with hκ'
    have hκ'0 : 0 < κ' := by
      rw [hκ']; simp only [lt_min_iff]
      exact ⟨by positivity, ⟨⟨by positivity, by positivity⟩, ⟨by positivity, by positivity⟩⟩, by positivity, by positivity⟩
    obtain ⟨kk, ⟨⟨k0, k1⟩, ⟨k2, k3⟩⟩, k4, k5⟩ : κ' ≤ κ / 3 ∧ ((κ' ≤ h0 / 2 / P.RP ∧ κ' ≤ 1 / P.RP) ∧
        (κ' ≤ η / 2 / P.RP ∧ κ' ≤ v0 / 2)) ∧ κ' ≤ 1 ∧ κ' ≤ c / 2 := by
      have := le_refl κ'
      nth_rewrite 2 [hκ'] at this
      simpa only [le_min_iff] using this
    rw [le_div_iff₀ hR] at k0 k1 k2
    have hcont : ContinuousOn (fun t => ‖(y t).toR7 - (y 0).toR7‖) (Set.Icc 0 b) :=
      ((flight_state_cont hy).sub continuousOn_const).norm
    have hev := (hcont 0 ⟨le_rfl, hb0.le⟩).eventually
      (gt_mem_nhds (show ‖(y 0).toR7 - (y 0).toR7‖ < κ' by simpa using hκ'0))
    rw [eventually_nhdsWithin_iff, Metric.eventually_nhds_iff] at hev
    obtain ⟨ε, hε, hev⟩ := hev
    set T := min b (ε / 2) with hT
    have hT0 : 0 < T := lt_min hb0 (by linarith)
    have hTb : T ≤ b := min_le_left _ _
    have hTε : T ≤ ε / 2 := min_le_right _ _
    have hnear : ∀ t ∈ Set.Icc 0 T, Near κ' (y t) (y 0) := by
      intro t ht
      have := hev (y := t) (by rw [Real.dist_eq, sub_zero, abs_of_nonneg ht.1]; linarith [ht.2]) ⟨ht.1, ht.2.trans hTb⟩
      exact (near_iff _ _ _).mpr this.le
    obtain ⟨C, ρ, hC, hρ, hfl⟩ := C102_nearby_flights_exist name F hF P hP atm hatm m beta LD A alpha RN u f st hf d T
      (h0 / 2) (h1 + 1) (v0 / 2) (v1 + 1) (c / 2) (η / 2) hT0 (by positivity) (by positivity) (by positivity) (by positivity)
      y S (flight_mono hy le_rfl hTb) (fun t ht => safe_near hR (by rw [← y0] at hs0; exact hs0) (hnear t ht) k0 k1 k2 k3 k4 k5)
    set δ := min ρ (κ / 3 / C) with hδ
    have hδ0 : 0 < δ := lt_min hρ (by positivity)
    have hδC : C * δ ≤ κ / 3 := by
      have := min_le_right ρ (κ / 3 / C)
      rw [← hδ, le_div_iff₀ (by linarith)] at this
      linarith
    have hδκ : δ ≤ κ / 3 := le_trans (by nlinarith) hδC
    refine ⟨Metric.closedBall g₀ δ, mem_nhdsWithin_of_mem_nhds (Metric.closedBall_mem_nhds _ hδ0), T, hT0, fun g hg => ?_⟩
    rw [Metric.mem_closedBall, Real.dist_eq] at hg
    have hst : Near δ (P.nonDimState (Vehicle.entryState P { st with gamma0Deg := g })) (y 0) := by
      rw [y0]
      have e : ∀ a : ℝ, |a - a| ≤ δ := fun a => by rw [sub_self, abs_zero]; exact hδ0.le
      refine ⟨e _, e _, e _, e _, e _, ?_, e _⟩
      change |g * π / 180.0 - g₀ * π / 180.0| ≤ δ
      rw [show (180.0:ℝ) = 180 by norm_num, show g * π / 180 - g₀ * π / 180 = (g - g₀) * (π / 180) by ring, abs_mul,
        abs_of_pos (show 0 < π / 180 by positivity)]
      have h4 := pi_le_four
      have : |g - g₀| * (π / 180) ≤ |g - g₀| * 1 := mul_le_mul_of_nonneg_left (by linarith) (abs_nonneg _)
      linarith
    obtain ⟨z, S', z0, hz, hzn⟩ := hfl _ δ (min_le_left _ _) hst
    refine ⟨z, S', z0, hz, fun t ht => ?_⟩
    have a1 := hzn t ht
    have a2 := hnear t ht
    rw [← z0] at hst
    have tri : ∀ {a b c e : ℝ}, |a - b| ≤ C * δ → |b - c| ≤ κ' → |e - c| ≤ δ → |a - e| ≤ κ := fun {a b c e} q1 q2 q3 => by
      have r1 := abs_sub_le a b e
      have r2 := abs_sub_le b c e
      rw [abs_sub_comm c e] at r2
      linarith
    exact ⟨tri a1.r a2.r hst.r, tri a1.theta a2.theta hst.theta, tri a1.phi a2.phi hst.phi, tri a1.v a2.v hst.v,
      tri a1.psi a2.psi hst.psi, tri a1.gamma a2.gamma hst.gamma, tri a1.drange a2.drange hst.drange⟩

theorem orbit_margin_uniform {name : String} {P : Planet} (hP : Planet.init name = .ok P) {L rho : ℝ} {ans : ℤ} {K : Set ℝ}
    (hK : IsCompact K) (st : InitState)
    (hr : ∀ g ∈ K, 0 < (P.nonDimState (Vehicle.entryState P { st with gamma0Deg := g })).r)
    (h : ∀ g ∈ K, (ans = -1 ∧ RisesBeyond P L rho (P.nonDimState (Vehicle.entryState P { st with gamma0Deg := g }))) ∨
      (ans = 1 ∧ FallsShort P L rho (P.nonDimState (Vehicle.entryState P { st with gamma0Deg := g })))) :
    ∃ ε > 0, ∀ g ∈ K, ∀ s', Near ε s' (P.nonDimState (Vehicle.entryState P { st with gamma0Deg := g })) →
      (ans = -1 ∧ RisesBeyond P L rho s') ∨ (ans = 1 ∧ FallsShort P L rho s') := by
  refine hK.induction_on (p := fun K' => ∃ ε > 0, ∀ g ∈ K', ∀ s',
      Near ε s' (P.nonDimState (Vehicle.entryState P { st with gamma0Deg := g })) →
      (ans = -1 ∧ RisesBeyond P L rho s') ∨ (ans = 1 ∧ FallsShort P L rho s'))
      ⟨1, one_pos, fun g h => absurd h (by simp)⟩ ?_ ?_ ?_
  · rintro s t hst ⟨ε, hε, h⟩
    exact ⟨ε, hε, fun g hg => h g (hst hg)⟩
  · rintro s t ⟨ε, hε, h⟩ ⟨ε', hε', h'⟩
    refine ⟨min ε ε', lt_min hε hε', fun g hg s' hs' => ?_⟩
    rcases hg with hg | hg
    · exact h g hg s' (Near.mono hs' (min_le_left _ _))
    · exact h' g hg s' (Near.mono hs' (min_le_right _ _))
  · intro g₀ hg₀
    obtain ⟨ε, hε, hm⟩ := orbit_margin hP (hr g₀ hg₀) (h g₀ hg₀)
    refine ⟨Metric.closedBall g₀ (ε / 2), mem_nhdsWithin_of_mem_nhds (Metric.closedBall_mem_nhds _ (by linarith)), ε / 2,
      by linarith, fun g hg s' hs' => hm s' ?_⟩
    rw [Metric.mem_closedBall, Real.dist_eq] at hg
    have weak : ∀ {a b : ℝ}, |a - b| ≤ ε / 2 → |a - b| ≤ ε := fun hx => by linarith
    refine ⟨weak hs'.r, weak hs'.theta, weak hs'.phi, weak hs'.v, weak hs'.psi, ?_, weak hs'.drange⟩
    have h1 : |s'.gamma - g * π / 180.0| ≤ ε / 2 := hs'.gamma
    change |s'.gamma - g₀ * π / 180.0| ≤ ε
    have h2 := abs_sub_le s'.gamma (g * π / 180.0) (g₀ * π / 180.0)
    have h3 : |g * π / 180.0 - g₀ * π / 180.0| ≤ ε / 2 := by
      rw [show (180.0:ℝ) = 180 by norm_num, show g * π / 180 - g₀ * π / 180 = (g - g₀) * (π / 180) by ring, abs_mul,
        abs_of_pos (show 0 < π / 180 by positivity)]
      have h4 := pi_le_four
      have : |g - g₀| * (π / 180) ≤ |g - g₀| * 1 := mul_le_mul_of_nonneg_left (by linarith) (abs_nonneg _)
      linarith
    linarith

/-- Vehicles 60 km above Mars at 4 km/s, descending at angles between 0 and 60° and observed for a short time: for those
steeper than 45° the orbit at the end rises beyond the radius of 8000 km, for those flatter than 30° it does not.  The
solver returns points of the exact flights. -/
theorem mars_corridor (LD deltaDeg : ℝ) : ∃ (P : Planet) (atm : Atmosphere) (L dt : ℝ) (I : Integrator),
    Planet.init "MARS" = .ok P ∧ LoadedCubic P mars.km (fileRows mars) atm ∧ P.hLow = some L ∧ 0 < dt ∧ OdeintLike I ∧
    (∀ g ∈ Set.uIcc (-60:ℝ) (-45), FlightVerdict (Spec.atAngle (Vehicle.mk' 1000 100 LD 10 0 1 P atm true demoCurve
      ⟨60, 0, 0, 4, 0, 0, 0, 0⟩) g) dt dt deltaDeg L (P.RP + 1000 * 4610.5) (-1)) ∧
    (∀ g ∈ Set.uIcc (-30:ℝ) 0, FlightVerdict (Spec.atAngle (Vehicle.mk' 1000 100 LD 10 0 1 P atm true demoCurve
      ⟨60, 0, 0, 4, 0, 0, 0, 0⟩) g) dt dt deltaDeg L (P.RP + 1000 * 4610.5) 1) ∧
    ∀ ρ > 0, ∀ g ∈ Set.uIcc (-60:ℝ) 0,
      SolvedWithin (Spec.atAngle (Vehicle.mk' 1000 100 LD 10 0 1 P atm true demoCurve ⟨60, 0, 0, 4, 0, 0, 0, 0⟩) g) I dt dt
        deltaDeg ρ ∧
      ∃ out, (Spec.atAngle (Vehicle.mk' 1000 100 LD 10 0 1 P atm true demoCurve ⟨60, 0, 0, 4, 0, 0, 0, 0⟩) g).propogateEntry
        .strict I dt dt deltaDeg = .ok out := by
  obtain ⟨P, hP⟩ := (C01_planet_names "MARS").1.mpr (by simp [Spec.bodies])
  have hF : ("MARS", mars) ∈ shippedFiles := by simp [shippedFiles]
  obtain ⟨atm, hatm⟩ := (C85_loads "MARS" mars hF P hP).1
  obtain ⟨_, hR, _, _, _, _, _, _, hV, htau, hVR, _⟩ := C01_planet_consistent "MARS" P hP
  have hRv : P.RP = 3389500 := by simp [Planet.init] at hP; subst hP; norm_num [Planet.withScales]
  have hGM : P.GM = 42828370000000 := by simp [Planet.init] at hP; subst hP; norm_num [Planet.withScales]
  have hTh : P.hThres = 120000 := by simp [Planet.init] at hP; subst hP; norm_num [Planet.withScales]
  have hSk : P.hSkip = 120000 := by simp [Planet.init] at hP; subst hP; norm_num [Planet.withScales]
  have hTr : P.hTrap = 10000 := by simp [Planet.init] at hP; subst hP; norm_num [Planet.withScales]
  obtain ⟨L, hL, hL1⟩ : ∃ L, P.hLow = some L ∧ L < 60000 := by
    simp [Planet.init] at hP; subst hP; exact ⟨_, rfl, by norm_num⟩
  rw [hRv, hGM] at hVR
  have hV1 : 3000 ≤ P.Vref := by
    by_contra hn
    have := pow_lt_pow_left₀ (not_le.mp hn) hV.le (two_ne_zero)
    norm_num at this
    linarith
  have hV2 : P.Vref ≤ 4000 := by
    by_contra hn
    have := pow_lt_pow_left₀ (not_le.mp hn) (by norm_num : (0:ℝ) ≤ 4000) (two_ne_zero)
    norm_num at this
    linarith
  set st : InitState := ⟨60, 0, 0, 4, 0, 0, 0, 0⟩ with hst
  set V := Vehicle.mk' 1000 100 LD 10 0 1 P atm true demoCurve st with hVdef
  set s : ℝ → FState := fun g => P.nonDimState (Vehicle.entryState P { st with gamma0Deg := g }) with hs
  have hsr : ∀ g, (s g).r * P.RP = 3449500 := fun g => by
    change (P.RP + 60 * 1.0E3) / P.RP * P.RP = 3449500
    rw [div_mul_cancel₀ _ hR.ne', hRv]
    norm_num
  have hsr0 : ∀ g, 0 < (s g).r := fun g => by
    have := hsr g
    by_contra hn
    have := mul_nonpos_of_nonpos_of_nonneg (not_lt.mp hn) hR.le
    linarith
  have hsv : ∀ g, (s g).v * P.Vref = 4000 := fun g => by
    change 4 * 1.000E3 / P.Vref * P.Vref = 4000
    rw [div_mul_cancel₀ _ hV.ne']
    norm_num
  have hsg : ∀ g, (s g).gamma = g * π / 180 := fun g => by
    change g * π / 180.0 = g * π / 180
    norm_num
  have hsp : ∀ g, (s g).phi = 0 := fun g => by
    change 0 * π / 180.0 = 0
    rw [zero_mul, zero_div]
  -- cosines
  have hcos : ∀ g h : ℝ, 0 ≤ h → h ≤ 180 → |g| ≤ h → cos (h * π / 180) ≤ cos (s g).gamma := by
    intro g h h0 h1 h2
    rw [hsg, ← cos_abs (g * π / 180)]
    have e : |g * π / 180| = |g| * π / 180 := by
      rw [abs_div, abs_mul, abs_of_pos pi_pos, abs_of_pos (by norm_num : (0:ℝ) < 180)]
    rw [e]
    apply cos_le_cos_of_nonneg_of_le_pi
    · positivity
    · have := pi_pos; nlinarith
    · have := pi_pos; gcongr
  have hcos' : ∀ g h : ℝ, 0 ≤ h → h ≤ |g| → |g| ≤ 180 → cos (s g).gamma ≤ cos (h * π / 180) := by
    intro g h h0 h1 h2
    rw [hsg, ← cos_abs (g * π / 180)]
    have e : |g * π / 180| = |g| * π / 180 := by
      rw [abs_div, abs_mul, abs_of_pos pi_pos, abs_of_pos (by norm_num : (0:ℝ) < 180)]
    rw [e]
    apply cos_le_cos_of_nonneg_of_le_pi
    · positivity
    · have := pi_pos; nlinarith
    · have := pi_pos; gcongr
  have c60 : cos (60 * π / 180) = 1 / 2 := by rw [← cos_pi_div_three]; congr 1; ring
  have c45 : cos (45 * π / 180) = √2 / 2 := by rw [← cos_pi_div_four]; congr 1; ring
  have c30 : cos (30 * π / 180) = √3 / 2 := by rw [← cos_pi_div_six]; congr 1; ring
  have hc60 : ∀ g ∈ Set.uIcc (-60:ℝ) 0, 1 / 2 ≤ cos (s g).gamma := by
    intro g hg
    rw [Set.uIcc_of_le (by norm_num)] at hg
    rw [← c60]
    exact hcos g 60 (by norm_num) (by norm_num) (by rw [abs_of_nonpos hg.2]; linarith [hg.1])
  -- the start is safe
  have hsafe : ∀ g ∈ Set.uIcc (-60:ℝ) 0, Safe P 59998 60000 0.2 1.4 0.2 2 (s g) := by
    intro g hg
    refine ⟨by rw [hsr, hRv]; norm_num, by rw [hsr, hRv]; norm_num, ?_, ?_, ?_, ?_, Or.inl ?_⟩
    · rw [← mul_le_mul_iff_left₀ hV, hsv]; norm_num; linarith
    · rw [← mul_le_mul_iff_left₀ hV, hsv]; norm_num; linarith
    · rw [hsp, cos_zero]; norm_num
    · have := hc60 g hg; norm_num; linarith
    · rw [hsr, hRv, hTh]; norm_num
  -- the verdicts at the start
  have hrad : ∀ g, radialSqAt P (P.RP + 1000 * 4610.5) (s g) =
      2 * (8000000 - 42828370000000 / 3449500 + 42828370000000 / 8000000) - (3449500 * 4000 / 8000000) ^ 2 * cos (s g).gamma ^ 2 := by
    intro g
    unfold radialSqAt radialSq
    rw [hsr, hsv, hGM, hRv]
    generalize cos (s g).gamma = x
    norm_num
    ring
  have hA : ∀ g ∈ Set.uIcc (-60:ℝ) (-45), RisesBeyond P L (P.RP + 1000 * 4610.5) (s g) := by
    intro g hg
    rw [Set.uIcc_of_le (by norm_num)] at hg
    refine ⟨by rw [hsr, hRv]; linarith, Or.inr ?_⟩
    have h1 := hcos' g 45 (by norm_num) (by rw [abs_of_nonpos (by linarith [hg.2])]; linarith [hg.2])
      (by rw [abs_of_nonpos (by linarith [hg.2])]; linarith [hg.1])
    have h0 := hc60 g (by rw [Set.uIcc_of_le (by norm_num)]; exact ⟨hg.1, by linarith [hg.2]⟩)
    rw [c45] at h1
    have h2 : cos (s g).gamma ^ 2 ≤ 1 / 2 := by
      refine (pow_le_pow_left₀ (by linarith) h1 2).trans (le_of_eq ?_)
      rw [div_pow, sq_sqrt (by norm_num)]; norm_num
    rw [hrad]
    norm_num
    nlinarith
  have hB : ∀ g ∈ Set.uIcc (-30:ℝ) 0, FallsShort P L (P.RP + 1000 * 4610.5) (s g) := by
    intro g hg
    rw [Set.uIcc_of_le (by norm_num)] at hg
    refine Or.inr ⟨by rw [hsr, hRv]; norm_num, ?_⟩
    have h1 := hcos g 30 (by norm_num) (by norm_num) (by rw [abs_of_nonpos hg.2]; linarith [hg.1])
    rw [c30] at h1
    have h2 : 3 / 4 ≤ cos (s g).gamma ^ 2 := by
      refine le_trans (le_of_eq ?_) (pow_le_pow_left₀ (by positivity) h1 2)
      rw [div_pow, sq_sqrt (by norm_num)]; norm_num
    rw [hrad]
    norm_num
    nlinarith
  obtain ⟨ε₁, hε₁, m₁⟩ := orbit_margin_uniform hP isCompact_uIcc st (fun g _ => hsr0 g) (ans := -1) (fun g hg => Or.inl ⟨rfl, hA g hg⟩)
  obtain ⟨ε₂, hε₂, m₂⟩ := orbit_margin_uniform hP isCompact_uIcc st (fun g _ => hsr0 g) (ans := 1) (fun g hg => Or.inr ⟨rfl, hB g hg⟩)
  set κ := min (min (1 / P.RP) 0.1) (min ε₁ ε₂) with hκ
  have hκ0 : 0 < κ := lt_min (lt_min (by positivity) (by norm_num)) (lt_min hε₁ hε₂)
  have κ1 : κ * P.RP ≤ 1 := by
    rw [← le_div_iff₀ hR]; exact (min_le_left _ _).trans (min_le_left _ _)
  have κ2 : κ ≤ 0.1 := (min_le_left _ _).trans (min_le_right _ _)
  have κ3 : κ ≤ ε₁ := (min_le_right _ _).trans (min_le_left _ _)
  have κ4 : κ ≤ ε₂ := (min_le_right _ _).trans (min_le_right _ _)
  obtain ⟨T, hT, hfl⟩ := short_flights "MARS" mars hF P hP atm hatm 1000 100 LD 10 0 1 true demoCurve st
    (fun _ => demoCurve_smooth) (deltaDeg * π / 180.0) 59998 60000 0.2 1.4 0.2 2 κ (by norm_num) (by norm_num) (by norm_num)
    (by norm_num) hκ0 (Set.uIcc (-60:ℝ) 0) isCompact_uIcc hsafe
  have hfl' : ∀ g : ℝ, ∃ (y : ℝ → FState) (S : Finset ℝ), g ∈ Set.uIcc (-60:ℝ) 0 → y 0 = s g ∧
      SwitchedFlight (fun t s => V.EOM s t (deltaDeg * π / 180.0)) y 0 T S ∧ ∀ t ∈ Set.Icc 0 T, Near κ (y t) (y 0) := by
    intro g
    by_cases hg : g ∈ Set.uIcc (-60:ℝ) 0
    · obtain ⟨y, S, h⟩ := hfl g hg
      exact ⟨y, S, fun _ => h⟩
    · exact ⟨fun _ => s g, ∅, fun h => absurd h hg⟩
  choose Y SS hY using hfl'
  set dt := P.tau * T / 2 with hdt
  have hdt0 : 0 < dt := by positivity
  have eT : (dt + dt) / P.tau = T := by rw [hdt]; field_simp; norm_num
  have hceil : ⌈dt / dt⌉₊ = 1 := by rw [div_self hdt0.ne', Nat.ceil_one]
  have hedge : ∀ j : ℕ, j ≤ 1 → (j:ℝ) * dt / P.tau ∈ Set.Icc 0 T := by
    intro j hj
    have e : (j:ℝ) * dt / P.tau = j * T / 2 := by rw [hdt]; field_simp
    rw [e]
    have : (j:ℝ) ≤ 1 := by exact_mod_cast hj
    exact ⟨by positivity, by nlinarith⟩
  have halt : ∀ g ∈ Set.uIcc (-60:ℝ) 0, ∀ t ∈ Set.Icc 0 T, 59999 ≤ (Y g t).r * P.RP - P.RP ∧
      (Y g t).r * P.RP - P.RP ≤ 60001 := by
    intro g hg t ht
    obtain ⟨y0, -, hn⟩ := hY g hg
    have h1 : |(Y g t).r * P.RP - (Y g 0).r * P.RP| ≤ 1 := by
      rw [← sub_mul, abs_mul, abs_of_pos hR]
      exact (mul_le_mul_of_nonneg_right (hn t ht).r hR.le).trans κ1
    rw [y0, hsr] at h1
    have := abs_le.mp h1
    rw [hRv] at this ⊢
    exact ⟨by linarith, by linarith⟩
  -- what the flights have in common
  have hverdict : ∀ (ans : ℤ) (g : ℝ), g ∈ Set.uIcc (-60:ℝ) 0 →
      (∀ s', Near κ s' (s g) → (ans = -1 ∧ RisesBeyond P L (P.RP + 1000 * 4610.5) s') ∨
        (ans = 1 ∧ FallsShort P L (P.RP + 1000 * 4610.5) s')) →
      FlightVerdict (Spec.atAngle V g) dt dt deltaDeg L (P.RP + 1000 * 4610.5) ans := by
    intro ans g hg hm
    obtain ⟨y0, hy, hn⟩ := hY g hg
    refine ⟨Y g, SS g, 1, y0, ?_, ?_, ?_, ?_, ?_⟩
    · change SwitchedFlight _ _ 0 ((dt + dt) / P.tau) _
      rw [eT]; exact hy
    · change ∀ t ∈ Set.Icc 0 ((dt + dt) / P.tau), Departure P (Y g t)
      rw [eT]
      intro t ht
      have := safe_near hR (hsafe g hg) (by rw [← y0]; exact hn t ht) (by linarith) κ1 (by linarith)
        (by norm_num at κ2 ⊢; linarith) (by norm_num at κ2; linarith) (by norm_num at κ2 ⊢; linarith)
      exact this.departure (by norm_num) (by norm_num) (by norm_num) (by norm_num)
    · intro j _ hj
      rw [hceil] at hj
      have := halt g hg _ (hedge j hj)
      change (Y g (j * dt / P.tau)).r * P.RP - P.RP ≠ P.hTrap ∧ (Y g (j * dt / P.tau)).r * P.RP - P.RP ≠ P.hSkip
      rw [hTr, hSk]
      exact ⟨fun h => by linarith [this.1], fun h => by linarith [this.2]⟩
    · refine Or.inr (Or.inr ⟨by rw [hceil], fun j hj => ?_⟩)
      rw [hceil] at hj
      have := halt g hg _ (hedge j (by omega))
      change P.hTrap < (Y g (j * dt / P.tau)).r * P.RP - P.RP ∧ (Y g (j * dt / P.tau)).r * P.RP - P.RP ≤ P.hSkip
      rw [hTr, hSk]
      exact ⟨by linarith [this.1], by linarith [this.2]⟩
    · refine hm _ ?_
      rw [← y0]
      exact hn _ (hedge 1 le_rfl)
  -- the solver
  set I : Integrator := fun f y0 grid => traceIntegrator (Y (y0.gamma * 180 / π)) f y0 grid with hI
  have hsam : ∀ g ∈ Set.uIcc (-60:ℝ) 0, samples (Spec.atAngle V g) I dt dt deltaDeg =
      (Vehicle.tGrid P dt dt).map fun t => (t, Y g t) := by
    intro g hg
    obtain ⟨g1, g2⟩ := tGrid_get "MARS" P hP dt dt hdt0.le hdt0
    have g0 := g2 0 (by omega)
    have eg : (s g).gamma * 180 / π = g := by rw [hsg]; field_simp
    change traceIntegrator (Y ((s g).gamma * 180 / π)) (fun t y => V.EOM y t (deltaDeg * π / 180.0)) (s g) (Vehicle.tGrid P dt dt) = _
    rw [eg]
    cases hgr : Vehicle.tGrid P dt dt with
    | nil => rw [hgr] at g1; simp at g1
    | cons t ts =>
      rw [hgr] at g0
      simp only [List.getElem?_cons_zero, Nat.cast_zero, zero_mul, zero_div, Option.some.injEq] at g0
      subst g0
      simp only [traceIntegrator, List.map_cons, ← (hY g hg).1]
  have hmem : ∀ t ∈ Vehicle.tGrid P dt dt, t ∈ Set.Icc 0 T := by
    intro t ht
    obtain ⟨g1, g2⟩ := tGrid_get "MARS" P hP dt dt hdt0.le hdt0
    obtain ⟨j, hj⟩ := List.mem_iff_getElem?.mp ht
    have hjl := (List.getElem?_eq_some_iff.mp hj).1
    rw [g1] at hjl
    rw [g2 j hjl] at hj
    rw [hceil] at hjl
    obtain rfl := Option.some.inj hj
    exact hedge j (by omega)
  refine ⟨P, atm, L, dt, I, hP, hatm, hL, hdt0, fun f y0 grid => traceIntegrator_ok _ f y0 grid, ?_, ?_, ?_⟩
  · intro g hg
    refine hverdict (-1) g ?_ fun s' hs' => m₁ g hg s' (Near.mono hs' κ3)
    rw [Set.uIcc_of_le (by norm_num)] at hg ⊢
    exact ⟨hg.1, by linarith [hg.2]⟩
  · intro g hg
    refine hverdict 1 g ?_ fun s' hs' => m₂ g hg s' (Near.mono hs' κ4)
    rw [Set.uIcc_of_le (by norm_num)] at hg ⊢
    exact ⟨by linarith [hg.1], hg.2⟩
  · intro ρ hρ g hg
    obtain ⟨y0, hy, hn⟩ := hY g hg
    refine ⟨⟨Y g, SS g, y0, ?_, ?_⟩, ?_⟩
    · change NearFlight _ _ 0 ((dt + dt) / P.tau) _ _
      rw [eT]
      exact flight_nearFlight hy hρ.le
    · intro p hp
      rw [hsam g hg] at hp
      obtain ⟨t, -, rfl⟩ := List.mem_map.mp hp
      have e : ∀ a : ℝ, |a - a| ≤ ρ := fun a => by rw [sub_self, abs_zero]; exact hρ.le
      exact ⟨e _, e _, e _, e _, e _, e _, e _⟩
    · have hall : ∀ p ∈ samples (Spec.atAngle V g) I dt dt deltaDeg, 59999 ≤ p.2.r * P.RP - P.RP ∧
          p.2.r * P.RP - P.RP ≤ 60001 := by
        intro p hp
        rw [hsam g hg] at hp
        obtain ⟨t, ht, rfl⟩ := List.mem_map.mp hp
        exact halt g hg t (hmem t ht)
      cases hsp' : samples (Spec.atAngle V g) I dt dt deltaDeg with
      | nil =>
        rw [hsam g hg] at hsp'
        have := congrArg List.length hsp'
        rw [List.length_map, (tGrid_get "MARS" P hP dt dt hdt0.le hdt0).1] at this
        simp at this
      | cons p Q =>
        rw [hsp'] at hall
        have hp := hall p List.mem_cons_self
        refine C24_returns_inside "MARS" (Spec.atAngle V g) hP .strict I dt dt deltaDeg p Q hsp' ?_ ?_ ?_
        · change P.hTrap ≤ p.2.r * P.RP - P.RP
          rw [hTr]; linarith [hp.1]
        · change p.2.r * P.RP - P.RP ≤ P.hSkip
          rw [hSk]; linarith [hp.2]
        · rintro ⟨⟨q, hq, hq1⟩, -⟩
          change q.2.r * P.RP - P.RP = P.hTrap at hq1
          have := (hall q hq).1
          rw [hTr] at hq1
          linarith

/-- Case for `C109_verdict_of_flight`, `C109_verdict_of_flights` and the three limit theorems: the vehicles of
`mars_corridor`.  Searching from 60° to 0 with a tolerance of 0.1°, the three searches return limits within 0.1° of an angle
between 45° and 30° below the horizontal. -/
example : (∃ (P : Planet) (atm : Atmosphere) (dt : ℝ) (I : Integrator) (lim : ℝ) (n : ℕ), 0 < dt ∧
      (∃ c ∈ Set.uIcc (-45:ℝ) (-30), |lim - c| ≤ 0.1) ∧ ∀ fuel, n ≤ fuel →
        (Vehicle.findOverShootLimit ⟨.strict, I, dt, dt, 4610.5⟩ fuel (Vehicle.mk' 1000 100 0.2 10 0 1 P atm true demoCurve
          ⟨60, 0, 0, 4, 0, 0, 0, 0⟩) (-60) 0 0.1).map Prod.snd = some (.ok (lim, 1))) ∧
    (∃ (P : Planet) (atm : Atmosphere) (dt : ℝ) (I : Integrator) (lim : ℝ) (n : ℕ), 0 < dt ∧
      (∃ c ∈ Set.uIcc (-45:ℝ) (-30), |lim - c| ≤ 0.1) ∧ ∀ fuel, n ≤ fuel →
        (Vehicle.findUnderShootLimit ⟨.strict, I, dt, dt, 4610.5⟩ fuel (Vehicle.mk' 1000 100 0.2 10 0 1 P atm true demoCurve
          ⟨60, 0, 0, 4, 0, 0, 0, 0⟩) (-60) 0 0.1).map Prod.snd = some (.ok (lim, 1))) ∧
    (∃ (P : Planet) (atm : Atmosphere) (dt : ℝ) (I : Integrator) (lim : ℝ) (n : ℕ), 0 < dt ∧
      (∃ c ∈ Set.uIcc (-45:ℝ) (-30), |lim - c| ≤ 0.1) ∧ ∀ fuel, n ≤ fuel →
        (Vehicle.findEFPALimitD ⟨.strict, I, dt, dt, 4610.5⟩ fuel (Vehicle.mk' 1000 100 0 10 0 1 P atm true demoCurve
          ⟨60, 0, 0, 4, 0, 0, 0, 0⟩) (-60) 0 0.1).map Prod.snd = some (.ok (lim, 1))) := by
  have hF : ("MARS", mars) ∈ shippedFiles := by simp [shippedFiles]
  refine ⟨?_, ?_, ?_⟩
  · obtain ⟨P, atm, L, dt, I, hP, hatm, hL, hdt, hI, ha, hb, hsol⟩ := mars_corridor 0.2 180
    obtain ⟨ρ, hρ, h⟩ := C109_overshoot_limit "MARS" mars hF P hP atm hatm 1000 100 0.2 10 0 1 true demoCurve _
      (fun _ => demoCurve_smooth) dt dt 4610.5 L hdt.le hdt hL (-60) (-45) (-30) 0 0.1 (by norm_num) (by norm_num) (-1) 1
      (by norm_num) (Or.inl (by norm_num)) ha hb
    obtain ⟨lim, n, -, h2, h3⟩ := h .strict I hI (hsol ρ hρ)
    exact ⟨P, atm, dt, I, lim, n, hdt, h2, fun fuel hfuel => by rw [h3 fuel hfuel]; rfl⟩
  · obtain ⟨P, atm, L, dt, I, hP, hatm, hL, hdt, hI, ha, hb, hsol⟩ := mars_corridor 0.2 0
    obtain ⟨ρ, hρ, h⟩ := C109_undershoot_limit "MARS" mars hF P hP atm hatm 1000 100 0.2 10 0 1 true demoCurve _
      (fun _ => demoCurve_smooth) dt dt 4610.5 L hdt.le hdt hL (-60) (-45) (-30) 0 0.1 (by norm_num) (by norm_num) (-1) 1
      (by norm_num) (Or.inl (by norm_num)) ha hb
    obtain ⟨lim, n, -, h2, h3⟩ := h .strict I hI (hsol ρ hρ)
    exact ⟨P, atm, dt, I, lim, n, hdt, h2, fun fuel hfuel => by rw [h3 fuel hfuel]; rfl⟩
  · obtain ⟨P, atm, L, dt, I, hP, hatm, hL, hdt, hI, ha, hb, hsol⟩ := mars_corridor 0 0
    obtain ⟨ρ, hρ, h⟩ := C109_ballistic_limit "MARS" mars hF P hP atm hatm 1000 100 10 0 1 true demoCurve _
      (fun _ => demoCurve_smooth) dt dt 4610.5 L hdt.le hdt hL (-60) (-45) (-30) 0 0.1 (by norm_num) (by norm_num) (-1) 1
      (by norm_num) (Or.inl (by norm_num)) ha hb
    obtain ⟨lim, n, -, h2, h3⟩ := h .strict I hI (hsol ρ hρ)
    exact ⟨P, atm, dt, I, lim, n, hdt, h2, fun fuel hfuel => by rw [h3 fuel hfuel]; rfl⟩

end AMAT.Props
