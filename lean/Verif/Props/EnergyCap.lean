import Verif.Props.GroundTrack
import Mathlib.Topology.Order.IntermediateValue

/-
C115: the energy of a vehicle limits its altitude, its speed and its heating.
-/

noncomputable section

open Real

namespace AMAT.Spec

/-- A vehicle at rest on the rotating planet, at altitude `H` (m) and latitude `phi`. -/
def restAt (P : Planet) (H phi : ℝ) : FState := ⟨(P.RP + H) / P.RP, 0, phi, 0, 0, 0, 0⟩

/-- Square of the speed (m/s) of free fall: a vehicle that has the speed `v0` at distance `r0` from the centre cannot be faster
than this at distance `r`.  The last two terms allow for oblateness and rotation. -/
def fallSq (P : Planet) (v0 r0 r : ℝ) : ℝ :=
  v0 ^ 2 + 2 * P.GM * (1 / r - 1 / r0) + 2 * P.GM * (|P.J2| + 4 * |P.J3|) * (1 / r + 1 / r0) + (P.OMEGA * r) ^ 2

end AMAT.Spec

namespace AMAT.Props

open Real AMAT AMAT.Spec AMAT.Data AMAT.Lits Filter Topology

theorem shipped_nonneg {name : String} {F : AtmFile} (hF : (name, F) ∈ shippedFiles) {P : Planet}
    (hP : Planet.init name = .ok P) {atm : Atmosphere} (hatm : LoadedCubic P F.km (fileRows F) atm) :
    ∀ h, 0 ≤ h → h ≤ P.hThres → 0 ≤ atm.densityInt h := by
  intro z hz0 hz1
  have := (C85_density_positive name F hF P hP atm hatm z).mpr hz1
  rw [Planet.density, if_pos ⟨hz0, hz1⟩] at this
  exact this.le

/-- The specific energy of a flight never increases. -/
theorem energy_antitone {name : String} {F : AtmFile} (hF : (name, F) ∈ shippedFiles) {P : Planet}
    (hP : Planet.init name = .ok P) {atm : Atmosphere} (hatm : LoadedCubic P F.km (fileRows F) atm)
    {m beta LD A alpha RN : ℝ} {u : Bool} {f : ℝ → ℝ} {st : InitState} (hm : 0 < m) (hb : 0 < beta) (hA : 0 < A)
    (hf : ∀ M, 0 ≤ f M) {delta : ℝ → ℝ} {y : ℝ → FState} {T : ℝ} {S : Finset ℝ}
    (hy : SwitchedFlight (fun t s => (Vehicle.mk' m beta LD A alpha RN P atm u f st).EOM s t (delta t)) y 0 T S)
    (hreg : ∀ t ∈ Set.Icc 0 T, (y t).r ≠ 0 ∧ 0 ≤ (y t).v) : AntitoneOn (fun t => specificEnergy P (y t)) (Set.Icc 0 T) := by
  have h := C18_switched_never_increases name P hP m beta LD A alpha RN atm u f st hm hb hA hf delta y 0 T S
    (shipped_nonneg hF hP hatm) hy (fun t ht => (hreg t ht).1) (fun t ht => (hreg t ht).2)
  intro s hs t ht hst
  simp only [specificEnergy_eq hP (hreg s hs).1, specificEnergy_eq hP (hreg t ht).1]
  exact mul_le_mul_of_nonneg_left (h hs ht hst) (sq_nonneg _)

/-- **C115**, altitude.  A vehicle below the altitude `H` whose energy is less than that of a vehicle at rest at that altitude
(at any latitude) stays below it, for every history of bank angles. -/
theorem C115_too_slow_to_climb (name : String) (F : AtmFile) (hF : (name, F) ∈ shippedFiles) (P : Planet)
    (hP : Planet.init name = .ok P) (atm : Atmosphere) (hatm : LoadedCubic P F.km (fileRows F) atm)
    (m beta LD A alpha RN : ℝ) (u : Bool) (f : ℝ → ℝ) (st : InitState) (hm : 0 < m) (hb : 0 < beta) (hA : 0 < A)
    (hf : ∀ M, 0 ≤ f M) (delta : ℝ → ℝ) (y : ℝ → FState) (T : ℝ) (S : Finset ℝ)
    (hy : SwitchedFlight (fun t s => (Vehicle.mk' m beta LD A alpha RN P atm u f st).EOM s t (delta t)) y 0 T S)
    (hreg : ∀ t ∈ Set.Icc 0 T, (y t).r ≠ 0 ∧ 0 ≤ (y t).v) (H : ℝ) (hH : (y 0).r * P.RP - P.RP < H)
    (hE : ∀ phi, specificEnergy P (y 0) < specificEnergy P (restAt P H phi)) :
    ∀ t ∈ Set.Icc 0 T, (y t).r * P.RP - P.RP < H := by
  obtain ⟨_, hR, _⟩ := C01_planet_consistent name P hP
  intro t ht
  by_contra hn
  have hc : ContinuousOn (fun s => (y s).r * P.RP - P.RP) (Set.Icc 0 t) :=
    ((hy.r.mono (Set.Icc_subset_Icc le_rfl ht.2)).mul continuousOn_const).sub continuousOn_const
  obtain ⟨s, hs, hsH⟩ := intermediate_value_Icc ht.1 hc ⟨hH.le, not_lt.mp hn⟩
  have hsT : s ∈ Set.Icc 0 T := ⟨hs.1, hs.2.trans ht.2⟩
  have h1 := energy_antitone hF hP hatm hm hb hA hf hy hreg ⟨le_rfl, hs.1.trans hsT.2⟩ hsT hs.1
  have h2 := hE (y s).phi
  have h3 : specificEnergy P (restAt P H (y s).phi) ≤ specificEnergy P (y s) := by
    have e : (y s).r = (P.RP + H) / P.RP := by
      rw [eq_div_iff hR.ne']
      simp only at hsH
      linarith
    unfold specificEnergy restAt
    rw [e]
    simp only
    have : 0 ≤ ((y s).v * P.Vref) ^ 2 / 2 := by positivity
    rw [zero_mul]
    linarith
  simp only at h1
  linarith

/-- **C115**, verdict.  `propogateEntry` does not give such a vehicle the exit flag 1 (left the atmosphere), provided the
integrator's samples lie on the flight. -/
theorem C115_too_slow_to_leave (name : String) (F : AtmFile) (hF : (name, F) ∈ shippedFiles) (P : Planet)
    (hP : Planet.init name = .ok P) (atm : Atmosphere) (hatm : LoadedCubic P F.km (fileRows F) atm)
    (m beta LD A alpha RN : ℝ) (u : Bool) (f : ℝ → ℝ) (st : InitState) (hm : 0 < m) (hb : 0 < beta) (hA : 0 < A)
    (hf : ∀ M, 0 ≤ f M) (mode : ScipyMode) (I : Integrator) (tSec dt deltaDeg T : ℝ) (out : PropOut)
    (hrun : (Vehicle.mk' m beta LD A alpha RN P atm u f st).propogateEntry mode I tSec dt deltaDeg = .ok out)
    (y : ℝ → FState) (S : Finset ℝ)
    (hy : SwitchedFlight (fun t s => (Vehicle.mk' m beta LD A alpha RN P atm u f st).EOM s t (deltaDeg * π / 180.0)) y 0 T S)
    (hreg : ∀ t ∈ Set.Icc 0 T, (y t).r ≠ 0 ∧ 0 ≤ (y t).v)
    (hsamp : ∀ p ∈ samples (Vehicle.mk' m beta LD A alpha RN P atm u f st) I tSec dt deltaDeg,
      p.1 ∈ Set.Icc 0 T ∧ p.2 = y p.1)
    (hH : (y 0).r * P.RP - P.RP < P.hSkip)
    (hE : ∀ phi, specificEnergy P (y 0) < specificEnergy P (restAt P P.hSkip phi)) :
    out.exitflag ≠ 1 ∧ ∀ r ∈ out.c.r, r - P.RP < P.hSkip := by
  obtain ⟨_, hR, _, _, _, hTr, hTS, _⟩ := C01_planet_consistent name P hP
  set V := Vehicle.mk' m beta LD A alpha RN P atm u f st with hV
  have hlow := C115_too_slow_to_climb name F hF P hP atm hatm m beta LD A alpha RN u f st hm hb hA hf
    (fun _ => deltaDeg * π / 180.0) y T S hy hreg P.hSkip hH hE
  have hpp : V.postProcess mode (TrajArrays.ofSamples (samples V I tSec dt deltaDeg)) (deltaDeg * π / 180.0) 0 = .ok out := hrun
  obtain ⟨idx, flag, qc, qr, heat, hc, -, -, -, rfl⟩ := postProcess_inv hpp
  have hall : ∀ r ∈ (V.planet.dimensionalizeArr (TrajArrays.ofSamples (samples V I tSec dt deltaDeg))).r,
      r - P.RP < P.hSkip := by
    intro r hr
    simp only [Planet.dimensionalizeArr, TrajArrays.ofSamples, List.map_map, List.mem_map, Function.comp_apply] at hr
    obtain ⟨p, hp, rfl⟩ := hr
    obtain ⟨h1, h2⟩ := hsamp p hp
    have := hlow p.1 h1
    rw [← h2] at this
    have e : V.planet = P := rfl
    rw [e]
    linarith
  refine ⟨?_, fun r hr => hall r (List.mem_of_mem_take hr)⟩
  intro hflag
  obtain ⟨idx', flag', h1, -, -, h2, -⟩ := C22_classification name P hP _ (classify_nonempty hc)
  have h3 : P.classifyTrajectory _ = .ok (idx, flag) := hc
  rw [h3] at h1
  obtain ⟨rfl, rfl⟩ : idx = idx' ∧ flag = flag' := by simpa using h1
  obtain ⟨x, hx, hlt⟩ := (h2.mp hflag).2
  linarith [hall x hx]

theorem potential_scaled_ge (J2 J3 : ℝ) {r : ℝ} (hr : 1 ≤ r) (phi : ℝ) :
    1 - (|J2| + 4 * |J3|) ≤ potential J2 J3 r phi * r := by
  have h := potential_scaled (-J2) (-J3) hr phi
  have h0 : r ≠ 0 := by linarith
  rw [abs_neg, abs_neg] at h
  have e : potential J2 J3 r phi * r + potential (-J2) (-J3) r phi * r = 2 := by
    unfold potential
    field_simp
    ring
  linarith

/-- Less energy than a state at radius `r` and speed `v` (in units of the planet) means less speed than in free fall from it. -/
theorem free_fall_of_energy {name : String} {P : Planet} (hP : Planet.init name = .ok P) {r φ v r' φ' v' : ℝ} (a1 : 1 ≤ r)
    (a2 : 1 ≤ r') (hE : jacobi P.J2 P.J3 P.OMEGAbar r' φ' v' ≤ jacobi P.J2 P.J3 P.OMEGAbar r φ v) :
    (v' * P.Vref) ^ 2 ≤ fallSq P (v * P.Vref) (r * P.RP) (r' * P.RP) := by
  obtain ⟨_, hR, hGM, _, _, _, _, _, hV, htau, hVR, htV, hOm, _⟩ := C01_planet_consistent name P hP
  have p0 : 0 < r := by linarith
  have q0 : 0 < r' := by linarith
  have l1 := potential_scaled P.J2 P.J3 a2 φ'
  have l2 := potential_scaled_ge P.J2 P.J3 a1 φ
  rw [← le_div_iff₀ q0] at l1
  rw [← div_le_iff₀ p0] at l2
  unfold jacobi at hE
  have hc : P.OMEGAbar ^ 2 * (r' * cos φ') ^ 2 ≤ P.OMEGAbar ^ 2 * r' ^ 2 := by
    have := cos_sq_le_one φ'
    rw [mul_pow]
    have : r' ^ 2 * cos φ' ^ 2 ≤ r' ^ 2 * 1 := by gcongr
    nlinarith [sq_nonneg P.OMEGAbar]
  have hc0 : 0 ≤ P.OMEGAbar ^ 2 * (r * cos φ) ^ 2 := by positivity
  have key : v' ^ 2 ≤ v ^ 2 + 2 * ((1 + |P.J2| + 4 * |P.J3|) / r' - (1 - (|P.J2| + 4 * |P.J3|)) / r)
      + P.OMEGAbar ^ 2 * r' ^ 2 := by linarith
  have hO : P.OMEGAbar * P.Vref = P.OMEGA * P.RP := by rw [hOm, mul_assoc, htV]
  unfold fallSq
  have e : (P.OMEGA * (r' * P.RP)) ^ 2 = P.Vref ^ 2 * (P.OMEGAbar ^ 2 * r' ^ 2) := by
    rw [show P.OMEGA * (r' * P.RP) = (P.OMEGA * P.RP) * r' by ring, ← hO]; ring
  rw [e, ← hVR]
  calc (v' * P.Vref) ^ 2 = P.Vref ^ 2 * v' ^ 2 := by ring
    _ ≤ P.Vref ^ 2 * _ := mul_le_mul_of_nonneg_left key (by positivity)
    _ = _ := by
      rw [show (1 + |P.J2| + 4 * |P.J3|) = 1 + (|P.J2| + 4 * |P.J3|) by ring]
      generalize |P.J2| + 4 * |P.J3| = j
      field_simp
      ring

/-- **C115**, speed.  On a flight at or above the surface no speed exceeds that of free fall from any earlier point. -/
theorem C115_speed_of_free_fall (name : String) (F : AtmFile) (hF : (name, F) ∈ shippedFiles) (P : Planet)
    (hP : Planet.init name = .ok P) (atm : Atmosphere) (hatm : LoadedCubic P F.km (fileRows F) atm)
    (m beta LD A alpha RN : ℝ) (u : Bool) (f : ℝ → ℝ) (st : InitState) (hm : 0 < m) (hb : 0 < beta) (hA : 0 < A)
    (hf : ∀ M, 0 ≤ f M) (delta : ℝ → ℝ) (y : ℝ → FState) (T : ℝ) (S : Finset ℝ)
    (hy : SwitchedFlight (fun t s => (Vehicle.mk' m beta LD A alpha RN P atm u f st).EOM s t (delta t)) y 0 T S)
    (hreg : ∀ t ∈ Set.Icc 0 T, 0 ≤ (y t).r * P.RP - P.RP ∧ 0 ≤ (y t).v) (s t : ℝ) (hs : 0 ≤ s) (hst : s ≤ t) (ht : t ≤ T) :
    ((y t).v * P.Vref) ^ 2 ≤ fallSq P ((y s).v * P.Vref) ((y s).r * P.RP) ((y t).r * P.RP) := by
  obtain ⟨_, hR, hGM, _, _, _, _, _, hV, htau, hVR, htV, hOm, _⟩ := C01_planet_consistent name P hP
  have h1 : ∀ t ∈ Set.Icc 0 T, 1 ≤ (y t).r := fun t ht => by
    by_contra hn
    have := mul_lt_mul_of_pos_right (not_le.mp hn) hR
    linarith [(hreg t ht).1]
  have hs' : s ∈ Set.Icc 0 T := ⟨hs, hst.trans ht⟩
  have ht' : t ∈ Set.Icc 0 T := ⟨hs.trans hst, ht⟩
  have hE := energy_antitone hF hP hatm hm hb hA hf hy
    (fun t ht => ⟨by have := h1 t ht; linarith, (hreg t ht).2⟩) hs' ht' hst
  have a1 := h1 s hs'
  have a2 := h1 t ht'
  have p0 : 0 < (y s).r := by linarith
  have q0 : 0 < (y t).r := by linarith
  simp only [specificEnergy_eq hP p0.ne', specificEnergy_eq hP q0.ne'] at hE
  exact free_fall_of_energy hP a1 a2 (le_of_mul_le_mul_left hE (by positivity))

/-- **C115**, heating.  At every point of such a flight the stagnation-point heat rates are at most those of a vehicle in free
fall from any earlier point. -/
theorem C115_heating_of_free_fall (name : String) (F : AtmFile) (hF : (name, F) ∈ shippedFiles) (P : Planet)
    (hP : Planet.init name = .ok P) (atm : Atmosphere) (hatm : LoadedCubic P F.km (fileRows F) atm)
    (m beta LD A alpha RN : ℝ) (u : Bool) (f : ℝ → ℝ) (st : InitState) (hm : 0 < m) (hb : 0 < beta) (hA : 0 < A)
    (hRN : 0 < RN) (hf : ∀ M, 0 ≤ f M) (delta : ℝ → ℝ) (y : ℝ → FState) (T : ℝ) (S : Finset ℝ)
    (hy : SwitchedFlight (fun t s => (Vehicle.mk' m beta LD A alpha RN P atm u f st).EOM s t (delta t)) y 0 T S)
    (hreg : ∀ t ∈ Set.Icc 0 T, 0 ≤ (y t).r * P.RP - P.RP ∧ 0 ≤ (y t).v) :
    ∃ qc qr, qConvFn P.ID = some qc ∧ qRadFn P.ID = some qr ∧ ∀ s t : ℝ, 0 ≤ s → s ≤ t → t ≤ T →
      let rho := P.density atm ((y t).r * P.RP - P.RP)
      let vmax := sqrt (fallSq P ((y s).v * P.Vref) ((y s).r * P.RP) ((y t).r * P.RP))
      qc RN rho ((y t).v * P.Vref) + qr RN rho ((y t).v * P.Vref) ≤ qc RN rho vmax + qr RN rho vmax := by
  obtain ⟨_, hR, _, _, _, _, _, _, hV, _⟩ := C01_planet_consistent name P hP
  obtain ⟨qc, qr, h1, h2, lc, lr, -⟩ := C25_heat_laws name P hP
  refine ⟨qc, qr, h1, h2, fun s t hs hst ht => ?_⟩
  have hcap := C115_speed_of_free_fall name F hF P hP atm hatm m beta LD A alpha RN u f st hm hb hA hf delta y T S hy hreg
    s t hs hst ht
  have ht' : t ∈ Set.Icc 0 T := ⟨hs.trans hst, ht⟩
  have hv : 0 ≤ (y t).v * P.Vref := mul_nonneg (hreg t ht').2 hV.le
  have hle := Real.le_sqrt_of_sq_le hcap
  have hd : 0 ≤ P.density atm ((y t).r * P.RP - P.RP) :=
    (C03_density_nonneg name P hP atm (shipped_nonneg hF hP hatm) ((y t).r * P.RP) 0 0).1
  exact add_le_add ((lc RN hRN).2.2.2 _ _ _ hd hv hle) ((lr RN hRN).2.2.2 _ _ _ hd hv hle)

/-- **C115**, speeds as reported.  In the histories of `propogateEntry` no speed exceeds that of free fall from an earlier
entry, provided the reported samples lie on a flight at or above the surface. -/
theorem C115_reported_speeds (name : String) (F : AtmFile) (hF : (name, F) ∈ shippedFiles) (P : Planet)
    (hP : Planet.init name = .ok P) (atm : Atmosphere) (hatm : LoadedCubic P F.km (fileRows F) atm)
    (m beta LD A alpha RN : ℝ) (u : Bool) (f : ℝ → ℝ) (st : InitState) (hm : 0 < m) (hb : 0 < beta) (hA : 0 < A)
    (hf : ∀ M, 0 ≤ f M) (mode : ScipyMode) (I : Integrator) (hI : OdeintLike I) (tSec dt deltaDeg T : ℝ) (hts : 0 ≤ tSec)
    (hdt : 0 < dt) (out : PropOut)
    (hrun : (Vehicle.mk' m beta LD A alpha RN P atm u f st).propogateEntry mode I tSec dt deltaDeg = .ok out)
    (y : ℝ → FState) (S : Finset ℝ)
    (hy : SwitchedFlight (fun t s => (Vehicle.mk' m beta LD A alpha RN P atm u f st).EOM s t (deltaDeg * π / 180.0)) y 0 T S)
    (hreg : ∀ t ∈ Set.Icc 0 T, 0 ≤ (y t).r * P.RP - P.RP ∧ 0 ≤ (y t).v)
    (hsamp : ∀ p ∈ (samples (Vehicle.mk' m beta LD A alpha RN P atm u f st) I tSec dt deltaDeg).take out.index,
      p.1 ≤ T ∧ p.2 = y p.1) (i j : ℕ) (hij : i ≤ j) (ri rj vi vj : ℝ) (hri : out.c.r[i]? = some ri)
    (hrj : out.c.r[j]? = some rj) (hvi : out.c.v[i]? = some vi) (hvj : out.c.v[j]? = some vj) :
    vj ^ 2 ≤ fallSq P vi ri rj := by
  obtain ⟨_, hR, _, _, _, _, _, _, _, htau, _⟩ := C01_planet_consistent name P hP
  set V := Vehicle.mk' m beta LD A alpha RN P atm u f st with hV
  have eP : V.planet = P := rfl
  obtain ⟨g1, g2⟩ := tGrid_get name P hP tSec dt hts hdt
  have hpp : V.postProcess mode (TrajArrays.ofSamples (samples V I tSec dt deltaDeg)) (deltaDeg * π / 180.0) 0 = .ok out := hrun
  obtain ⟨idx, flag, qc, qr, heat, hc, -, -, -, rfl⟩ := postProcess_inv hpp
  have hg := (hI (fun t y => V.EOM y t (deltaDeg * π / 180.0)) (V.planet.nonDimState (Vehicle.entryState V.planet V.init))
    (Vehicle.tGrid V.planet tSec dt)).1
  have key : ∀ {k : ℕ} {r v : ℝ},
      ((V.planet.dimensionalizeArr (TrajArrays.ofSamples (samples V I tSec dt deltaDeg))).truncate idx).r[k]? = some r →
      ((V.planet.dimensionalizeArr (TrajArrays.ofSamples (samples V I tSec dt deltaDeg))).truncate idx).v[k]? = some v →
      k * dt / P.tau ∈ Set.Icc 0 T ∧ r = (y (k * dt / P.tau)).r * P.RP ∧ v = (y (k * dt / P.tau)).v * P.Vref := by
    intro k r v h1 h2
    simp only [TrajArrays.truncate, Planet.dimensionalizeArr, TrajArrays.ofSamples, ← List.map_take,
      List.map_map, List.getElem?_map, Option.map_eq_some_iff, Function.comp_apply] at h1 h2
    obtain ⟨p, hp, rfl⟩ := h1
    rw [hp] at h2
    obtain ⟨p', hp', rfl⟩ := h2
    obtain rfl := Option.some.inj hp'
    obtain ⟨hT, he⟩ := hsamp p (List.mem_of_getElem? hp)
    have hp2 : (samples V I tSec dt deltaDeg)[k]? = some p := by
      rw [List.getElem?_take] at hp
      split at hp
      · exact hp
      · simp at hp
    have hlen : k < (Vehicle.tGrid V.planet tSec dt).length := by
      have := (List.getElem?_eq_some_iff.mp hp2).1
      have h5 := congrArg List.length hg
      rw [List.length_map] at h5
      unfold samples at this
      omega
    have htime : p.1 = k * dt / P.tau := by
      have h6 : ((samples V I tSec dt deltaDeg).map Prod.fst)[k]? = some p.1 := by rw [List.getElem?_map, hp2]; rfl
      unfold samples at h6
      rw [hg, eP, g2 k (by rw [eP, g1] at hlen; exact hlen)] at h6
      exact (Option.some.inj h6).symm
    rw [← htime, ← he, eP]
    refine ⟨⟨by rw [htime]; positivity, hT⟩, ?_, ?_⟩ <;> ring
  obtain ⟨hti, e1, e2⟩ := key hri hvi
  obtain ⟨htj, e3, e4⟩ := key hrj hvj
  rw [e1, e2, e3, e4]
  refine C115_speed_of_free_fall name F hF P hP atm hatm m beta LD A alpha RN u f st hm hb hA hf _ y T S hy hreg _ _ hti.1 ?_
    htj.2
  have : (i:ℝ) ≤ j := by exact_mod_cast hij
  gcongr

/-- Energy at rest, from below. -/
theorem rest_energy_ge {name : String} {P : Planet} (hP : Planet.init name = .ok P) {H : ℝ} (hH : 0 ≤ H) (phi : ℝ) :
    -(P.GM / (P.RP + H) * (1 + |P.J2| + 4 * |P.J3|)) - (P.OMEGA * (P.RP + H)) ^ 2 / 2 ≤ specificEnergy P (restAt P H phi) := by
  obtain ⟨_, hR, hGM, _, _, _, _, _, hV, htau, hVR, htV, hOm, _⟩ := C01_planet_consistent name P hP
  have hr : 1 ≤ (P.RP + H) / P.RP := by rw [le_div_iff₀ hR]; linarith
  have hr0 : 0 < (P.RP + H) / P.RP := by linarith
  rw [specificEnergy_eq hP (s := restAt P H phi) hr0.ne']
  have h1 := potential_scaled P.J2 P.J3 hr phi
  rw [← le_div_iff₀ hr0] at h1
  have hO : P.OMEGAbar * P.Vref = P.OMEGA * P.RP := by rw [hOm, mul_assoc, htV]
  have hc := cos_sq_le_one phi
  unfold jacobi restAt
  simp only
  have e1 : P.GM / (P.RP + H) * (1 + |P.J2| + 4 * |P.J3|) = P.Vref ^ 2 * ((1 + |P.J2| + 4 * |P.J3|) / ((P.RP + H) / P.RP)) := by
    rw [← hVR]
    have : P.RP + H ≠ 0 := by linarith
    field_simp
  have e2 : (P.OMEGA * (P.RP + H)) ^ 2 / 2 = P.Vref ^ 2 * (P.OMEGAbar ^ 2 * ((P.RP + H) / P.RP) ^ 2 / 2) := by
    rw [show P.Vref ^ 2 * (P.OMEGAbar ^ 2 * ((P.RP + H) / P.RP) ^ 2 / 2)
      = (P.OMEGAbar * P.Vref) ^ 2 * ((P.RP + H) / P.RP) ^ 2 / 2 by ring, hO]
    field_simp
  rw [e1, e2, ← mul_neg, ← mul_sub]
  refine mul_le_mul_of_nonneg_left ?_ (sq_nonneg _)
  have e3 : P.OMEGAbar ^ 2 * ((P.RP + H) / P.RP * cos phi) ^ 2 / 2 ≤ P.OMEGAbar ^ 2 * ((P.RP + H) / P.RP) ^ 2 / 2 := by
    have : ((P.RP + H) / P.RP * cos phi) ^ 2 ≤ ((P.RP + H) / P.RP) ^ 2 := by
      rw [mul_pow]
      exact mul_le_of_le_one_right (sq_nonneg _) hc
    have := mul_le_mul_of_nonneg_left this (sq_nonneg P.OMEGAbar)
    linarith
  linarith

/-- Case: 50 km above Mars at 500 m/s.  The vehicle has too little energy to leave, a simulation of its flight on the exact
solution ends without the exit flag 1, and its speeds obey the bound. -/
theorem C115_mars_case : ∃ (P : Planet) (atm : Atmosphere) (y : ℝ → FState) (dt : ℝ) (out : PropOut),
    Planet.init "MARS" = .ok P ∧ LoadedCubic P mars.km (fileRows mars) atm ∧ 0 < dt ∧
    y 0 = P.nonDimState (Vehicle.entryState P ⟨50, 0, 0, 0.5, 0, 10, 0, 0⟩) ∧
    (∀ phi, specificEnergy P (y 0) < specificEnergy P (restAt P P.hSkip phi)) ∧
    (Vehicle.mk' 1000 100 0.2 10 0 1 P atm true demoCurve ⟨50, 0, 0, 0.5, 0, 10, 0, 0⟩).propogateEntry .strict
      (traceIntegrator y) dt dt 60 = .ok out ∧ out.exitflag ≠ 1 ∧
    ∀ t ∈ Set.Icc 0 (dt / P.tau), ((y t).v * P.Vref) ^ 2 ≤ fallSq P 500 (P.RP + 50000) ((y t).r * P.RP) := by
  obtain ⟨P, hP⟩ := (C01_planet_names "MARS").1.mpr (by simp [Spec.bodies])
  have hF : ("MARS", mars) ∈ shippedFiles := by simp [shippedFiles]
  obtain ⟨atm, hatm⟩ := (C85_loads "MARS" mars hF P hP).1
  obtain ⟨_, hR, hGM0, _, _, _, _, _, hV, htau, hVR, _⟩ := C01_planet_consistent "MARS" P hP
  have hRv : P.RP = 3389500 := by simp [Planet.init] at hP; subst hP; norm_num [Planet.withScales]
  have hGM : P.GM = 42828370000000 := by simp [Planet.init] at hP; subst hP; norm_num [Planet.withScales]
  have hTh : P.hThres = 120000 := by simp [Planet.init] at hP; subst hP; norm_num [Planet.withScales]
  have hSk : P.hSkip = 120000 := by simp [Planet.init] at hP; subst hP; norm_num [Planet.withScales]
  have hTr : P.hTrap = 10000 := by simp [Planet.init] at hP; subst hP; norm_num [Planet.withScales]
  have hJ2 : P.J2 = 196045 / 100000000 := by simp [Planet.init] at hP; subst hP; norm_num [Planet.withScales]
  have hJ3 : P.J3 = 315 / 10000000 := by simp [Planet.init] at hP; subst hP; norm_num [Planet.withScales]
  have hOm : P.OMEGA = 7088253 / 100000000000 := by simp [Planet.init] at hP; subst hP; norm_num [Planet.withScales]
  set st : InitState := ⟨50, 0, 0, 0.5, 0, 10, 0, 0⟩ with hst
  set s0 : FState := P.nonDimState (Vehicle.entryState P st) with hs0def
  have halt : s0.r * P.RP = P.RP + 50000 := by
    change (P.RP + 50 * 1.0E3) / P.RP * P.RP = P.RP + 50000
    rw [div_mul_cancel₀ _ hR.ne']
    norm_num
  have hv0 : s0.v * P.Vref = 500 := by
    change 0.5 * 1.000E3 / P.Vref * P.Vref = 500
    rw [div_mul_cancel₀ _ hV.ne']
    norm_num
  have hg0 : s0.gamma = π / 18 := by
    change 10 * π / 180.0 = π / 18
    rw [show (180.0 : ℝ) = 180 by norm_num]; ring
  have hp0 : s0.phi = 0 := by
    change 0 * π / 180.0 = 0
    rw [zero_mul, zero_div]
  have hvpos : 0 < s0.v := by
    by_contra hn
    have := mul_nonpos_of_nonpos_of_nonneg (not_lt.mp hn) hV.le
    rw [hv0] at this
    norm_num at this
  have hdep : Departure P s0 := by
    refine ⟨hvpos.ne', by rw [hp0, cos_zero]; norm_num, ?_, by rw [halt]; norm_num, ?_⟩
    · rw [hg0]
      have h4 := pi_le_four
      have : 0 < cos (π / 18) := cos_pos_of_mem_Ioo ⟨by linarith [pi_pos], by linarith [pi_pos]⟩
      intro h
      rw [h] at this
      norm_num at this
    · intro h
      rw [halt, hTh] at h
      norm_num at h
  have hfc : ∀ M, 0 ≤ demoCurve M := fun M => (demoCurve_pos M).le
  obtain ⟨y, b, hb, hy0, hyd, hy⟩ := (C88_forward_flight "MARS" mars hF P hP atm hatm 1000 100 0.2 10 0 1 true demoCurve st
    (fun _ => demoCurve_smooth) (60 * π / 180.0) 0 s0 hdep).1
  have hvn : ∀ t ∈ Set.Icc 0 b, 0 ≤ (y t).v := by
    intro t ht
    by_contra hn
    have hc : ContinuousOn (fun s => (y s).v) (Set.Icc 0 t) := hy.v.mono (Set.Icc_subset_Icc le_rfl ht.2)
    obtain ⟨s, hs, hs0⟩ := intermediate_value_Icc' ht.1 hc (show (0:ℝ) ∈ Set.Icc (y t).v (y 0).v from
      ⟨(not_le.mp hn).le, by rw [hy0]; exact hvpos.le⟩)
    exact (hyd s ⟨hs.1, hs.2.trans ht.2⟩).v hs0
  have hE : ∀ phi, specificEnergy P (y 0) < specificEnergy P (restAt P P.hSkip phi) := by
    intro phi
    refine lt_of_lt_of_le ?_ (rest_energy_ge hP (by rw [hSk]; norm_num) phi)
    rw [hy0]
    unfold specificEnergy
    rw [halt, hv0, hp0, sin_zero, cos_zero, hRv, hGM, hJ2, hJ3, hOm, hSk]
    norm_num [abs_of_pos]
  have hreg : ∀ t ∈ Set.Icc 0 b, (y t).r ≠ 0 ∧ 0 ≤ (y t).v := fun t ht => ⟨departure_r hP (hyd t ht), hvn t ht⟩
  have hlow := C115_too_slow_to_climb "MARS" mars hF P hP atm hatm 1000 100 0.2 10 0 1 true demoCurve st (by norm_num)
    (by norm_num) (by norm_num) hfc (fun _ => 60 * π / 180.0) y b ∅ hy hreg P.hSkip
    (by rw [hy0, halt, hSk]; norm_num) hE
  set dt := P.tau * b with hdtdef
  have hdt : 0 < dt := mul_pos htau hb
  have hdtb : dt / P.tau = b := by rw [hdtdef]; field_simp
  set V := Vehicle.mk' 1000 100 0.2 10 0 1 P atm true demoCurve st with hVdef
  have hVP : V.planet = P := rfl
  have hgrid : Vehicle.tGrid P dt dt = [0, b] := by
    obtain ⟨g1, g2⟩ := tGrid_get "MARS" P hP dt dt hdt.le hdt
    rw [div_self hdt.ne', Nat.ceil_one] at g1 g2
    have a0 := g2 0 (by norm_num)
    have a1 := g2 1 (by norm_num)
    rw [Nat.cast_zero, zero_mul, zero_div] at a0
    rw [Nat.cast_one, one_mul, hdtb] at a1
    match hg : Vehicle.tGrid P dt dt, g1 with
    | [x, z], _ =>
      rw [hg] at a0 a1
      simp at a0 a1
      rw [a0, a1]
  have hsam : samples V (traceIntegrator y) dt dt 60 = [(0, y 0), (b, y b)] := by
    unfold samples traceIntegrator
    rw [hVP, hgrid, hy0]
    rfl
  have hsm : ∀ p ∈ samples V (traceIntegrator y) dt dt 60, p.1 ∈ Set.Icc 0 b ∧ p.2 = y p.1 := by
    rw [hsam]
    intro p hp
    simp only [List.mem_cons, List.not_mem_nil, or_false] at hp
    rcases hp with rfl | rfl
    · exact ⟨⟨le_rfl, hb.le⟩, rfl⟩
    · exact ⟨⟨hb.le, le_rfl⟩, rfl⟩
  obtain ⟨out, ho⟩ := C24_returns_inside "MARS" V hP .strict (traceIntegrator y) dt dt 60 _ _ hsam
    (by rw [hVP, hy0, halt, hTr]; norm_num) (by rw [hVP, hy0, halt, hSk]; norm_num) (by
      rintro ⟨-, q, hq, hq1⟩
      rw [← hsam] at hq
      obtain ⟨h1, h2⟩ := hsm q hq
      have := hlow q.1 h1
      rw [← h2] at this
      rw [hVP] at hq1
      linarith)
  refine ⟨P, atm, y, dt, out, hP, hatm, hdt, hy0, hE, ho, ?_, ?_⟩
  · exact (C115_too_slow_to_leave "MARS" mars hF P hP atm hatm 1000 100 0.2 10 0 1 true demoCurve st (by norm_num)
      (by norm_num) (by norm_num) hfc .strict (traceIntegrator y) dt dt 60 b out ho y ∅ hy hreg hsm
      (by rw [hy0, halt, hSk]; norm_num) hE).1
  · intro t ht
    rw [hdtb] at ht
    have := C115_speed_of_free_fall "MARS" mars hF P hP atm hatm 1000 100 0.2 10 0 1 true demoCurve st (by norm_num)
      (by norm_num) (by norm_num) hfc (fun _ => 60 * π / 180.0) y b ∅ hy
      (fun t ht => ⟨(hyd t ht).alt.le, hvn t ht⟩) 0 t le_rfl ht.1 ht.2
    rw [hy0, hv0, halt] at this
    exact this

end AMAT.Props
