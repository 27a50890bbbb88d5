import Mathlib.Topology.UniformSpace.HeineCantor
import Verif.Props.HeatIntegral
import Verif.Props.Pressures

/-
C108: the peak loads read off the stored histories tend to the peak loads of the flight.
-/

noncomputable section

open Real

namespace AMAT.Spec

/-- The numbers `M n` tend to the largest value of `q` on `[0, T]`, which is attained. -/
def TendsToPeak (q : ℝ → ℝ) (T : ℝ) (M : ℕ → ℝ) : Prop :=
  ∃ ts ∈ Set.Icc 0 T, (∀ t ∈ Set.Icc 0 T, q t ≤ q ts) ∧ Filter.Tendsto M Filter.atTop (nhds (q ts))

end AMAT.Spec

namespace AMAT.Props

open Real AMAT AMAT.Spec AMAT.Data AMAT.Lits Filter Topology

/-- The largest sample of a quantity that is continuous along a curve tends to its largest value on the curve. -/
theorem peak_limit {τ T : ℝ} (htau : 0 < τ) (hT : 0 ≤ T) (y : ℝ → FState) (g : ℝ × ℝ → ℝ)
    (hcr : ContinuousOn (fun t => (y t).r) (Set.Icc 0 (T / τ))) (hcv : ContinuousOn (fun t => (y t).v) (Set.Icc 0 (T / τ)))
    (hg : ∀ t ∈ Set.Icc 0 (T / τ), ContinuousAt g ((y t).r, (y t).v)) (S : ℕ → List (ℝ × FState)) (dt δ : ℕ → ℝ) (k : ℕ → ℕ)
    (hdt : ∀ n, 0 < dt n) (hdt0 : Tendsto dt atTop (𝓝 0)) (hδ : Tendsto δ atTop (𝓝 0))
    (hlen : ∀ n, (S n).length = k n + 1) (htime : ∀ n (j : ℕ) p, (S n)[j]? = some p → p.1 = j * dt n / τ)
    (hkT : ∀ n, k n * dt n ≤ T) (hkl : Tendsto (fun n => k n * dt n) atTop (𝓝 T))
    (hnear : ∀ n, ∀ p ∈ S n, Near (δ n) p.2 (y p.1)) (M : ℕ → ℝ)
    (hM : ∀ n, pyMax ((S n).map fun p => g (p.2.r, p.2.v)) = .ok (M n)) :
    ∃ ts ∈ Set.Icc 0 (T / τ), (∀ t ∈ Set.Icc 0 (T / τ), g ((y t).r, (y t).v) ≤ g ((y ts).r, (y ts).v)) ∧
      Tendsto M atTop (𝓝 (g ((y ts).r, (y ts).v))) := by
  have hT' : 0 ≤ T / τ := by positivity
  have hcy : ContinuousOn (fun t => ((y t).r, (y t).v)) (Set.Icc 0 (T / τ)) := hcr.prodMk hcv
  have hcg : ContinuousOn (fun t => g ((y t).r, (y t).v)) (Set.Icc 0 (T / τ)) := fun t ht =>
    (hg t ht).comp_continuousWithinAt (f := fun t => ((y t).r, (y t).v)) (hcy t ht)
  obtain ⟨ts, hts, hmax⟩ := isCompact_Icc.exists_isMaxOn ⟨0, le_rfl, hT'⟩ hcg
  have hmax' : ∀ t ∈ Set.Icc 0 (T / τ), g ((y t).r, (y t).v) ≤ g ((y ts).r, (y ts).v) := fun t ht => hmax ht
  refine ⟨ts, hts, hmax', ?_⟩
  -- samples are close to the curve, uniformly
  have hunif : ∀ ε > 0, ∀ᶠ n in atTop, ∀ p ∈ S n, p.1 ∈ Set.Icc 0 (T / τ) →
      |g (p.2.r, p.2.v) - g ((y p.1).r, (y p.1).v)| < ε := by
    intro ε hε
    have hK := isCompact_Icc.image_of_continuousOn hcy
    have hu := hK.uniformContinuousAt_of_continuousAt g (by
      rintro _ ⟨t, ht, rfl⟩
      exact hg t ht) (Metric.dist_mem_uniformity hε)
    obtain ⟨η, hη, hsub⟩ := Metric.mem_uniformity_dist.mp hu
    filter_upwards [hδ.eventually (gt_mem_nhds hη)] with n hn p hp ht
    have hnp := hnear n p hp
    have h1 := @hsub ((y p.1).r, (y p.1).v) (p.2.r, p.2.v) (by
      rw [Prod.dist_eq, max_lt_iff, Real.dist_eq, Real.dist_eq, abs_sub_comm, abs_sub_comm (y p.1).v]
      exact ⟨hnp.r.trans_lt hn, hnp.v.trans_lt hn⟩) ⟨p.1, ht, rfl⟩
    rw [abs_sub_comm]
    exact h1
  have hin : ∀ n, ∀ p ∈ S n, p.1 ∈ Set.Icc 0 (T / τ) := by
    intro n p hp
    obtain ⟨j, hj⟩ := List.mem_iff_getElem?.mp hp
    have hjl := (List.getElem?_eq_some_iff.mp hj).1
    rw [hlen] at hjl
    rw [htime n j p hj]
    have hd := (hdt n).le
    refine ⟨by positivity, div_le_div_of_nonneg_right ?_ htau.le⟩
    have : (j:ℝ) ≤ k n := by exact_mod_cast Nat.lt_succ_iff.mp hjl
    exact (mul_le_mul_of_nonneg_right this hd).trans (hkT n)
  have hspec : ∀ n, (∃ p ∈ S n, M n = g (p.2.r, p.2.v)) ∧ ∀ p ∈ S n, g (p.2.r, p.2.v) ≤ M n := by
    intro n
    have hne : (S n).map (fun p => g (p.2.r, p.2.v)) ≠ [] := by
      intro h
      have := congrArg List.length h
      simp [hlen] at this
    obtain ⟨m, hm, h1, h2⟩ := pyMax_spec hne
    rw [hM n] at hm
    obtain rfl := Except.ok.inj hm
    obtain ⟨p, hp, hpe⟩ := List.mem_map.mp h1
    exact ⟨⟨p, hp, hpe.symm⟩, fun p hp => h2 _ (List.mem_map.mpr ⟨p, hp, rfl⟩)⟩
  rw [Metric.tendsto_atTop']
  intro ε hε
  obtain ⟨η, hη, hc⟩ := Metric.continuousWithinAt_iff.mp (hcg ts hts) (ε / 2) (by linarith)
  have e1 : ∀ᶠ n in atTop, dt n / τ < η := by
    have : Tendsto (fun n => dt n / τ) atTop (𝓝 0) := by simpa using hdt0.div_const τ
    exact this.eventually (gt_mem_nhds hη)
  have e2 : ∀ᶠ n in atTop, (T - k n * dt n) / τ < η := by
    have : Tendsto (fun n => (T - k n * dt n) / τ) atTop (𝓝 0) := by simpa using (hkl.const_sub T).div_const τ
    exact this.eventually (gt_mem_nhds hη)
  obtain ⟨N, hN⟩ := eventually_atTop.mp ((hunif (ε / 2) (by linarith)).and (e1.and e2))
  refine ⟨N, fun n hn => ?_⟩
  obtain ⟨hu, h1, h2⟩ := hN n hn.le
  obtain ⟨⟨p, hp, hpe⟩, hge⟩ := hspec n
  rw [Real.dist_eq, abs_lt]
  constructor
  · -- a sample near the time of the peak
    obtain ⟨j, hjk, hj⟩ : ∃ j ≤ k n, |j * dt n / τ - ts| < η := by
      have hd := hdt n
      by_cases hc : ts * τ ≤ k n * dt n
      · refine ⟨⌊ts * τ / dt n⌋₊, ?_, ?_⟩
        · refine Nat.floor_le_of_le ?_
          rw [div_le_iff₀ hd]
          exact hc
        · have f1 := Nat.floor_le (show 0 ≤ ts * τ / dt n from div_nonneg (mul_nonneg hts.1 htau.le) hd.le)
          have f2 := Nat.lt_floor_add_one (ts * τ / dt n)
          rw [le_div_iff₀ hd] at f1
          rw [div_lt_iff₀ hd] at f2
          have g1 : (⌊ts * τ / dt n⌋₊ : ℝ) * dt n / τ ≤ ts := by rwa [div_le_iff₀ htau]
          have g2 : ts < (⌊ts * τ / dt n⌋₊ : ℝ) * dt n / τ + dt n / τ := by
            rw [← add_div, lt_div_iff₀ htau]
            linarith
          rw [abs_lt]
          constructor <;> linarith
      · refine ⟨k n, le_rfl, ?_⟩
        have g1 : (k n : ℝ) * dt n / τ < ts := by
          rw [div_lt_iff₀ htau]; exact not_le.mp hc
        have g2 := hts.2
        rw [sub_div] at h2
        rw [abs_lt]
        constructor <;> linarith
    have hjl : j < (S n).length := by rw [hlen]; omega
    have hp' : (S n)[j]? = some (S n)[j] := List.getElem?_eq_getElem hjl
    have hm : (S n)[j] ∈ S n := List.getElem_mem hjl
    have h3 := abs_lt.mp (hu _ hm (hin n _ hm))
    have h4 := hge _ hm
    have h5 := @hc (S n)[j].1 (hin n _ hm) (by rw [Real.dist_eq, htime n j _ hp']; exact hj)
    rw [Real.dist_eq, abs_lt] at h5
    linarith [h3.1, h5.1]
  · have h3 := abs_lt.mp (hu p hp (hin n p hp))
    have h4 := hmax' p.1 (hin n p hp)
    rw [hpe]
    linarith [h3.2]

/-- The density of a shipped atmosphere, continued above its edge by the value there, is continuous above the surface. -/
theorem capped_continuousAt {name : String} {F : AtmFile} (hF : (name, F) ∈ shippedFiles) {P : Planet}
    (hP : Planet.init name = .ok P) {atm : Atmosphere} (hatm : LoadedCubic P F.km (fileRows F) atm) {h : ℝ} (hh : 0 < h) :
    ContinuousAt (fun h => atm.densityInt (min h P.hThres)) h := by
  obtain ⟨_, _, _, _, _, hTr, hTS, hST, _⟩ := C01_planet_consistent name P hP
  have hT : 0 < P.hThres := by linarith
  obtain ⟨ra, hra, rb, hrb, e0, e1⟩ := table_covers hF hP
  rcases lt_or_ge h P.hThres with hlt | hge
  · have hdc : ContinuousAt atm.densityInt h :=
      (Spline.interp_contDiffAt hatm.2.2.1 (List.mem_map.mpr ⟨ra, hra, rfl⟩) (List.mem_map.mpr ⟨rb, hrb, rfl⟩)
        (lt_of_le_of_lt e0 hh) (lt_of_lt_of_le hlt e1)).continuousAt
    refine hdc.congr ?_
    filter_upwards [gt_mem_nhds hlt] with x hx
    rw [min_eq_left (le_of_lt hx)]
  · obtain ⟨p, hp, c, hc, hpe⟩ := Spline.interp_left_polynomial hatm.2.2.1 (t := P.hThres)
      (List.mem_map.mpr ⟨ra, hra, rfl⟩) (List.mem_map.mpr ⟨rb, hrb, rfl⟩) (lt_of_le_of_lt e0 hT) e1
    have : ContinuousAt (fun h => p (min h P.hThres)) h :=
      (hp.continuous.comp (continuous_id.min continuous_const)).continuousAt
    refine this.congr ?_
    filter_upwards [lt_mem_nhds (lt_of_lt_of_le hc hge)] with x hx
    exact (hpe _ (le_min (le_of_lt hx) hc.le) (min_le_right _ _)).symm

/-- The convective rate is continuous in density and speed. -/
theorem conv_continuous (name : String) (P : Planet) (hP : Planet.init name = .ok P) {qc : ℝ → ℝ → ℝ → ℝ}
    (hc : qConvFn P.ID = some qc) (RN : ℝ) : Continuous fun p : ℝ × ℝ => qc RN p.1 p.2 := by
  have e := (C01_planet_consistent name P hP).1
  have hs := (C01_planet_names name).1.mp ⟨_, hP⟩
  rw [e] at hc
  have p1 : ∀ a : ℝ, 0 ≤ a → Continuous fun p : ℝ × ℝ => p.1 ^ a := fun a ha => continuous_fst.rpow_const fun _ => Or.inr ha
  have p2 : ∀ a : ℝ, 0 ≤ a → Continuous fun p : ℝ × ℝ => p.2 ^ a := fun a ha => continuous_snd.rpow_const fun _ => Or.inr ha
  have sg : ∀ k : ℝ, Continuous fun p : ℝ × ℝ => k * (p.1 / RN) ^ (0.5:ℝ) * p.2 ^ (3.0:ℝ) := fun k =>
    (continuous_const.mul ((continuous_fst.div_const RN).rpow_const fun _ => Or.inr (by norm_num))).mul (p2 _ (by norm_num))
  have ig : Continuous fun p : ℝ × ℝ =>
      2.24008E-7 * p.1 ^ (0.452130:ℝ) * p.2 ^ (2.691800:ℝ) * Real.sqrt (0.291 / RN) :=
    ((continuous_const.mul (p1 _ (by norm_num))).mul (p2 _ (by norm_num))).mul continuous_const
  simp only [Spec.bodies, List.mem_cons, List.not_mem_nil, or_false] at hs
  rcases hs with rfl | rfl | rfl | rfl | rfl | rfl | rfl | rfl <;> obtain rfl := Option.some.inj hc
  exacts [sg _, sg _, sg _, sg _, sg _, sg _, ig, ig]

theorem accDrag_constant (V : Vehicle) (hu : V.userDefinedCDMach = false) (hCD : V.CD * V.beta * V.A = V.mass)
    (hm : 0 < V.mass) (hb : 0 < V.beta) (delta r v : ℝ) :
    V.accDrag delta r v = |1 / 2 * V.atm.densityInt (r - V.planet.RP) * v ^ 2 / V.beta| / V.planet.EARTHG := by
  unfold Vehicle.accDrag
  have : V.a_svec r v ^ 2 + 0.0 * V.a_nvec r v delta ^ 2 + 0.0 * V.a_wvec r v delta * 2.0 =
      (1 / 2 * V.atm.densityInt (r - V.planet.RP) * v ^ 2 / V.beta) ^ 2 := by
    unfold Vehicle.a_svec Vehicle.Dvec Planet.rhoVec
    rw [hu, ← hCD]
    have hb' := hb.ne'
    have hCA : V.CD * V.beta * V.A ≠ 0 := by rw [hCD]; exact hm.ne'
    have hC : V.CD ≠ 0 := by rintro h; rw [h] at hCA; simp at hCA
    have hA : V.A ≠ 0 := by rintro h; rw [h] at hCA; simp at hCA
    norm_num
    field_simp
  rw [this, sqrt_sq_eq_abs]

/-- C108: the peak loads that a user reads off the histories stored by `propogateEntry` – the largest convective and total
stagnation-point heat rate, dynamic pressure (in atmospheres) and drag load (in Earth g, constant drag coefficient) – tend to
the largest values along the flight.  Take any curve `y` through the atmosphere, in particular the exact flight.  For every
sequence of runs whose steps tend to zero, whose samples tend to the curve and whose histories end at times tending to
`tEnd`, the largest entries tend to the largest values on the curve up to `tEnd`, at the density of the atmosphere flown; for
the total heat rate the curve is to avoid the speeds where a radiative formula is replaced by another. -/
theorem C108_peaks_converge (name : String) (F : AtmFile) (hF : (name, F) ∈ shippedFiles) (P : Planet)
    (hP : Planet.init name = .ok P) (atm : Atmosphere) (hatm : LoadedCubic P F.km (fileRows F) atm)
    (V : Vehicle) (hVP : V.planet = P) (hVa : V.atm = atm) (mode : ScipyMode) (deltaDeg : ℝ)
    (y : ℝ → FState) (tEnd : ℝ) (hT : 0 ≤ tEnd)
    (hcr : ContinuousOn (fun t => (y t).r) (Set.Icc 0 (tEnd / P.tau)))
    (hcv : ContinuousOn (fun t => (y t).v) (Set.Icc 0 (tEnd / P.tau)))
    (hreg : ∀ t ∈ Set.Icc 0 (tEnd / P.tau), 0 < (y t).r * P.RP - P.RP ∧ (y t).r * P.RP - P.RP ≤ P.hThres)
    (I : ℕ → Integrator) (tSec dt δ : ℕ → ℝ) (out : ℕ → PropOut) (k : ℕ → ℕ)
    (hI : ∀ n, OdeintLike (I n)) (hts : ∀ n, 0 ≤ tSec n) (hdt : ∀ n, 0 < dt n) (hdt0 : Tendsto dt atTop (𝓝 0))
    (hδ : Tendsto δ atTop (𝓝 0))
    (hrun : ∀ n, V.propogateEntry mode (I n) (tSec n) (dt n) deltaDeg = .ok (out n))
    (hk : ∀ n, (out n).index = k n + 1) (hkT : ∀ n, k n * dt n ≤ tEnd)
    (hkl : Tendsto (fun n => k n * dt n) atTop (𝓝 tEnd))
    (hsamp : ∀ n, ∀ p ∈ (samples V (I n) (tSec n) (dt n) deltaDeg).take (k n + 1),
      Near (δ n) p.2 (y p.1) ∧ p.2.r * P.RP - P.RP ≤ P.hThres) (M : ℕ → ℝ) :
    ∃ qc qr, qConvFn P.ID = some qc ∧ qRadFn P.ID = some qr ∧
      ((∀ n, pyMax (out n).qStagCon = .ok (M n)) →
        TendsToPeak (fun t => qc V.RN (P.density atm ((y t).r * P.RP - P.RP)) ((y t).v * P.Vref)) (tEnd / P.tau) M) ∧
      ((∀ n, pyMax (out n).qStagTotal = .ok (M n)) →
        (∀ t ∈ Set.Icc 0 (tEnd / P.tau), (y t).v * P.Vref ∉ jumpSpeeds P.ID) →
        TendsToPeak (fun t => qc V.RN (P.density atm ((y t).r * P.RP - P.RP)) ((y t).v * P.Vref) +
          qr V.RN (P.density atm ((y t).r * P.RP - P.RP)) ((y t).v * P.Vref)) (tEnd / P.tau) M) ∧
      ((∀ n, pyMax (out n).dynPresAtm = .ok (M n)) →
        TendsToPeak (fun t => P.density atm ((y t).r * P.RP - P.RP) * ((y t).v * P.Vref) ^ 2 / 2 / 101325)
          (tEnd / P.tau) M) ∧
      ((∀ n, pyMax (out n).accDragG = .ok (M n)) → V.userDefinedCDMach = false → V.CD * V.beta * V.A = V.mass →
        0 < V.mass → 0 < V.beta →
        TendsToPeak (fun t => P.density atm ((y t).r * P.RP - P.RP) * ((y t).v * P.Vref) ^ 2 / 2 / V.beta / 9.80665)
          (tEnd / P.tau) M) := by
  subst hVP hVa
  obtain ⟨_, hR, _, _, _, hTr, hTS, hST, hV, htau, _, _, _, hE⟩ := C01_planet_consistent name V.planet hP
  obtain ⟨qc, qr, hc, hr, -⟩ := C25_heat_laws name V.planet hP
  refine ⟨qc, qr, hc, hr, ?_⟩
  set P := V.planet with hPdef
  set S := fun n => (samples V (I n) (tSec n) (dt n) deltaDeg).take (k n + 1) with hS
  have hal := fun n => C24_arrays_aligned V mode (I n) (tSec n) (dt n) deltaDeg (out n) (hrun n)
  have hlen : ∀ n, (S n).length = k n + 1 := by
    intro n
    obtain ⟨-, h, -⟩ := hal n
    rw [hk] at h
    simp only [hS, List.length_take, min_eq_left h]
  have htime : ∀ n (j : ℕ) p, (S n)[j]? = some p → p.1 = j * dt n / P.tau := by
    intro n j p hp
    have hjl := (List.getElem?_eq_some_iff.mp hp).1
    rw [hlen] at hjl
    have hp' : (samples V (I n) (tSec n) (dt n) deltaDeg)[j]? = some p := by
      rw [← hp]; simp only [hS, List.getElem?_take_of_lt hjl]
    obtain ⟨i1, -⟩ := hI n (fun t y => V.EOM y t (deltaDeg * π / 180.0))
      (V.planet.nonDimState (Vehicle.entryState V.planet V.init)) (Vehicle.tGrid V.planet (tSec n) (dt n))
    have i1' : (samples V (I n) (tSec n) (dt n) deltaDeg).map Prod.fst = Vehicle.tGrid P (tSec n) (dt n) := i1
    obtain ⟨g1, g2⟩ := tGrid_get name P hP (tSec n) (dt n) (hts n) (hdt n)
    have hl := (List.getElem?_eq_some_iff.mp hp').1
    rw [← List.length_map (f := Prod.fst), i1', g1] at hl
    have := g2 j hl
    rw [← i1', List.getElem?_map, hp'] at this
    exact Option.some.inj this
  -- density
  set ρ : ℝ × ℝ → ℝ := fun x => V.atm.densityInt (min (x.1 * P.RP - P.RP) P.hThres) with hρ
  have hρc : ∀ t ∈ Set.Icc 0 (tEnd / P.tau), ContinuousAt ρ ((y t).r, (y t).v) := by
    intro t ht
    have h1 : ContinuousAt (fun x : ℝ × ℝ => x.1 * P.RP - P.RP) ((y t).r, (y t).v) := by fun_prop
    exact (capped_continuousAt hF hP hatm (hreg t ht).1).comp' (f := fun x : ℝ × ℝ => x.1 * P.RP - P.RP) h1
  have hρy : ∀ t ∈ Set.Icc 0 (tEnd / P.tau), ρ ((y t).r, (y t).v) = P.density V.atm ((y t).r * P.RP - P.RP) := by
    intro t ht
    obtain ⟨h1, h2⟩ := hreg t ht
    simp only [hρ, Planet.density]
    rw [min_eq_left h2, if_pos ⟨h1.le, h2⟩]
  have hρs : ∀ n, ∀ p ∈ S n, ρ (p.2.r, p.2.v) = V.atm.densityInt (p.2.r * P.RP - P.RP) := by
    intro n p hp
    simp only [hρ]
    rw [min_eq_left (hsamp n p hp).2]
  have hvc : ∀ t, ContinuousAt (fun x : ℝ × ℝ => x.2 * P.Vref) ((y t).r, (y t).v) := fun t => by fun_prop
  -- from the samples to the peak
  have key : ∀ (g : ℝ × ℝ → ℝ) (q : ℝ → ℝ) (L : ℕ → List ℝ),
      (∀ t ∈ Set.Icc 0 (tEnd / P.tau), ContinuousAt g ((y t).r, (y t).v)) →
      (∀ t ∈ Set.Icc 0 (tEnd / P.tau), g ((y t).r, (y t).v) = q t) →
      (∀ n, L n = (S n).map fun p => g (p.2.r, p.2.v)) → (∀ n, pyMax (L n) = .ok (M n)) →
      TendsToPeak q (tEnd / P.tau) M := by
    intro g q L hg hq hL hM
    obtain ⟨ts, h1, h2, h3⟩ := peak_limit htau hT y g hcr hcv hg S dt δ k hdt hdt0 hδ hlen htime hkT hkl
      (fun n p hp => (hsamp n p hp).1) M (fun n => by rw [← hL n]; exact hM n)
    refine ⟨ts, h1, fun t ht => ?_, ?_⟩
    · rw [← hq t ht, ← hq ts h1]; exact h2 t ht
    · rw [← hq ts h1]; exact h3
  have hrv : ∀ n, (out n).c.r = (S n).map (fun p => p.2.r * P.RP) ∧ (out n).c.v = (S n).map (fun p => p.2.v * P.Vref) := by
    intro n
    obtain ⟨-, -, -, er, -, -, ev, -⟩ := hal n
    rw [hk] at er ev
    exact ⟨er, ev⟩
  have hlists : ∀ n, (out n).qStagCon = (S n).map (fun p => qc V.RN (ρ (p.2.r, p.2.v)) (p.2.v * P.Vref)) ∧
      (out n).qStagRad = (S n).map (fun p => qr V.RN (ρ (p.2.r, p.2.v)) (p.2.v * P.Vref)) ∧
      (out n).qStagTotal = (S n).map (fun p => qc V.RN (ρ (p.2.r, p.2.v)) (p.2.v * P.Vref) +
        qr V.RN (ρ (p.2.r, p.2.v)) (p.2.v * P.Vref)) ∧
      (out n).dynPresAtm = (S n).map (fun p => V.dynPres (p.2.r * P.RP) (p.2.v * P.Vref) / 1.01325E5) ∧
      (out n).accDragG = (S n).map (fun p => V.accDrag (deltaDeg * π / 180.0) (p.2.r * P.RP) (p.2.v * P.Vref)) := by
    intro n
    have hp' : V.postProcess mode (TrajArrays.ofSamples (samples V (I n) (tSec n) (dt n) deltaDeg)) (deltaDeg * π / 180.0) 0
      = .ok (out n) := hrun n
    obtain ⟨er, ev⟩ := hrv n
    obtain ⟨idx, flag, qc', qr', heat, -, hq1, hq2, -, ho⟩ := postProcess_inv hp'
    have e1 : (V.planet.dimensionalizeArr (TrajArrays.ofSamples (samples V (I n) (tSec n) (dt n) deltaDeg))).r.take idx =
      (out n).c.r := by rw [ho]; rfl
    have e2 : (V.planet.dimensionalizeArr (TrajArrays.ofSamples (samples V (I n) (tSec n) (dt n) deltaDeg))).v.take idx =
      (out n).c.v := by rw [ho]; rfl
    rw [e1, e2, Vehicle.qStagConvective, hc, Option.map_some, er, ev] at hq1
    rw [e1, e2, Vehicle.qStagRadiative, hr, Option.map_some, er, ev] at hq2
    have c1 : qc' = (S n).map (fun p => qc V.RN (ρ (p.2.r, p.2.v)) (p.2.v * P.Vref)) := by
      rw [← Option.some.inj hq1, List.zipWith_map, List.zipWith_self]
      exact List.map_congr_left fun p hp => by rw [hρs n p hp]; rfl
    have c2 : qr' = (S n).map (fun p => qr V.RN (ρ (p.2.r, p.2.v)) (p.2.v * P.Vref)) := by
      rw [← Option.some.inj hq2, List.zipWith_map, List.zipWith_self]
      exact List.map_congr_left fun p hp => by rw [hρs n p hp]; rfl
    refine ⟨by rw [ho]; exact c1, by rw [ho]; exact c2, ?_, ?_, ?_⟩
    · rw [ho]
      change List.zipWith (· + ·) qc' qr' = _
      rw [c1, c2, List.zipWith_map, List.zipWith_self]
    · have : (out n).dynPresAtm = (List.zipWith V.dynPres (out n).c.r (out n).c.v).map (· / 1.01325E5) := by
        rw [ho]; rfl
      rw [this, er, ev, List.zipWith_map, List.zipWith_self, List.map_map]
      rfl
    · have : (out n).accDragG = List.zipWith (V.accDrag (deltaDeg * π / 180.0)) (out n).c.r (out n).c.v := by
        rw [ho]; rfl
      rw [this, er, ev, List.zipWith_map, List.zipWith_self]
  refine ⟨fun hM => ?_, fun hM hj => ?_, fun hM => ?_, fun hM hu hCD hm hb => ?_⟩
  · refine key (fun x => qc V.RN (ρ x) (x.2 * P.Vref)) _ _ (fun t ht => ?_) (fun t ht => ?_) (fun n => (hlists n).1) hM
    · exact ((conv_continuous name P hP hc V.RN).continuousAt (x := (ρ ((y t).r, (y t).v), (y t).v * P.Vref))).comp'
        (f := fun x : ℝ × ℝ => (ρ x, x.2 * P.Vref)) ((hρc t ht).prodMk (hvc t))
    · simp only [hρy t ht]
  · refine key (fun x => qc V.RN (ρ x) (x.2 * P.Vref) + qr V.RN (ρ x) (x.2 * P.Vref)) _ _ (fun t ht => ?_) (fun t ht => ?_)
      (fun n => (hlists n).2.2.1) hM
    · exact (heat_continuousAt name P hP hc hr V.RN (ρ ((y t).r, (y t).v)) ((y t).v * P.Vref) (hj t ht)).comp'
        (f := fun x : ℝ × ℝ => (ρ x, x.2 * P.Vref)) ((hρc t ht).prodMk (hvc t))
    · simp only [hρy t ht]
  · refine key (fun x => ρ x * (x.2 * P.Vref) ^ 2 / 2 / 101325) _ _ (fun t ht => ?_) (fun t ht => ?_)
      (fun n => ?_) hM
    · exact ((((hρc t ht).mul ((hvc t).pow 2)).div_const 2).div_const 101325)
    · simp only [hρy t ht]
    · rw [(hlists n).2.2.2.1]
      refine List.map_congr_left fun p hp => ?_
      simp only
      rw [hρs n p hp]
      have l1 : (1.01325e5:ℝ) = 101325 := by norm_num
      have l2 : (0.5:ℝ) = 1 / 2 := by norm_num
      unfold Vehicle.dynPres Planet.rhoVec
      rw [l1, l2]
      ring
  · refine key (fun x => |ρ x * (x.2 * P.Vref) ^ 2 / 2 / V.beta| / 9.80665) _ _ (fun t ht => ?_) (fun t ht => ?_)
      (fun n => ?_) hM
    · exact ((((hρc t ht).mul ((hvc t).pow 2)).div_const 2).div_const V.beta).abs.div_const _
    · simp only [hρy t ht]
      have := ((C85_density_positive name F hF P hP V.atm hatm _).mpr (hreg t ht).2).le
      rw [abs_of_nonneg (by positivity)]
    · rw [(hlists n).2.2.2.2]
      refine List.map_congr_left fun p hp => ?_
      simp only
      rw [hρs n p hp, accDrag_constant V hu hCD hm hb, hE]
      congr 2
      rw [← hPdef]
      ring

/-- Case for `C108_peaks_converge`: the runs of `mars_runs`; the largest heat rates and dynamic pressures reported tend to
the largest ones of the flight. -/
example : ∃ (P : Planet) (atm : Atmosphere) (y : ℝ → FState) (dt : ℝ) (out : ℕ → PropOut) (M M' : ℕ → ℝ) (q : ℝ → ℝ),
    Planet.init "MARS" = .ok P ∧ LoadedCubic P mars.km (fileRows mars) atm ∧ 0 < dt ∧
    (∀ n : ℕ, (Vehicle.mk' 1000 100 0.2 10 0 1 P atm true demoCurve ⟨100, 0, 0, 4, 0, -10, 0, 0⟩).propogateEntry .strict
      (traceIntegrator y) dt (dt / (n + 1 : ℕ)) 60 = .ok (out n)) ∧
    (∀ n, pyMax (out n).qStagTotal = .ok (M n)) ∧ TendsToPeak q (dt / P.tau) M ∧
    (∀ n, pyMax (out n).dynPresAtm = .ok (M' n)) ∧
    TendsToPeak (fun t => P.density atm ((y t).r * P.RP - P.RP) * ((y t).v * P.Vref) ^ 2 / 2 / 101325) (dt / P.tau) M' := by
  obtain ⟨P, atm, y, S, dt, out, hP, hatm, hdt, hy, hsf, hsm, hout, hidx⟩ := mars_runs true
  have hF : ("MARS", mars) ∈ shippedFiles := by simp [shippedFiles]
  obtain ⟨hID, hR, _, _, _, _, _, _, hVr, htau, _⟩ := C01_planet_consistent "MARS" P hP
  have hTh : P.hThres = 120000 := by simp [Planet.init] at hP; subst hP; norm_num [Planet.withScales]
  set V := Vehicle.mk' 1000 100 0.2 10 0 1 P atm true demoCurve ⟨100, 0, 0, 4, 0, -10, 0, 0⟩ with hVdef
  have hd : ∀ n : ℕ, 0 < dt / (n + 1 : ℕ) := fun n => by positivity
  have hkd : ∀ n : ℕ, ((n + 1 : ℕ) : ℝ) * (dt / (n + 1 : ℕ)) = dt := fun n => mul_div_cancel₀ _ (by positivity)
  have hex : ∀ n, (∃ x, pyMax (out n).qStagTotal = .ok x) ∧ ∃ x, pyMax (out n).dynPresAtm = .ok x := by
    intro n
    obtain ⟨-, -, -, -, -, -, -, -, -, -, hl, -⟩ := C24_arrays_aligned V .strict _ dt _ 60 (out n) (hout n)
    have l1 := hl (out n).qStagTotal (by simp)
    have l2 := hl (out n).dynPresAtm (by simp)
    rw [hidx] at l1 l2
    obtain ⟨x, hx, -⟩ := pyMax_spec (l := (out n).qStagTotal) (by rintro h; rw [h] at l1; simp at l1)
    obtain ⟨x', hx', -⟩ := pyMax_spec (l := (out n).dynPresAtm) (by rintro h; rw [h] at l2; simp at l2)
    exact ⟨⟨x, hx⟩, x', hx'⟩
  choose M hM using fun n => (hex n).1
  choose M' hM' using fun n => (hex n).2
  have key := C108_peaks_converge "MARS" mars hF P hP atm hatm V rfl rfl .strict 60 y dt hdt.le hy.r hy.v
    (fun t ht => by
      have := hsf t ht
      rw [hTh]
      exact ⟨by linarith [this.low], by linarith [this.high]⟩)
    (fun _ => traceIntegrator y) (fun _ => dt) (fun n => dt / (n + 1 : ℕ)) (fun _ => 0) out (fun n => n + 1)
    (fun _ => traceIntegrator_ok y) (fun _ => hdt.le) hd
    (by
      have := (tendsto_one_div_add_atTop_nhds_zero_nat (𝕜 := ℝ)).const_mul dt
      rw [mul_zero] at this
      refine this.congr fun n => ?_
      push_cast
      ring)
    tendsto_const_nhds hout hidx (fun n => (hkd n).le) (by simp only [hkd]; exact tendsto_const_nhds)
    (fun n p hp => by
      obtain ⟨h1, h2⟩ := hsm n p (List.mem_of_mem_take hp)
      exact ⟨by rw [h1, near_iff, sub_self, norm_zero], by rw [hTh]; linarith [h2.high]⟩)
  obtain ⟨qc, qr, -, -, -, k2, -⟩ := key M
  obtain ⟨-, -, -, -, -, -, k3, -⟩ := key M'
  exact ⟨P, atm, y, dt, out, M, M', _, hP, hatm, hdt, hout, hM, k2 hM (fun t _ => by rw [hID]; simp [jumpSpeeds]), hM',
    k3 hM'⟩

end AMAT.Props
