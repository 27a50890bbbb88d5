import Verif.Props.Continuation

/-
Property C100 for guided flights: the bank angle is commanded once per guidance cycle from everything flown so far.
-/

noncomputable section

open Real

namespace AMAT.Spec

/-- A guidance law with cycles of length `T`: `law k y` is the bank angle commanded for cycle `k` on the trajectory `y`;
it depends only on what has been flown at the beginning of the cycle. -/
def Causal (T : ℝ) (law : ℕ → (ℝ → FState) → ℝ) : Prop :=
  ∀ (k : ℕ) (y y' : ℝ → FState), (∀ t ∈ Set.Icc 0 (k * T), y t = y' t) → law k y = law k y'

/-- The bank angle flown under a guidance law. -/
def commanded (T : ℝ) (law : ℕ → (ℝ → FState) → ℝ) (y : ℝ → FState) (t : ℝ) : ℝ := law ⌊t / T⌋₊ y

end AMAT.Spec

namespace AMAT.Props

open Real AMAT AMAT.Spec AMAT.Data AMAT.Spline AMAT.Lits AMAT.Piecewise

theorem flight_shift {G : FState → FState} {z : ℝ → FState} {b : ℝ} {S : Finset ℝ} (T : ℝ)
    (hz : SwitchedFlight (fun _ => G) z 0 b S) :
    SwitchedFlight (fun _ => G) (fun t => z (t - T)) T (T + b) (S.image (· + T)) := by
  have hm : Set.MapsTo (fun t => t - T) (Set.Icc T (T + b)) (Set.Icc 0 b) := fun t ht =>
    ⟨by linarith [ht.1], by linarith [ht.2]⟩
  have hc : ContinuousOn (fun t : ℝ => t - T) (Set.Icc T (T + b)) := by fun_prop
  refine ⟨hz.r.comp hc hm, hz.theta.comp hc hm, hz.phi.comp hc hm, hz.v.comp hc hm, hz.psi.comp hc hm,
    hz.gamma.comp hc hm, hz.drange.comp hc hm, fun t ht hS => ?_⟩
  have h1 := hz.solves (t - T) ⟨by linarith [ht.1], by linarith [ht.2]⟩ fun hh => hS (by
    rw [Finset.mem_image]; exact ⟨t - T, hh, by ring⟩)
  exact ⟨h1.r.comp_sub_const t T, h1.theta.comp_sub_const t T, h1.phi.comp_sub_const t T, h1.v.comp_sub_const t T,
    h1.psi.comp_sub_const t T, h1.gamma.comp_sub_const t T, h1.drange.comp_sub_const t T⟩

/-- C100: a guided flight lasts for the requested number of guidance cycles, whatever bank angles the guidance commands at
the beginning of each cycle, unless it comes down to the altitude `h0`, slows down to the speed `v0`, comes near a pole or
near vertical flight, or becomes almost horizontal near the edge of the atmosphere. -/
theorem C100_guided_flight (name : String) (F : AtmFile) (hF : (name, F) ∈ shippedFiles) (P : Planet)
    (hP : Planet.init name = .ok P) (atm : Atmosphere) (hatm : LoadedCubic P F.km (fileRows F) atm)
    (m beta LD A alpha RN : ℝ) (u : Bool) (f : ℝ → ℝ) (st : InitState) (hm : 0 < m) (hb : 0 < beta) (hA : 0 < A)
    (hf : u = true → ContDiff ℝ 1 f) (hf0 : ∀ M, 0 ≤ f M)
    (T h0 v0 c η : ℝ) (hT : 0 < T) (hh : 0 < h0) (hv : 0 < v0) (hc : 0 < c) (hη : 0 < η)
    (law : ℕ → (ℝ → FState) → ℝ) (hlaw : Causal T law) (N : ℕ) (s : FState) (hs : Clear P h0 v0 c η s) :
    ∃ (y : ℝ → FState) (b : ℝ) (S : Finset ℝ), b ≤ N * T ∧ y 0 = s ∧
      SwitchedFlight (fun t s => (Vehicle.mk' m beta LD A alpha RN P atm u f st).EOM s t (commanded T law y t)) y 0 b S ∧
      ((b = N * T ∧ ∀ t ∈ Set.Icc 0 (N * T), Clear P h0 v0 c η (y t)) ∨
       ∃ τ ∈ Set.Ico 0 b, (∀ t ∈ Set.Icc 0 τ, Clear P h0 v0 c η (y t)) ∧
        ∀ ε > 0, ∃ t ∈ Set.Ioc τ (τ + ε), t ≤ b ∧ ¬ Clear P h0 v0 c η (y t)) := by
  induction N with
  | zero =>
    have e : (((0:ℕ):ℝ) * T) = 0 := by simp
    rw [e]
    refine ⟨fun _ => s, 0, ∅, le_rfl, rfl, ⟨continuousOn_const, continuousOn_const, continuousOn_const,
      continuousOn_const, continuousOn_const, continuousOn_const, continuousOn_const, fun t ht => ?_⟩,
      Or.inl ⟨rfl, fun _ _ => hs⟩⟩
    exact absurd (ht.1.trans ht.2) (lt_irrefl _)
  | succ N ih =>
    obtain ⟨y, b, S, hbN, y0, hy, hend⟩ := ih
    have eN : ((N + 1 : ℕ) : ℝ) * T = N * T + T := by push_cast; ring
    have hN0 : 0 ≤ (N : ℝ) * T := by positivity
    rw [eN]
    rcases hend with ⟨rfl, hcl⟩ | hobs
    · obtain ⟨z, c', S', hc0, hcT, z0, hz, hzend⟩ := C100_flight_ends_at_obstacle name F hF P hP atm hatm m beta LD A alpha
        RN u f st hm hb hA hf hf0 (law N y) T h0 v0 c η hT hh hv hc hη (y (N * T)) (hcl _ ⟨hN0, le_rfl⟩)
      set V := Vehicle.mk' m beta LD A alpha RN P atm u f st with hV
      have hz' := flight_shift (G := fun s => V.EOM s 0 (law N y)) (N * T) hz
      set y' : ℝ → FState := fun t => if t ≤ N * T then y t else z (t - N * T) with hy'
      have hag : ∀ t ∈ Set.Icc 0 ((N : ℝ) * T), y' t = y t := fun t ht => by simp only [hy', ht.2, if_true]
      have hlk : ∀ k ≤ N, law k y' = law k y := fun k hk => hlaw k y' y fun t ht => hag t ⟨ht.1, ht.2.trans
        (mul_le_mul_of_nonneg_right (by exact_mod_cast hk) hT.le)⟩
      have h1 : SwitchedFlight (fun t s => V.EOM s t (commanded T law y' t)) y 0 (N * T) S := by
        refine ⟨hy.r, hy.theta, hy.phi, hy.v, hy.psi, hy.gamma, hy.drange, fun t ht hS => ?_⟩
        have hk : ⌊t / T⌋₊ ≤ N :=
          Nat.floor_le_of_le ((div_le_iff₀ hT).mpr ht.2.le)
        have := hy.solves t ht hS
        simp only [commanded] at this ⊢
        rw [hlk _ hk]
        exact this
      have h2 : SwitchedFlight (fun t s => V.EOM s t (commanded T law y' t)) (fun t => z (t - N * T)) (N * T)
          (N * T + c') (S'.image (· + N * T)) := by
        refine ⟨hz'.r, hz'.theta, hz'.phi, hz'.v, hz'.psi, hz'.gamma, hz'.drange, fun t ht hS => ?_⟩
        have hk : ⌊t / T⌋₊ = N := by
          have h0 : 0 ≤ t / T := div_nonneg (hN0.trans ht.1.le) hT.le
          rw [Nat.floor_eq_iff h0, le_div_iff₀ hT, div_lt_iff₀ hT]
          exact ⟨ht.1.le, by linarith [ht.2]⟩
        have := hz'.solves t ht hS
        simp only [commanded] at this ⊢
        rw [hk, hlk _ le_rfl]
        exact this
      have hcat := concat_switched h1 h2 (by simp [z0])
      have y0' : y' 0 = s := by rw [hag 0 ⟨le_rfl, hN0⟩, y0]
      have hafter : ∀ t, (N : ℝ) * T ≤ t → y' t = z (t - N * T) := by
        intro t ht
        rcases ht.eq_or_lt with h | h
        · rw [← h, hag _ ⟨hN0, le_rfl⟩, sub_self, z0]
        · simp only [hy', not_le.mpr h, if_false]
      have hclear : ∀ x, (∀ t ∈ Set.Icc 0 x, Clear P h0 v0 c η (z t)) →
          ∀ t ∈ Set.Icc 0 (N * T + x), Clear P h0 v0 c η (y' t) := by
        intro x hx t ht
        rcases le_total t (N * T) with h | h
        · rw [hag t ⟨ht.1, h⟩]; exact hcl t ⟨ht.1, h⟩
        · rw [hafter t h]; exact hx _ ⟨by linarith, by linarith [ht.2]⟩
      refine ⟨y', N * T + c', _, by linarith, y0', hcat, ?_⟩
      rcases hzend with ⟨rfl, hzc⟩ | ⟨τ, hτ, hzc, hun⟩
      · exact Or.inl ⟨rfl, hclear _ hzc⟩
      · refine Or.inr ⟨N * T + τ, ⟨by linarith [hτ.1], by linarith [hτ.2]⟩, hclear _ hzc, fun ε hε => ?_⟩
        obtain ⟨t, ht, htc, hnc⟩ := hun ε hε
        refine ⟨N * T + t, ⟨by linarith [ht.1], by linarith [ht.2]⟩, by linarith, ?_⟩
        rw [hafter _ (by linarith [ht.1, hτ.1]), add_sub_cancel_left]
        exact hnc
    · exact ⟨y, b, S, by linarith, y0, hy, Or.inr hobs⟩

/-- Case for `C100_guided_flight`: a Mars entry at 120 km with lift, for twenty cycles of 50 s in which the bank angle is a
hundred times the flight-path angle at the beginning of the cycle. -/
example : ∃ (P : Planet) (atm : Atmosphere) (y : ℝ → FState) (b : ℝ) (S : Finset ℝ),
    Planet.init "MARS" = .ok P ∧ LoadedCubic P mars.km (fileRows mars) atm ∧
    y 0 = ⟨1 + P.hThres / P.RP, 0, 0, 1, 0, -0.2, 0⟩ ∧ b ≤ 20 * (50 / P.tau) ∧
    SwitchedFlight (fun t s => (Vehicle.mk' 1000 100 0.2 10 0 1 P atm true demoCurve ⟨0, 0, 0, 0, 0, 0, 0, 0⟩).EOM s t
      (100 * (y (⌊t / (50 / P.tau)⌋₊ * (50 / P.tau))).gamma)) y 0 b S ∧
    ((b = 20 * (50 / P.tau) ∧ ∀ t ∈ Set.Icc 0 (20 * (50 / P.tau)), Clear P 1000 0.01 0.01 1 (y t)) ∨
       ∃ τ ∈ Set.Ico 0 b, (∀ t ∈ Set.Icc 0 τ, Clear P 1000 0.01 0.01 1 (y t)) ∧
        ∀ ε > 0, ∃ t ∈ Set.Ioc τ (τ + ε), t ≤ b ∧ ¬ Clear P 1000 0.01 0.01 1 (y t)) := by
  obtain ⟨P, hP⟩ := (C01_planet_names "MARS").1.mpr (by simp [Spec.bodies])
  have hF : ("MARS", mars) ∈ shippedFiles := by simp [shippedFiles]
  obtain ⟨atm, hatm⟩ := (C85_loads "MARS" mars hF P hP).1
  obtain ⟨-, he⟩ := mars_entry hP
  have hT : P.hThres = 120e3 := by
    simp [Planet.init] at hP; subst hP; norm_num [Planet.withScales]
  have htau : 0 < P.tau := (C01_planet_consistent "MARS" P hP).2.2.2.2.2.2.2.2.2.1
  have hg : (0.01 : ℝ) ≤ cos (-0.2) := by
    have := one_sub_sq_div_two_le_cos (x := (-0.2 : ℝ))
    norm_num at this ⊢
    linarith
  have hsin : (0.01 : ℝ) ≤ |sin (-0.2)| := by
    have h2 := sin_gt_sub_cube (x := (0.2:ℝ)) (by norm_num)
    rw [sin_neg, abs_neg]
    refine le_trans ?_ (le_abs_self _)
    refine le_trans ?_ h2.le
    norm_num
  have hclear : Clear P 1000 0.01 0.01 1 ⟨1 + P.hThres / P.RP, 0, 0, 1, 0, -0.2, 0⟩ :=
    ⟨by change 1000 ≤ (1 + P.hThres / P.RP) * P.RP - P.RP; rw [he, hT]; norm_num, by norm_num,
      by rw [cos_zero]; norm_num, hg, Or.inr hsin⟩
  have hp : 0 < 50 / P.tau := by positivity
  obtain ⟨y, b, S, h1, h2, h3, h4⟩ := C100_guided_flight "MARS" mars hF P hP atm hatm 1000 100 0.2 10 0 1 true demoCurve
    ⟨0, 0, 0, 0, 0, 0, 0, 0⟩ (by norm_num) (by norm_num) (by norm_num) (fun _ => demoCurve_smooth)
    (fun M => (demoCurve_pos M).le) (50 / P.tau) 1000 0.01 0.01 1 hp (by norm_num) (by norm_num)
    (by norm_num) (by norm_num) (fun k y => 100 * (y (k * (50 / P.tau))).gamma)
    (fun k y y' h => by simp only [h _ ⟨by positivity, le_rfl⟩]) 20 _ hclear
  exact ⟨P, atm, y, b, S, hP, hatm, h2, by exact_mod_cast h1, h3, by exact_mod_cast h4⟩

end AMAT.Props
