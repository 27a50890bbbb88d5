import Verif.Props.Sensitivity

/-
C102, continued: flights in a slightly different atmosphere, with slightly varying bank angle.
-/

noncomputable section

open Real

namespace AMAT.Props

open Real AMAT AMAT.Spec AMAT.Data AMAT.Spline AMAT.Lits AMAT.Piecewise

/-- C102: a flight under any law of motion whose rates are, at safe states, those of the equations of motion up to `ε` stays
close to the exact flight, as long as it lasts. -/
theorem C102_nearby_dynamics (name : String) (F : AtmFile) (hF : (name, F) ∈ shippedFiles) (P : Planet)
    (hP : Planet.init name = .ok P) (atm : Atmosphere) (hatm : LoadedCubic P F.km (fileRows F) atm)
    (m beta LD A alpha RN : ℝ) (u : Bool) (f : ℝ → ℝ) (st : InitState) (hf : u = true → ContDiff ℝ 1 f)
    (d T h0 h1 v0 v1 c η : ℝ) (hT : 0 < T) (hh : 0 < h0) (hv : 0 < v0) (hc : 0 < c) (hη : 0 < η)
    (y : ℝ → FState) (S : Finset ℝ)
    (hy : SwitchedFlight (fun t s => (Vehicle.mk' m beta LD A alpha RN P atm u f st).EOM s t d) y 0 T S)
    (hreg : ∀ t ∈ Set.Icc 0 T, Safe P h0 h1 v0 v1 c η (y t)) :
    ∃ C ρ : ℝ, 1 ≤ C ∧ 0 < ρ ∧ ∀ (G : ℝ → FState → FState) (δ ε : ℝ), δ ≤ ρ → 0 ≤ ε → ε ≤ ρ →
      (∀ t s, Safe P (h0 / 2) (h1 + 1) (v0 / 2) (v1 + 1) (c / 2) (η / 2) s →
        Near ε (G t s) ((Vehicle.mk' m beta LD A alpha RN P atm u f st).EOM s t d)) →
      ∀ (z : ℝ → FState) (b : ℝ) (S' : Finset ℝ), 0 ≤ b → b ≤ T → SwitchedFlight G z 0 b S' → Near δ (z 0) (y 0) →
        NearFlight (fun t s => (Vehicle.mk' m beta LD A alpha RN P atm u f st).EOM s t d) z 0 b S' ε ∧
        ∀ t ∈ Set.Icc 0 b, Near (C * (δ + 2 * ε)) (z t) (y t) := by
  obtain ⟨_, hR, _⟩ := C01_planet_consistent name P hP
  obtain ⟨C, ρ₀, hC, hρ₀, hclose⟩ := C102_errors_grow_linearly name F hF P hP atm hatm m beta LD A alpha RN u f st hf d T
    hT.le y S hy (fun t ht => (hreg t ht).departure hh hv hc hη)
  set κ := min (min (min (h0 / 2 / P.RP) (1 / P.RP)) (min (η / 2 / P.RP) (v0 / 2))) (min 1 (c / 2)) with hκ
  have hκ0 : 0 < κ := by
    rw [hκ]; simp only [lt_min_iff]
    exact ⟨⟨⟨by positivity, by positivity⟩, ⟨by positivity, by positivity⟩⟩, by positivity, by positivity⟩
  obtain ⟨⟨⟨k0, k1⟩, ⟨k2, k3⟩⟩, k4, k5⟩ : ((κ ≤ h0 / 2 / P.RP ∧ κ ≤ 1 / P.RP) ∧ (κ ≤ η / 2 / P.RP ∧ κ ≤ v0 / 2)) ∧
      κ ≤ 1 ∧ κ ≤ c / 2 := by
    have := le_refl κ
    nth_rewrite 2 [hκ] at this
    simpa only [le_min_iff] using this
  rw [le_div_iff₀ hR] at k0 k1 k2
  have hCpos : 0 < C := by linarith
  refine ⟨C, min ρ₀ (κ / (6 * C)), hC, lt_min hρ₀ (by positivity), fun G δ ε hδ hε0 hε hG z b S' hb0 hbT hz hz0 => ?_⟩
  have hδ0 : 0 ≤ δ := (abs_nonneg _).trans hz0.r
  have q1 : C * δ ≤ κ / 6 := by
    have := hδ.trans (min_le_right _ _)
    rw [le_div_iff₀ (by positivity)] at this; linarith
  have q2 : C * ε ≤ κ / 6 := by
    have := hε.trans (min_le_right _ _)
    rw [le_div_iff₀ (by positivity)] at this; linarith
  have hsmall : C * (δ + 2 * ε) < κ := by nlinarith
  have hsafe_of : ∀ t ∈ Set.Icc 0 b, ‖(z t).toR7 - (y t).toR7‖ ≤ κ →
      Safe P (h0 / 2) (h1 + 1) (v0 / 2) (v1 + 1) (c / 2) (η / 2) (z t) := fun t ht h =>
    safe_near hR (hreg t ⟨ht.1, ht.2.trans hbT⟩) ((near_iff _ _ _).mpr h) k0 k1 k2 k3 k4 k5
  have hfollow : ∀ τ, τ ≤ b → (∀ t ∈ Set.Icc 0 τ, Safe P (h0 / 2) (h1 + 1) (v0 / 2) (v1 + 1) (c / 2) (η / 2) (z t)) →
      NearFlight (fun t s => (Vehicle.mk' m beta LD A alpha RN P atm u f st).EOM s t d) z 0 τ S' ε := by
    intro τ hτb hsafe
    have hzτ := flight_mono hz le_rfl hτb
    refine ⟨hzτ.r, hzτ.theta, hzτ.phi, hzτ.v, hzτ.psi, hzτ.gamma, hzτ.drange, fun t ht hS =>
      ⟨G t (z t), ?_, hG t (z t) (hsafe t ⟨ht.1.le, ht.2.le⟩)⟩⟩
    have := hzτ.solves t ht hS
    exact ⟨this.r, this.theta, this.phi, this.v, this.psi, this.gamma, this.drange⟩
  have hnear : ∀ τ, 0 ≤ τ → τ ≤ b →
      (∀ t ∈ Set.Icc 0 τ, Safe P (h0 / 2) (h1 + 1) (v0 / 2) (v1 + 1) (c / 2) (η / 2) (z t)) →
      ∀ t ∈ Set.Icc 0 τ, Near (C * (δ + 2 * ε)) (z t) (y t) := fun τ hτ0 hτb hsafe t ht =>
    hclose z τ δ ε S' hτ0 (hτb.trans hbT) hε0 (hε.trans (min_le_left _ _)) (hδ.trans (min_le_left _ _)) hz0
      (hfollow τ hτb hsafe) t ht
  -- the flight never gets further away than `κ`
  have hcont : ContinuousOn (fun t => ‖(z t).toR7 - (y t).toR7‖) (Set.Icc 0 b) :=
    ((flight_state_cont hz).sub ((flight_state_cont hy).mono (Set.Icc_subset_Icc_right hbT))).norm
  have hall : ∀ t ∈ Set.Icc 0 b, ‖(z t).toR7 - (y t).toR7‖ < κ := by
    by_contra hc
    push Not at hc
    obtain ⟨t₁, ht₁, hbad⟩ := hc
    have h00 : ‖(z 0).toR7 - (y 0).toR7‖ < κ := by
      refine lt_of_le_of_lt ((near_iff _ _ _).mp hz0) ?_
      have : δ ≤ C * δ := le_mul_of_one_le_left hδ0 hC
      linarith
    -- first time at the distance `κ`
    let Z : Set ℝ := Set.Icc 0 b ∩ (fun t => ‖(z t).toR7 - (y t).toR7‖) ⁻¹' Set.Ici κ
    have hZc : IsCompact Z := by
      refine isCompact_Icc.of_isClosed_subset (hcont.preimage_isClosed_of_isClosed isClosed_Icc isClosed_Ici)
        Set.inter_subset_left
    obtain ⟨t₀, ht₀, hmin⟩ := hZc.exists_isLeast ⟨t₁, ht₁, hbad⟩
    have ht₀κ : κ ≤ ‖(z t₀).toR7 - (y t₀).toR7‖ := ht₀.2
    have ht₀b : t₀ ∈ Set.Icc 0 b := ht₀.1
    have hbefore : ∀ t ∈ Set.Icc 0 b, t < t₀ → ‖(z t).toR7 - (y t).toR7‖ < κ := by
      intro t ht htt
      by_contra h
      exact absurd (hmin ⟨ht, not_lt.mp h⟩) (not_le.mpr htt)
    have ht₀0 : 0 < t₀ := by
      rcases eq_or_lt_of_le ht₀b.1 with h | h
      · rw [← h] at ht₀κ; linarith
      · exact h
    -- before that time the flight is much closer
    have hmuch : ∀ t ∈ Set.Ico 0 t₀, ‖(z t).toR7 - (y t).toR7‖ ≤ C * (δ + 2 * ε) := by
      intro t ht
      have htb : t ≤ b := ht.2.le.trans ht₀b.2
      exact (near_iff _ _ _).mp (hnear t ht.1 htb (fun r hr => hsafe_of r ⟨hr.1, hr.2.trans htb⟩
        (hbefore r ⟨hr.1, hr.2.trans htb⟩ (lt_of_le_of_lt hr.2 ht.2)).le) t ⟨ht.1, le_rfl⟩)
    have hlim : ‖(z t₀).toR7 - (y t₀).toR7‖ ≤ C * (δ + 2 * ε) := by
      have h1 : ContinuousWithinAt (fun t => ‖(z t).toR7 - (y t).toR7‖) (Set.Ico 0 t₀) t₀ :=
        (hcont t₀ ht₀b).mono (fun t ht => ⟨ht.1, ht.2.le.trans ht₀b.2⟩)
      have h2 : t₀ ∈ closure (Set.Ico 0 t₀) := by rw [closure_Ico ht₀0.ne]; exact ⟨ht₀0.le, le_rfl⟩
      have := mem_closure_iff_nhdsWithin_neBot.mp h2
      exact le_of_tendsto h1 (eventually_nhdsWithin_of_forall hmuch)
    linarith
  have hsafe : ∀ t ∈ Set.Icc 0 b, Safe P (h0 / 2) (h1 + 1) (v0 / 2) (v1 + 1) (c / 2) (η / 2) (z t) :=
    fun t ht => hsafe_of t ht (hall t ht).le
  exact ⟨hfollow b le_rfl hsafe, hnear b hb0 le_rfl hsafe⟩

/-- The rates in two atmospheres of almost the same density. -/
theorem eom_near_density {P : Planet} (hR : 0 < P.RP) (hrho : 0 < P.rho0) (atm atm' : Atmosphere) {m A : ℝ} (hm : 0 < m)
    (hA : 0 < A) {beta : ℝ} (hb : 0 < beta) (LD alpha RN : ℝ) (f : ℝ → ℝ)
    (st : InitState) {h0 h1 v0 v1 c η e : ℝ} (hv : 0 < v0) (hc : 0 < c) (d t : ℝ) {s : FState}
    (hs : Safe P h0 h1 v0 v1 c η s)
    (he : |P.density atm' (s.r * P.RP - P.RP) - P.density atm (s.r * P.RP - P.RP)| ≤ e) :
    Near (P.RP * (v1 ^ 2 + v1 + v1 / c) * ((1 + |LD|) / beta) * e)
      ((Vehicle.mk' m beta LD A alpha RN P atm' false f st).EOM s t d)
      ((Vehicle.mk' m beta LD A alpha RN P atm false f st).EOM s t d) := by
  have hs0 := hs.slow
  have hs1 := hs.fast
  have hspos : 0 < s.v := hv.trans_le hs0
  have hv1 : 0 < v1 := hspos.trans_le hs1
  have he0 : 0 ≤ e := (abs_nonneg _).trans he
  have hcg : 0 < cos s.gamma := hc.trans_le hs.gamma
  set D := P.density atm (s.r * P.RP - P.RP) with hDdef
  set D' := P.density atm' (s.r * P.RP - P.RP) with hDdef'
  have hL := abs_nonneg LD
  set K := P.RP * (v1 ^ 2 + v1 + v1 / c) * ((1 + |LD|) / beta) * e with hKdef
  have hK : 0 ≤ K := by positivity
  have z0 : ∀ a : ℝ, |a - a| ≤ K := fun a => by rw [sub_self, abs_zero]; exact hK
  have hvv : s.v ^ 2 ≤ v1 ^ 2 := pow_le_pow_left₀ hspos.le hs1 2
  -- a common estimate
  have est : ∀ w x : ℝ, 0 ≤ w → w ≤ v1 ^ 2 + v1 + v1 / c → |x| ≤ (1 + |LD|) / beta →
      |(D' - D) * (w * (1 / 2 * P.RP)) * x| ≤ K := by
    intro w x hw0 hw hx
    rw [abs_mul, abs_mul, abs_of_nonneg (show 0 ≤ w * (1 / 2 * P.RP) by positivity)]
    calc |D' - D| * (w * (1 / 2 * P.RP)) * |x| ≤ e * ((v1 ^ 2 + v1 + v1 / c) * (1 / 2 * P.RP)) * ((1 + |LD|) / beta) := by
          gcongr
      _ ≤ e * ((v1 ^ 2 + v1 + v1 / c) * (1 * P.RP)) * ((1 + |LD|) / beta) := by
          gcongr
          norm_num
      _ = K := by rw [hKdef]; ring
  have hlb : ∀ x : ℝ, |x| ≤ 1 → |LD * x / beta| ≤ (1 + |LD|) / beta := by
    intro x hx
    rw [abs_div, abs_of_pos hb, abs_mul]
    gcongr
    nlinarith [abs_nonneg x]
  refine ⟨z0 _, z0 _, z0 _, ?_, ?_, ?_, z0 _⟩
  · change |((Vehicle.mk' m beta LD A alpha RN P atm' false f st).a_sbar s.r s.theta s.phi s.v d + _ + _) -
      ((Vehicle.mk' m beta LD A alpha RN P atm false f st).a_sbar s.r s.theta s.phi s.v d + _ + _)| ≤ _
    have key : |(Vehicle.mk' m beta LD A alpha RN P atm' false f st).a_sbar s.r s.theta s.phi s.v d -
        (Vehicle.mk' m beta LD A alpha RN P atm false f st).a_sbar s.r s.theta s.phi s.v d| ≤ K := by
      rw [drag_closed hR hrho atm hm hA hb, drag_closed hR hrho atm' hm hA hb, ← hDdef, ← hDdef']
      have e : -(1 / 2 * D' * s.v ^ 2 * P.RP * (1 / beta)) - -(1 / 2 * D * s.v ^ 2 * P.RP * (1 / beta)) =
        (D' - D) * (s.v ^ 2 * (1 / 2 * P.RP)) * -(1 / beta) := by ring
      rw [e]
      refine est _ _ (by positivity) ?_ ?_
      · have : 0 ≤ v1 / c := by positivity
        linarith
      · rw [abs_neg, abs_of_pos (by positivity)]
        gcongr
        linarith
    convert key using 2
    exact (add_sub_add_right_eq_sub _ _ _).trans (add_sub_add_right_eq_sub _ _ _)
  · have key : |(1 / 2 * D' * s.v ^ 2 * P.RP * (LD * sin d / beta)) / (s.v * (cos s.gamma + 1e-2)) -
        (1 / 2 * D * s.v ^ 2 * P.RP * (LD * sin d / beta)) / (s.v * (cos s.gamma + 1e-2))| ≤ K := by
      have e100 : (1e-2 : ℝ) = 1 / 100 := by norm_num
      rw [e100]
      have hden : 0 < cos s.gamma + 1 / 100 := by linarith
      have e : (1 / 2 * D' * s.v ^ 2 * P.RP * (LD * sin d / beta)) / (s.v * (cos s.gamma + 1 / 100)) -
        (1 / 2 * D * s.v ^ 2 * P.RP * (LD * sin d / beta)) / (s.v * (cos s.gamma + 1 / 100)) =
        (D' - D) * (s.v / (cos s.gamma + 1 / 100) * (1 / 2 * P.RP)) * (LD * sin d / beta) := by
        field_simp
      have hq : s.v / (cos s.gamma + 1 / 100) ≤ v1 / c :=
        div_le_div₀ hv1.le hs1 hc (by linarith [hs.gamma])
      rw [e]
      refine est _ _ (by positivity) ?_ (hlb _ (abs_sin_le_one d))
      have : 0 ≤ v1 ^ 2 := by positivity
      linarith
    rw [← lift_closed hR hrho atm' hm hA hb LD alpha RN false f st s (sin d),
      ← lift_closed hR hrho atm hm hA hb LD alpha RN false f st s (sin d)] at key
    refine le_of_eq_of_le (congrArg abs ?_) key
    exact shared_terms3 _ _ _ _ _ _ _
  · have key : |(1 / 2 * D' * s.v ^ 2 * P.RP * (LD * cos d / beta)) / s.v -
        (1 / 2 * D * s.v ^ 2 * P.RP * (LD * cos d / beta)) / s.v| ≤ K := by
      have e : (1 / 2 * D' * s.v ^ 2 * P.RP * (LD * cos d / beta)) / s.v -
        (1 / 2 * D * s.v ^ 2 * P.RP * (LD * cos d / beta)) / s.v =
        (D' - D) * (s.v * (1 / 2 * P.RP)) * (LD * cos d / beta) := by
        field_simp
      rw [e]
      refine est _ _ hspos.le ?_ (hlb _ (abs_cos_le_one d))
      have : 0 ≤ v1 ^ 2 := by positivity
      have : 0 ≤ v1 / c := by positivity
      linarith
    rw [← lift_closed hR hrho atm' hm hA hb LD alpha RN false f st s (cos d),
      ← lift_closed hR hrho atm hm hA hb LD alpha RN false f st s (cos d)] at key
    refine le_of_eq_of_le (congrArg abs ?_) key
    exact shared_terms _ _ _ _ _ _ _

/-- C102: a vehicle whose ballistic coefficient and lift-to-drag ratio are almost the given ones, flown from almost the given
state with a bank angle that varies over time but stays close to the given one, in another atmosphere (any other one, such as a
perturbed profile of a Monte Carlo run) whose density is almost the given one at the altitudes concerned, flies almost the
given flight for as long as its own flight lasts: the difference is at most a constant times the largest of the changes.  For
a vehicle with a drag curve, whose drag depends also on the sound speed, the atmosphere is the given one. -/
theorem C102_nearby_conditions (name : String) (F : AtmFile) (hF : (name, F) ∈ shippedFiles) (P : Planet)
    (hP : Planet.init name = .ok P) (atm : Atmosphere) (hatm : LoadedCubic P F.km (fileRows F) atm)
    (m beta LD A alpha RN : ℝ) (u : Bool) (f : ℝ → ℝ) (st : InitState) (hm : 0 < m) (hA : 0 < A) (hb : 0 < beta)
    (hf : u = true → ContDiff ℝ 1 f)
    (d T h0 h1 v0 v1 c η : ℝ) (hT : 0 < T) (hh : 0 < h0) (hv : 0 < v0) (hc : 0 < c) (hη : 0 < η)
    (y : ℝ → FState) (S : Finset ℝ)
    (hy : SwitchedFlight (fun t s => (Vehicle.mk' m beta LD A alpha RN P atm u f st).EOM s t d) y 0 T S)
    (hreg : ∀ t ∈ Set.Icc 0 T, Safe P h0 h1 v0 v1 c η (y t)) :
    ∃ C ρ : ℝ, 1 ≤ C ∧ 0 < ρ ∧ ∀ (atm' : Atmosphere) (beta' LD' alpha' RN' : ℝ) (bank : ℝ → ℝ) (st' : InitState) (δ : ℝ),
      δ ≤ ρ → |beta' - beta| ≤ δ → |LD' - LD| ≤ δ → (∀ t, |bank t - d| ≤ δ) → (u = true → atm' = atm) →
      (∀ h, h0 / 2 ≤ h → h ≤ h1 + 1 → |P.density atm' h - P.density atm h| ≤ δ) →
      ∀ (z : ℝ → FState) (b : ℝ) (S' : Finset ℝ), 0 ≤ b → b ≤ T →
        SwitchedFlight (fun t s => (Vehicle.mk' m beta' LD' A alpha' RN' P atm' u f st').EOM s t (bank t)) z 0 b S' →
        Near δ (z 0) (y 0) →
        NearFlight (fun t s => (Vehicle.mk' m beta LD A alpha RN P atm u f st).EOM s t d) z 0 b S' (C * δ) ∧
        ∀ t ∈ Set.Icc 0 b, Near (C * δ) (z t) (y t) := by
  obtain ⟨_, hR, _, hrho, _⟩ := C01_planet_consistent name P hP
  obtain ⟨C₀, ρ₀, hC₀, hρ₀, hclose⟩ := C102_nearby_dynamics name F hF P hP atm hatm m beta LD A alpha RN u f st hf d T
    h0 h1 v0 v1 c η hT hh hv hc hη y S hy hreg
  obtain ⟨B, hB0, hB⟩ := density_bounded hF hP hatm (show 0 < h0 / 2 by linarith)
  have hv1 : 0 ≤ v1 := by
    have := hreg 0 ⟨le_rfl, hT.le⟩
    linarith [this.slow, this.fast]
  set M := 2 * (1 + |LD|) / beta + 2 * (1 + |LD|) / beta ^ 2 with hM
  have hM0 : 0 ≤ M := by positivity
  set W := P.RP * ((v1 + 1) ^ 2 + (v1 + 1) + (v1 + 1) / (c / 2)) with hW
  have hW0 : 0 ≤ W := by positivity
  set K := B * W * M + W * ((2 + |LD|) / (beta / 2)) with hK
  have hK0 : 0 ≤ K := by positivity
  set C := C₀ * (1 + 2 * K) + K with hC
  have hC2 : 1 ≤ C₀ * (1 + 2 * K) := one_le_mul_of_one_le_of_one_le hC₀ (by linarith)
  have hC1 : 1 ≤ C := by linarith
  have hCC : C₀ * (1 + 2 * K) ≤ C := by linarith
  have hKC : K ≤ C := by linarith
  have hCpos : 0 < C := by linarith
  refine ⟨C, min (ρ₀ / C) (min 1 (beta / 2)), hC1, by
    refine lt_min ?_ (lt_min ?_ ?_) <;> positivity,
    fun atm' beta' LD' alpha' RN' bank st' δ hδ p1 p2 p3 hu pD z b S' hb0 hbT hz hz0 => ?_⟩
  have hδ0 : 0 ≤ δ := (abs_nonneg _).trans hz0.r
  have q1 : C * δ ≤ ρ₀ := by
    have := hδ.trans (min_le_left _ _)
    rw [le_div_iff₀ hCpos] at this; linarith
  have q2 : δ ≤ 1 := hδ.trans ((min_le_right _ _).trans (min_le_left _ _))
  have q3 : δ ≤ beta / 2 := hδ.trans ((min_le_right _ _).trans (min_le_right _ _))
  have hδC : δ ≤ C * δ := le_mul_of_one_le_left hδ0 hC1
  have hKδ : K * δ ≤ C * δ := mul_le_mul_of_nonneg_right hKC hδ0
  have hb2 : beta / 2 ≤ beta' := by
    have := abs_le.mp p1
    linarith
  have hb' : 0 < beta' := by linarith
  have hLD' : |LD'| ≤ |LD| + 1 := by
    have h1 := abs_add_le (LD' - LD) LD
    rw [sub_add_cancel] at h1
    linarith
  have hen : ∀ t s, Safe P (h0 / 2) (h1 + 1) (v0 / 2) (v1 + 1) (c / 2) (η / 2) s →
      Near (K * δ) ((Vehicle.mk' m beta' LD' A alpha' RN' P atm' u f st').EOM s t (bank t))
        ((Vehicle.mk' m beta LD A alpha RN P atm u f st).EOM s t d) := by
    intro t s hs
    obtain ⟨-, e1, e2⟩ := param_near hb q3 p1 p2 ((abs_cos_sub_cos_le (bank t) d).trans (p3 t)) (abs_cos_le_one d)
      (abs_cos_le_one (bank t))
    obtain ⟨-, -, e3⟩ := param_near hb q3 p1 p2 ((abs_sin_sub_sin_le (bank t) d).trans (p3 t)) (abs_sin_le_one d)
      (abs_sin_le_one (bank t))
    have a1 := eom_near hR hrho atm hm hA hb hb' LD LD' alpha alpha' RN RN' u f st st' (half_pos hv) (half_pos hc) hB0 hB
      d (bank t) t hs e1 e2 e3
    have a2 : Near (W * ((2 + |LD|) / (beta / 2)) * δ)
        ((Vehicle.mk' m beta' LD' A alpha' RN' P atm' u f st').EOM s t (bank t))
        ((Vehicle.mk' m beta' LD' A alpha' RN' P atm u f st').EOM s t (bank t)) := by
      cases u with
      | true =>
        rw [hu rfl, near_iff, sub_self, norm_zero]
        positivity
      | false =>
        refine Near.mono (eom_near_density hR hrho atm atm' hm hA hb' LD' alpha' RN' f st' (half_pos hv) (half_pos hc)
          (bank t) t hs (pD _ hs.low hs.high)) ?_
        rw [← hW]
        have : (1 + |LD'|) / beta' ≤ (2 + |LD|) / (beta / 2) :=
          div_le_div₀ (by positivity) (by linarith) (by linarith) hb2
        gcongr
    rw [near_iff] at a1 a2 ⊢
    have := norm_sub_le_norm_sub_add_norm_sub
      ((Vehicle.mk' m beta' LD' A alpha' RN' P atm' u f st').EOM s t (bank t)).toR7
      ((Vehicle.mk' m beta' LD' A alpha' RN' P atm u f st').EOM s t (bank t)).toR7
      ((Vehicle.mk' m beta LD A alpha RN P atm u f st).EOM s t d).toR7
    refine this.trans ((add_le_add a2 a1).trans (le_of_eq ?_))
    rw [hK, hM, hW]
    ring
  obtain ⟨hn, hnear⟩ := hclose _ δ (K * δ) (by linarith) (by positivity) (by linarith) hen z b S' hb0 hbT hz hz0
  refine ⟨⟨hn.r, hn.theta, hn.phi, hn.v, hn.psi, hn.gamma, hn.drange, fun t ht hS => ?_⟩, fun t ht =>
    Near.mono (hnear t ht) ?_⟩
  · obtain ⟨w, w1, w2⟩ := hn.rates t ht hS
    exact ⟨w, w1, Near.mono w2 hKδ⟩
  · have := mul_le_mul_of_nonneg_right hCC hδ0
    linarith

/-- Case for `C102_nearby_dynamics` and `C102_nearby_conditions`: the flight of `mars_reference` with constant drag, in an
atmosphere whose density table is off by at most `δ` and with a wobbling bank angle. -/
example : ∃ (P : Planet) (atm : Atmosphere) (y : ℝ → FState) (T C ρ : ℝ), Planet.init "MARS" = .ok P ∧
    LoadedCubic P mars.km (fileRows mars) atm ∧ 0 < T ∧ 0 < ρ ∧
    ∀ (w : ℝ → ℝ) (δ : ℝ), 0 ≤ δ → δ ≤ ρ → (∀ h, |w h| ≤ δ) → ∀ (z : ℝ → FState) (b : ℝ) (S' : Finset ℝ), 0 ≤ b → b ≤ T →
      SwitchedFlight (fun t s => (Vehicle.mk' 1000 (100 - δ) (0.2 + δ) 10 0 1 P
        { atm with densityInt := fun h => atm.densityInt h + w h } false demoCurve ⟨100, 0, 0, 4, 0, -10, 0, 0⟩).EOM s t
        (60 * π / 180.0 + δ * sin t)) z 0 b S' →
      Near δ (z 0) (y 0) → ∀ t ∈ Set.Icc 0 b, Near (C * δ) (z t) (y t) := by
  obtain ⟨P, atm, y, S, dt, hP, hatm, hdt, y0, hy, hsafe, -⟩ := mars_reference false
  have hF : ("MARS", mars) ∈ shippedFiles := by simp [shippedFiles]
  have htau : 0 < P.tau := (C01_planet_consistent "MARS" P hP).2.2.2.2.2.2.2.2.2.1
  obtain ⟨C, ρ, -, hρ, h⟩ := C102_nearby_conditions "MARS" mars hF P hP atm hatm 1000 100 0.2 10 0 1 false demoCurve _
    (by norm_num) (by norm_num) (by norm_num) (fun _ => demoCurve_smooth) _ _ 49999 100001 0.1 2.4 0.1 1 (by positivity)
    (by norm_num) (by norm_num) (by norm_num) (by norm_num) y S hy hsafe
  refine ⟨P, atm, y, _, C, ρ, hP, hatm, (by positivity : 0 < (dt + dt) / P.tau), hρ,
    fun w δ hδ0 hδ hw z b S' hb0 hbT hz hz0 => ?_⟩
  refine (h _ _ _ _ _ _ _ δ hδ ?_ ?_ ?_ (by simp) ?_ z b S' hb0 hbT hz hz0).2
  · rw [show 100 - δ - 100 = -δ by ring, abs_neg, abs_of_nonneg hδ0]
  · rw [add_sub_cancel_left, abs_of_nonneg hδ0]
  · intro t
    rw [add_sub_cancel_left, abs_mul, abs_of_nonneg hδ0]
    exact mul_le_of_le_one_right hδ0 (abs_sin_le_one t)
  · intro h _ _
    by_cases h1 : 0 ≤ h ∧ h ≤ P.hThres
    · simp only [Planet.density, h1, and_self, if_true, add_sub_cancel_left]
      exact hw h
    · simp only [Planet.density, h1, if_false, sub_self, abs_zero]
      exact hδ0

end AMAT.Props
