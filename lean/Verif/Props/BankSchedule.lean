import Verif.Props.Sensitivity

/-
C102, continued: flights in several legs, each at its own constant bank angle, ballistic coefficient and lift-to-drag ratio
(bank schedules, jettison of a drag skirt).
-/

noncomputable section

open Real

namespace AMAT.Spec

open AMAT

/-- One leg of a flight: ballistic coefficient, lift-to-drag ratio, bank angle, duration, and the motion. -/
structure Leg where
  beta : ℝ
  LD : ℝ
  d : ℝ
  T : ℝ
  y : ℝ → FState

/-- The legs are flown one after the other, the first from the state `s`, each from the end of the one before, by the vehicle
`V beta LD`. -/
def FlownFrom (V : ℝ → ℝ → Vehicle) : FState → List Leg → Prop
  | _, [] => True
  | s, l :: ls => l.y 0 = s ∧ (∃ S, SwitchedFlight (fun t s => (V l.beta l.LD).EOM s t l.d) l.y 0 l.T S) ∧
      FlownFrom V (l.y l.T) ls

end AMAT.Spec

namespace AMAT.Props

open Real AMAT AMAT.Spec AMAT.Data AMAT.Spline AMAT.Lits AMAT.Piecewise

/-- **C102**, flights in legs.  If a flight in legs stays at a distance from the obstacles of C100, a flight from almost the
same state in legs of the same durations with almost the same ballistic coefficients, lift-to-drag ratios and bank angles can
be flown to the end as well, and differs from the given one by at most a constant times the largest of the changes. -/
theorem C102_legs (name : String) (F : AtmFile) (hF : (name, F) ∈ shippedFiles) (P : Planet)
    (hP : Planet.init name = .ok P) (atm : Atmosphere) (hatm : LoadedCubic P F.km (fileRows F) atm)
    (m A : ℝ) (hm : 0 < m) (hA : 0 < A) (u : Bool) (f : ℝ → ℝ) (hf : u = true → ContDiff ℝ 1 f)
    (h0 h1 v0 v1 c η : ℝ) (hh : 0 < h0) (hv : 0 < v0) (hc : 0 < c) (hη : 0 < η) (alpha RN : ℝ) (st : InitState)
    (legs : List Leg) (s₀ : FState)
    (hflown : FlownFrom (fun beta LD => Vehicle.mk' m beta LD A alpha RN P atm u f st) s₀ legs)
    (hlegs : ∀ l ∈ legs, 0 < l.beta ∧ 0 < l.T ∧ ∀ t ∈ Set.Icc 0 l.T, Safe P h0 h1 v0 v1 c η (l.y t)) :
    ∃ C ρ : ℝ, 1 ≤ C ∧ 0 < ρ ∧ ∀ (alpha' RN' : ℝ) (st' : InitState) (s : FState) (params : List (ℝ × ℝ × ℝ)) (δ : ℝ),
      0 ≤ δ → δ ≤ ρ → Near δ s s₀ →
      List.Forall₂ (fun (l : Leg) (p : ℝ × ℝ × ℝ) => |p.1 - l.beta| ≤ δ ∧ |p.2.1 - l.LD| ≤ δ ∧ |p.2.2 - l.d| ≤ δ) legs params →
      ∃ legs' : List Leg, FlownFrom (fun beta LD => Vehicle.mk' m beta LD A alpha' RN' P atm u f st') s legs' ∧
        legs'.map (fun l => (l.beta, l.LD, l.d)) = params ∧
        List.Forall₂ (fun l l' : Leg => l'.T = l.T ∧ ∀ t ∈ Set.Icc 0 l.T, Near (C * δ) (l'.y t) (l.y t)) legs legs' := by
  induction legs generalizing s₀ with
  | nil =>
    refine ⟨1, 1, le_rfl, one_pos, fun alpha' RN' st' s params δ _ _ _ hp => ⟨[], trivial, ?_, List.Forall₂.nil⟩⟩
    cases hp; rfl
  | cons l ls ih =>
    obtain ⟨hl0, ⟨S, hS⟩, hrest⟩ := hflown
    obtain ⟨hb, hT, hsafe⟩ := hlegs l List.mem_cons_self
    obtain ⟨C₁, ρ₁, hC₁, hρ₁, H₁⟩ := C102_nearby_vehicles name F hF P hP atm hatm m l.beta l.LD A alpha RN u f st hm hA hb hf
      l.d l.T h0 h1 v0 v1 c η hT hh hv hc hη l.y S hS hsafe
    obtain ⟨C₂, ρ₂, hC₂, hρ₂, H₂⟩ := ih (l.y l.T) hrest fun k hk => hlegs k (List.mem_cons_of_mem _ hk)
    have hC0 : 0 < C₁ := by linarith
    refine ⟨C₁ * C₂, min ρ₁ (ρ₂ / C₁), by nlinarith, lt_min hρ₁ (by positivity),
      fun alpha' RN' st' s params δ hδ0 hδ hs hp => ?_⟩
    have hδ1 : δ ≤ ρ₁ := hδ.trans (min_le_left _ _)
    have hδ2 : C₁ * δ ≤ ρ₂ := by
      have := hδ.trans (min_le_right _ _)
      rw [le_div_iff₀ hC0] at this
      linarith
    have hδ3 : δ ≤ C₁ * δ := by nlinarith
    have hδ4 : C₁ * δ ≤ C₁ * C₂ * δ := by nlinarith [mul_nonneg hC0.le hδ0]
    cases hp with
    | @cons _ p _ ps hp hps =>
      obtain ⟨z, S', z0, hz, -, hzn⟩ := H₁ p.1 p.2.1 alpha' RN' p.2.2 st' s δ hδ1 hp.1 hp.2.1 hp.2.2 (by rw [hl0]; exact hs)
      obtain ⟨ls', g1, g2, g3⟩ := H₂ alpha' RN' st' (z l.T) ps (C₁ * δ) (by positivity) hδ2 (hzn l.T ⟨hT.le, le_rfl⟩)
        (hps.imp fun a b h => ⟨h.1.trans hδ3, h.2.1.trans hδ3, h.2.2.trans hδ3⟩)
      refine ⟨⟨p.1, p.2.1, p.2.2, l.T, z⟩ :: ls', ⟨z0, ⟨S', hz⟩, g1⟩, by rw [List.map_cons, g2], List.Forall₂.cons ⟨rfl, ?_⟩
        (g3.imp fun a b h => ⟨h.1, fun t ht => Near.mono (h.2 t ht) (le_of_eq (by ring))⟩)⟩
      exact fun t ht => Near.mono (hzn t ht) hδ4

/-- From every safe state a vehicle can fly on for a while at any bank angle. -/
theorem leg_exists (name : String) (F : AtmFile) (hF : (name, F) ∈ shippedFiles) (P : Planet)
    (hP : Planet.init name = .ok P) (atm : Atmosphere) (hatm : LoadedCubic P F.km (fileRows F) atm)
    (m beta LD A alpha RN : ℝ) (u : Bool) (f : ℝ → ℝ) (st : InitState) (hf : u = true → ContDiff ℝ 1 f)
    (d h0 h1 v0 v1 c η : ℝ) (hh : 0 < h0) (hv : 0 < v0) (hc : 0 < c) (hη : 0 < η)
    (s : FState) (hs : Safe P h0 h1 v0 v1 c η s) :
    ∃ (y : ℝ → FState) (T : ℝ) (S : Finset ℝ), 0 < T ∧ y 0 = s ∧
      SwitchedFlight (fun t s => (Vehicle.mk' m beta LD A alpha RN P atm u f st).EOM s t d) y 0 T S ∧
      ∀ t ∈ Set.Icc 0 T, Safe P (h0 / 2) (h1 + 1) (v0 / 2) (v1 + 1) (c / 2) (η / 2) (y t) := by
  have hR : 0 < P.RP := (C01_planet_consistent name P hP).2.1
  have hn0 : Near 0 s s := ⟨by simp, by simp, by simp, by simp, by simp, by simp, by simp⟩
  have hs' := safe_near hR hs hn0 (by linarith) (by linarith) (by linarith) (by linarith) (by linarith) (by linarith)
  obtain ⟨y, b, S, hb0, -, y0, hy, -⟩ := C100_flight_continues name F hF P hP atm hatm m beta LD A alpha RN u f st
    hf d 1 (h0 / 2) (h1 + 1) (v0 / 2) (v1 + 1) (c / 2) (η / 2) one_pos (by linarith) (by linarith) (by linarith)
    (by linarith) s hs'
  set κ := min (min (min (h0 / 2 / P.RP) (1 / P.RP)) (min (η / 2 / P.RP) (v0 / 2))) (min 1 (c / 2)) with hκ
  have hκ0 : 0 < κ := by
    rw [hκ]; simp only [lt_min_iff]
    exact ⟨⟨⟨by positivity, by positivity⟩, ⟨by positivity, by positivity⟩⟩, by positivity, by positivity⟩
  obtain ⟨⟨⟨k0, k1⟩, ⟨k2, k3⟩⟩, k4, k5⟩ : ((κ ≤ h0 / 2 / P.RP ∧ κ ≤ 1 / P.RP) ∧ (κ ≤ η / 2 / P.RP ∧ κ ≤ v0 / 2)) ∧
      κ ≤ 1 ∧ κ ≤ c / 2 := by
    have := le_refl κ
    nth_rewrite 2 [hκ] at this
    simpa only [le_min_iff] using this
  rw [le_div_iff₀ hR] at k0 k1 k2
  have hcont := flight_state_cont hy 0 ⟨le_rfl, hb0.le⟩
  obtain ⟨ε, hε, hball⟩ := Metric.continuousWithinAt_iff.mp hcont κ hκ0
  refine ⟨y, min b (ε / 2), S, lt_min hb0 (by positivity), y0, ?_, fun t ht => ?_⟩
  · have hsub : Set.Icc 0 (min b (ε / 2)) ⊆ Set.Icc 0 b := Set.Icc_subset_Icc_right (min_le_left _ _)
    exact ⟨hy.r.mono hsub, hy.theta.mono hsub, hy.phi.mono hsub, hy.v.mono hsub, hy.psi.mono hsub, hy.gamma.mono hsub,
      hy.drange.mono hsub, fun t ht => hy.solves t ⟨ht.1, ht.2.trans_le (min_le_left _ _)⟩⟩
  · have h1' := hball (x := t) ⟨ht.1, ht.2.trans (min_le_left _ _)⟩ (by
      rw [dist_zero_right, Real.norm_eq_abs, abs_of_nonneg ht.1]
      have := ht.2.trans (min_le_right _ _)
      linarith)
    rw [dist_eq_norm] at h1'
    have hn : Near κ (y t) s := by rw [near_iff, ← y0]; exact h1'.le
    exact safe_near hR hs hn k0 k1 k2 k3 k4 k5

/-- Case for `C102_legs`: a vehicle 100 km above Mars flies for a while with a bank angle of 60 degrees and a ballistic
coefficient of 100 kg/m², then drops part of its drag area (200 kg/m²) and banks to the other side. -/
example : ∃ (P : Planet) (atm : Atmosphere) (legs : List Leg) (s₀ : FState) (C ρ : ℝ), Planet.init "MARS" = .ok P ∧
    LoadedCubic P mars.km (fileRows mars) atm ∧
    legs.map (fun l => (l.beta, l.LD, l.d)) = [(100, 0.2, 60 * π / 180.0), (200, 0.2, -(60 * π / 180.0))] ∧
    FlownFrom (fun beta LD => Vehicle.mk' 1000 beta LD 10 0 1 P atm false demoCurve ⟨100, 0, 0, 4, 0, -10, 0, 0⟩) s₀ legs ∧
    0 < ρ ∧ ∀ δ, 0 ≤ δ → δ ≤ ρ → ∀ s, Near δ s s₀ → ∃ legs' : List Leg,
      FlownFrom (fun beta LD => Vehicle.mk' 1000 beta LD 10 0 1 P atm false demoCurve ⟨100, 0, 0, 4, 0, -10, 0, 0⟩) s legs' ∧
      legs'.map (fun l => (l.beta, l.LD, l.d)) =
        [(100 + δ, 0.2, 60 * π / 180.0 - δ), (200, 0.2 - δ, -(60 * π / 180.0))] ∧
      List.Forall₂ (fun l l' : Leg => l'.T = l.T ∧ ∀ t ∈ Set.Icc 0 l.T, Near (C * δ) (l'.y t) (l.y t)) legs legs' := by
  obtain ⟨P, atm, y, S, dt, hP, hatm, hdt, y0, hy, hsafe, -⟩ := mars_reference false
  have hF : ("MARS", mars) ∈ shippedFiles := by simp [shippedFiles]
  obtain ⟨_, hR, _, _, _, _, _, _, _, htau, _⟩ := C01_planet_consistent "MARS" P hP
  have hT : 0 < (dt + dt) / P.tau := by positivity
  obtain ⟨z, T, S', hT', z0, hz, hzs⟩ := leg_exists "MARS" mars hF P hP atm hatm 1000 200 0.2 10 0 1 false demoCurve
    ⟨100, 0, 0, 4, 0, -10, 0, 0⟩ (fun _ => demoCurve_smooth) (-(60 * π / 180.0)) 49999 100001 0.1 2.4 0.1 1 (by norm_num)
    (by norm_num) (by norm_num) (by norm_num) _ (hsafe _ ⟨hT.le, le_rfl⟩)
  have hflown : FlownFrom (fun beta LD => Vehicle.mk' 1000 beta LD 10 0 1 P atm false demoCurve ⟨100, 0, 0, 4, 0, -10, 0, 0⟩)
      (y 0) [⟨100, 0.2, 60 * π / 180.0, (dt + dt) / P.tau, y⟩, ⟨200, 0.2, -(60 * π / 180.0), T, z⟩] :=
    ⟨rfl, ⟨S, hy⟩, z0, ⟨S', hz⟩, trivial⟩
  obtain ⟨C, ρ, -, hρ, H⟩ := C102_legs "MARS" mars hF P hP atm hatm 1000 10 (by norm_num) (by norm_num) false demoCurve
    (fun _ => demoCurve_smooth) (49999 / 2) (100001 + 1) (0.1 / 2) (2.4 + 1) (0.1 / 2) (1 / 2) (by norm_num) (by norm_num)
    (by norm_num) (by norm_num) 0 1 ⟨100, 0, 0, 4, 0, -10, 0, 0⟩ _ _ hflown (by
      intro l hl
      rcases List.mem_pair.mp hl with rfl | rfl
      · refine ⟨by norm_num, hT, fun t ht => ?_⟩
        have hn0 : Near 0 (y t) (y t) := ⟨by simp, by simp, by simp, by simp, by simp, by simp, by simp⟩
        exact safe_near hR (hsafe t ht) hn0 (by norm_num) (by norm_num) (by norm_num) (by norm_num) (by norm_num) (by norm_num)
      · exact ⟨by norm_num, hT', hzs⟩)
  refine ⟨P, atm, _, y 0, C, ρ, hP, hatm, rfl, hflown, hρ, fun δ h0 hδ s hs => ?_⟩
  refine H 0 1 _ s _ δ h0 hδ hs (List.Forall₂.cons ⟨?_, ?_, ?_⟩ (List.Forall₂.cons ⟨?_, ?_, ?_⟩ List.Forall₂.nil))
  · rw [add_sub_cancel_left, abs_of_nonneg h0]
  · simpa using h0
  · change |60 * π / 180.0 - δ - 60 * π / 180.0| ≤ δ
    rw [sub_sub_cancel_left, abs_neg, abs_of_nonneg h0]
  · simpa using h0
  · change |0.2 - δ - 0.2| ≤ δ
    rw [sub_sub_cancel_left, abs_neg, abs_of_nonneg h0]
  · simpa using h0

end AMAT.Props
