import Verif.Props.AfterExit
import Verif.Props.CorridorLimit2

/-
C146: an exact flight that leaves the atmosphere of Mars, is judged captured by `isCaptured`, and leaves the planet for ever.
-/

noncomputable section

open Classical

namespace AMAT.Props

open AMAT Real AMAT.Spec AMAT.Data AMAT.Lits Filter

/-- A climbing exit state that is slower than escape speed relative to the planet, but has positive orbital energy, starts a
free motion that leaves the planet for ever. -/
theorem slow_exit_leaves (name : String) (P : Planet) (hP : Planet.init name = .ok P) (s : Terminal) (hr : 0 < s.r)
    (hv : s.v ^ 2 / 2 - P.GM / s.r < 0) (hE : 0 < exitEnergy P s) (hc : 0 ≤ s.v * sin s.g) :
    ∃ R U : ℝ → V3, CoastsFrom P s R U ∧ StrictMonoOn (fun t => V3.norm (R t)) (Set.Ici 0) ∧
      Tendsto (fun t => V3.norm (R t)) atTop atTop := by
  obtain ⟨_, _, hGM, _⟩ := C01_planet_consistent name P hP
  set R0 := pos s.r s.theta s.phi with hR0
  set U0 := vel s.theta s.phi s.v s.psi s.g + V3.cross (spin P.OMEGA) R0 with hU0
  have hn : V3.norm R0 = s.r := norm_pos_r hr
  have hdot : V3.dot R0 U0 = s.r * (s.v * sin s.g) := by
    have h1 := sin_sq_add_cos_sq s.theta
    have h2 := sin_sq_add_cos_sq s.phi
    simp only [hR0, hU0, pos, vel, along, up, horiz, east, north, spin, V3.cross, V3.dot, V3.add_x, V3.add_y, V3.add_z,
      V3.smul_x, V3.smul_y, V3.smul_z]
    linear_combination (s.r * s.v * (cos s.phi ^ 2 * sin s.g - cos s.g * sin s.psi * sin s.phi * cos s.phi)) * h1
      + (s.r * s.v * sin s.g) * h2
  have hE' : 0 < V3.norm U0 ^ 2 / 2 - P.GM / s.r := by
    have h : exitEnergy P s = V3.norm U0 ^ 2 / 2 - P.GM / V3.norm R0 := rfl
    rw [hn] at h
    linarith
  have hang : 0 < angMom R0 U0 := by
    refine lt_of_le_of_ne (V3.norm_nonneg _) fun h0 => ?_
    have h1 := norm_cross_sq R0 U0
    rw [show V3.norm (V3.cross R0 U0) = 0 from h0.symm, hn, hdot] at h1
    have h2 : s.r ^ 2 * (s.v ^ 2 * sin s.g ^ 2) ≤ s.r ^ 2 * s.v ^ 2 := by
      have := sin_sq_le_one s.g
      have h3 : s.v ^ 2 * sin s.g ^ 2 ≤ s.v ^ 2 * 1 := mul_le_mul_of_nonneg_left this (sq_nonneg _)
      nlinarith [sq_nonneg s.r]
    have h3 : s.r ^ 2 * s.v ^ 2 < s.r ^ 2 * V3.norm U0 ^ 2 := mul_lt_mul_of_pos_left (by linarith) (by positivity)
    nlinarith
  obtain ⟨R, U, hRU, e1, e2⟩ := hyperbolic_motion hGM R0 U0 (by rw [hn]; exact hr) hE hang
  have hco : CoastsFrom P s R U := ⟨hRU, e1, e2⟩
  have := C146_unbound_leaves name P hP s hr hE.le hc R U hco
  exact ⟨R, U, hco, this.1, this.2⟩

/-- Start at the altitude `h` (km) above Mars, climbing eastwards at 4.8 km/s relative to the planet. -/
def exitStart (h : ℝ) : InitState := ⟨h, 0, 0, 4.8, 0, 7, 0, 0⟩

/-- The vehicle of the case, in the shipped atmosphere. -/
def exitVehicle (P : Planet) (atm : Atmosphere) (h : ℝ) : Vehicle :=
  Vehicle.mk' 500 100 0.2 1 0 1 P atm false (fun _ => 1) (exitStart h)

/-- Dimensionless start. -/
def exitState (P : Planet) (h : ℝ) : FState := P.nonDimState (Vehicle.entryState P (exitStart h))

theorem exitState_facts {P : Planet} (hP : Planet.init "MARS" = .ok P) (h : ℝ) :
    (exitState P h).r * P.RP = 3389500 + 1000 * h ∧ (exitState P h).v * P.Vref = 4800 ∧
    (exitState P h).gamma = 7 * π / 180 ∧ (exitState P h).phi = 0 ∧ (exitState P h).theta = 0 ∧ (exitState P h).psi = 0 := by
  obtain ⟨_, hR, _, _, _, _, _, _, hV, _⟩ := C01_planet_consistent "MARS" P hP
  obtain ⟨hRv, -⟩ := mars_case_facts hP
  have z : (0:ℝ) * π / 180.0 = 0 := by rw [zero_mul, zero_div]
  refine ⟨?_, ?_, ?_, z, z, z⟩
  · change (P.RP + h * 1.0E3) / P.RP * P.RP = _
    rw [div_mul_cancel₀ _ hR.ne', hRv]
    norm_num
    ring
  · change 4.8 * 1.000E3 / P.Vref * P.Vref = 4800
    rw [div_mul_cancel₀ _ hV.ne']
    norm_num
  · change 7 * π / 180.0 = 7 * π / 180
    norm_num

/-- All states near the start at 120 km are judged captured, climb, and have positive orbital energy. -/
theorem near_exit {P : Planet} (hP : Planet.init "MARS" = .ok P) {x : FState} (hx : Near (1 / 1000) x (exitState P 120)) :
    0 < x.r * P.RP ∧ (x.v * P.Vref) ^ 2 / 2 - P.GM / (x.r * P.RP) < 0 ∧ 0 < exitEnergy P (terminalOf P x) ∧
    0 < x.v * P.Vref ∧ 0 < sin x.gamma ∧ 100000 < x.r * P.RP - P.RP := by
  obtain ⟨_, hR, _, _, _, _, _, _, hV, _⟩ := C01_planet_consistent "MARS" P hP
  obtain ⟨hRv, hGM, -, -, -, hOm, -, hV2, -⟩ := mars_case_facts hP
  obtain ⟨e1, e2, e3, e4, -, e6⟩ := exitState_facts hP 120
  have hr : |x.r * P.RP - 3509500| ≤ 3390 := by
    have : |x.r * P.RP - (exitState P 120).r * P.RP| ≤ 1 / 1000 * P.RP := by
      rw [← sub_mul, abs_mul, abs_of_pos hR]
      exact mul_le_mul_of_nonneg_right hx.r hR.le
    rw [e1, hRv] at this
    rw [hRv]
    norm_num at this ⊢
    linarith
  have hv : |x.v * P.Vref - 4800| ≤ 4 := by
    have : |x.v * P.Vref - (exitState P 120).v * P.Vref| ≤ 1 / 1000 * P.Vref := by
      rw [← sub_mul, abs_mul, abs_of_pos hV]
      exact mul_le_mul_of_nonneg_right hx.v hV.le
    rw [e2] at this
    linarith
  have hp := hx.phi
  have hs := hx.psi
  have hg := hx.gamma
  rw [e4, sub_zero] at hp
  rw [e6, sub_zero] at hs
  rw [e3] at hg
  rw [abs_le] at hr hv hp hs hg
  set r := x.r * P.RP with hrd
  set v := x.v * P.Vref with hvd
  have hpi := pi_le_four
  have hpi2 := two_le_pi
  have hcp : (99 / 100 : ℝ) ≤ cos x.phi := by
    refine le_trans ?_ (one_sub_sq_div_two_le_cos (x := x.phi)); nlinarith
  have hcs : (99 / 100 : ℝ) ≤ cos x.psi := by
    refine le_trans ?_ (one_sub_sq_div_two_le_cos (x := x.psi)); nlinarith
  have hg0 : 0 < x.gamma := by linarith
  have hg1 : x.gamma ≤ 16 / 100 := by linarith
  have hcg : (98 / 100 : ℝ) ≤ cos x.gamma := by
    refine le_trans ?_ (one_sub_sq_div_two_le_cos (x := x.gamma)); nlinarith
  have hr0 : 0 < r := by linarith [hr.1]
  refine ⟨hr0, ?_, ?_, by linarith [hv.1], sin_pos_of_pos_of_lt_pi hg0 (by linarith), by rw [hRv]; linarith [hr.1]⟩
  · have h1 : v ^ 2 ≤ 4804 ^ 2 := pow_le_pow_left₀ (by linarith [hv.1]) (by linarith [hv.2]) 2
    have h2 : 12000000 < P.GM / r := by rw [lt_div_iff₀ hr0, hGM]; linarith [hr.2]
    linarith
  · have hE : exitEnergy P (terminalOf P x) = v ^ 2 / 2 - P.GM / r
        + P.OMEGA * r * cos x.phi * (v * cos x.gamma * cos x.psi + P.OMEGA * r * cos x.phi / 2) :=
      exitEnergy_eq P (terminalOf P x) hr0
    have h1 : (4796:ℝ) ^ 2 ≤ v ^ 2 := pow_le_pow_left₀ (by norm_num) (by linarith [hv.1]) 2
    have h2 : P.GM / r < 12220000 := by rw [div_lt_iff₀ hr0, hGM]; linarith [hr.1]
    have h3 : (240:ℝ) ≤ P.OMEGA * r * cos x.phi := by
      have : (245:ℝ) ≤ P.OMEGA * r := by rw [hOm]; norm_num; linarith [hr.1]
      exact le_trans (by norm_num) (mul_le_mul this hcp (by norm_num) (by linarith))
    have h4 : (4500:ℝ) ≤ v * cos x.gamma * cos x.psi := by
      have h5 : (4796:ℝ) ≤ v := by linarith [hv.1]
      have : (4700:ℝ) ≤ v * cos x.gamma := le_trans (by norm_num) (mul_le_mul h5 hcg (by norm_num) (by linarith))
      exact le_trans (by norm_num) (mul_le_mul this hcs (by norm_num) (by linarith))
    have h5 := mul_le_mul h3 (show (4500:ℝ) ≤ v * cos x.gamma * cos x.psi + P.OMEGA * r * cos x.phi / 2 by linarith)
      (by norm_num) (by linarith)
    rw [hE]
    linarith

/-- An exact flight that begins below the skip altitude of Mars and is above it in the second half of the time `T`, always near
the state at 120 km. -/
theorem exit_flight {P : Planet} (hP : Planet.init "MARS" = .ok P) {atm : Atmosphere}
    (hatm : LoadedCubic P mars.km (fileRows mars) atm) : ∃ (h T : ℝ) (y : ℝ → FState) (S : Finset ℝ), 0 < T ∧
    y 0 = exitState P h ∧ SwitchedFlight (fun t s => (exitVehicle P atm h).EOM s t (0 * π / 180.0)) y 0 T S ∧
    (∀ t ∈ Set.Icc 0 T, Near (1 / 1000) (y t) (exitState P 120)) ∧ (y 0).r * P.RP - P.RP < P.hSkip ∧
    ∀ t ∈ Set.Icc (T / 2) T, P.hSkip < (y t).r * P.RP - P.RP := by
  have hF : ("MARS", mars) ∈ shippedFiles := by simp [shippedFiles]
  obtain ⟨_, hR, hGM0, _, _, _, _, _, hV, htau, _⟩ := C01_planet_consistent "MARS" P hP
  obtain ⟨hRv, hGM, hTh, hSk, hTr, -, hV1, hV2, -⟩ := mars_case_facts hP
  obtain ⟨e1, e2, e3, e4, e5, e6⟩ := exitState_facts hP 120
  have hpi := pi_le_four
  have hpi2 := two_le_pi
  -- the reference flight, from the edge of the atmosphere
  have hsg : (1 / 20 : ℝ) ≤ sin (exitState P 120).gamma := by
    rw [e3]
    have := mul_le_sin (x := 7 * π / 180) (by positivity) (by linarith)
    have h2 : 2 / π * (7 * π / 180) = 7 / 90 := by field_simp; norm_num
    linarith
  have hcg : (1 / 20 : ℝ) ≤ cos (exitState P 120).gamma := by
    refine le_trans ?_ (one_sub_sq_div_two_le_cos (x := (exitState P 120).gamma))
    rw [e3]; nlinarith
  have hs0 : Safe P 100000 130000 1 2 (1 / 20) 1 (exitState P 120) := by
    refine ⟨by rw [e1, hRv]; norm_num, by rw [e1, hRv]; norm_num, ?_, ?_, by rw [e4, cos_zero]; norm_num, hcg,
      Or.inr (hsg.trans (le_abs_self _))⟩
    · rw [← mul_le_mul_iff_left₀ hV, e2]; linarith
    · rw [← mul_le_mul_iff_left₀ hV, e2]; linarith
  obtain ⟨y₀, b, S₀, hb, -, y00, hy₀, -⟩ := C100_flight_continues "MARS" mars hF P hP atm hatm 500 100 0.2 1 0 1 false
    (fun _ => 1) (exitStart 120) (by simp) (0 * π / 180.0) 1 100000 130000 1 2 (1 / 20) 1 one_pos (by norm_num) one_pos
    (by norm_num) one_pos _ hs0
  have hclimb := flight_climbs (fun _ _ => rfl) hy₀ hb (by
    rw [y00]
    have : 0 < (exitState P 120).v := by linarith [hs0.slow]
    exact mul_pos this (by linarith))
  obtain ⟨u, hu, hup⟩ := mem_nhdsGT_iff_exists_Ioc_subset.mp hclimb
  -- a time for which it stays near its start
  set κ := 1 / P.RP / 10 with hκ
  have hκ0 : 0 < κ := by positivity
  have hκR : κ * P.RP = 1 / 10 := by rw [hκ]; field_simp
  have hκs : κ ≤ 1 / 10000 := by rw [hκ, hRv]; norm_num
  have hcont : ContinuousOn (fun t => ‖(y₀ t).toR7 - (y₀ 0).toR7‖) (Set.Icc 0 b) :=
    ((flight_state_cont hy₀).sub continuousOn_const).norm
  have hev := (hcont 0 ⟨le_rfl, hb.le⟩).eventually
    (gt_mem_nhds (show ‖(y₀ 0).toR7 - (y₀ 0).toR7‖ < κ by simpa using hκ0))
  rw [eventually_nhdsWithin_iff, Metric.eventually_nhds_iff] at hev
  obtain ⟨ε, hε, hev⟩ := hev
  have hu0 : 0 < u := hu
  set T := min (min b u) (ε / 2) with hT
  have hT0 : 0 < T := lt_min (lt_min hb hu0) (by linarith)
  have hTb : T ≤ b := (min_le_left _ _).trans (min_le_left _ _)
  have hTu : T ≤ u := (min_le_left _ _).trans (min_le_right _ _)
  have hTε : T ≤ ε / 2 := min_le_right _ _
  have hnear : ∀ t ∈ Set.Icc 0 T, Near κ (y₀ t) (y₀ 0) := by
    intro t ht
    have := hev (y := t) (by rw [Real.dist_eq, sub_zero, abs_of_nonneg ht.1]; linarith [ht.2]) ⟨ht.1, ht.2.trans hTb⟩
    exact (near_iff _ _ _).mpr this.le
  -- it is higher by at least `μ` in the second half of this time
  obtain ⟨tm, htm, hmin⟩ := (isCompact_Icc (a := T / 2) (b := T)).exists_isMinOn (Set.nonempty_Icc.mpr (by linarith))
    (hy₀.r.mono (Set.Icc_subset_Icc (by linarith) hTb))
  set μ := (y₀ tm).r - (y₀ 0).r with hμ
  have hμ0 : 0 < μ := by
    have : (y₀ 0).r < (y₀ tm).r := hup ⟨by linarith [htm.1], htm.2.trans hTu⟩
    linarith
  have hhigh : ∀ t ∈ Set.Icc (T / 2) T, (y₀ 0).r + μ ≤ (y₀ t).r := by
    intro t ht
    have : (y₀ tm).r ≤ (y₀ t).r := hmin ht
    linarith
  obtain ⟨C, ρ, hC, hρ, hfl⟩ := C102_nearby_flights_exist "MARS" mars hF P hP atm hatm 500 100 0.2 1 0 1 false
    (fun _ => 1) (exitStart 120) (by simp) (0 * π / 180.0) T (100000 / 2) (130000 + 1) (1 / 2) (2 + 1) (1 / 20 / 2) (1 / 2)
    hT0 (by norm_num) (by norm_num) (by norm_num) (by norm_num) y₀ S₀ (flight_mono hy₀ le_rfl hTb)
    (fun t ht => safe_near hR (by rw [← y00] at hs0; exact hs0) (hnear t ht) (by rw [hκR]; norm_num) (by rw [hκR]; norm_num)
      (by rw [hκR]; norm_num) (by linarith) (by linarith) (by linarith))
  -- the flight that begins a little lower
  set δ := min ρ (min (μ / 2 / C) (κ / C)) with hδ
  have hC0 : 0 < C := by linarith
  have hδ0 : 0 < δ := lt_min hρ (lt_min (by positivity) (by positivity))
  have hδμ : C * δ ≤ μ / 2 := by
    have : δ ≤ μ / 2 / C := (min_le_right _ _).trans (min_le_left _ _)
    rw [le_div_iff₀ hC0] at this; linarith
  have hδκ : C * δ ≤ κ := by
    have : δ ≤ κ / C := (min_le_right _ _).trans (min_le_right _ _)
    rw [le_div_iff₀ hC0] at this; linarith
  set h := 120 - δ * P.RP / 1000 with hh
  obtain ⟨f1, -⟩ := exitState_facts hP h
  have hstart : Near δ (exitState P h) (y₀ 0) := by
    have e : ∀ a : ℝ, |a - a| ≤ δ := fun a => by rw [sub_self, abs_zero]; exact hδ0.le
    rw [y00]
    refine ⟨?_, e _, e _, e _, e _, e _, e _⟩
    have k : (exitState P h).r - (exitState P 120).r = -δ := by
      apply mul_right_cancel₀ hR.ne'
      rw [sub_mul, f1, e1, hh]; ring
    rw [k, abs_neg, abs_of_pos hδ0]
  obtain ⟨y, S, y0, hy, hyn⟩ := hfl _ δ (min_le_left _ _) hstart
  have hnr : ∀ t ∈ Set.Icc 0 T, Near (1 / 1000) (y t) (exitState P 120) := by
    intro t ht
    have a1 := hyn t ht
    have a2 := hnear t ht
    rw [y00] at a2
    have tri : ∀ {a b c : ℝ}, |a - b| ≤ C * δ → |b - c| ≤ κ → |a - c| ≤ 1 / 1000 := fun {a b c} q1 q2 => by
      have := abs_sub_le a b c
      linarith
    exact ⟨tri a1.r a2.r, tri a1.theta a2.theta, tri a1.phi a2.phi, tri a1.v a2.v, tri a1.psi a2.psi,
      tri a1.gamma a2.gamma, tri a1.drange a2.drange⟩
  have hlow : (y 0).r * P.RP - P.RP < P.hSkip := by
    rw [y0, f1, hh, hRv, hSk]
    rw [hRv] at hR
    nlinarith
  have hout : ∀ t ∈ Set.Icc (T / 2) T, P.hSkip < (y t).r * P.RP - P.RP := by
    intro t ht
    have a1 := (abs_le.mp (hyn t ⟨by linarith [ht.1], ht.2⟩).r).1
    have a2 := hhigh t ht
    rw [y00] at a2
    have a3 : (exitState P 120).r < (y t).r := by linarith
    have a4 := mul_lt_mul_of_pos_right a3 hR
    rw [e1] at a4
    rw [hSk]
    linarith
  exact ⟨h, T, y, S, hT0, y0, hy, hnr, hlow, hout⟩

/-- C146 (finding), for an exact flight: a vehicle starts below the skip altitude of Mars, is still below it at the second
output time and above it at the last one.  With a solver that returns points of the exact flight `isCaptured` calls it
captured, although in free motion from the last stored point it climbs for ever. -/
theorem C146_flight_captured_but_leaves : ∃ (P : Planet) (atm : Atmosphere) (h tSec dt : ℝ) (y : ℝ → FState) (S : Finset ℝ)
    (out : PropOut) (s : Terminal) (t : ℝ) (R U : ℝ → V3), Planet.init "MARS" = .ok P ∧
    LoadedCubic P mars.km (fileRows mars) atm ∧ 0 < dt ∧ dt ≤ tSec ∧ y 0 = exitState P h ∧
    SwitchedFlight (fun t s => (exitVehicle P atm h).EOM s t (0 * π / 180.0)) y 0 ((tSec + dt) / P.tau) S ∧
    (y 0).r * P.RP - P.RP < P.hSkip ∧ (y (dt / P.tau)).r * P.RP - P.RP < P.hSkip ∧
    P.hSkip < (y (tSec / P.tau)).r * P.RP - P.RP ∧
    (exitVehicle P atm h).propogateEntry .strict (traceIntegrator y) tSec dt 0 = .ok out ∧ Spec.IsLast out s ∧
    t ∈ Set.Icc 0 (tSec / P.tau) ∧ s = terminalOf P (y t) ∧
    (exitVehicle P atm h).isCaptured .strict (traceIntegrator y) tSec dt 0 = .ok (-1) ∧ CoastsFrom P s R U ∧
    StrictMonoOn (fun t => V3.norm (R t)) (Set.Ici 0) ∧ Tendsto (fun t => V3.norm (R t)) atTop atTop := by
  have hF : ("MARS", mars) ∈ shippedFiles := by simp [shippedFiles]
  obtain ⟨P, hP⟩ := (C01_planet_names "MARS").1.mpr (by simp [Spec.bodies])
  obtain ⟨atm, hatm⟩ := (C85_loads "MARS" mars hF P hP).1
  obtain ⟨_, hR, _, _, _, _, _, _, hV, htau, _⟩ := C01_planet_consistent "MARS" P hP
  obtain ⟨-, -, -, -, hTr, -⟩ := mars_case_facts hP
  obtain ⟨h, T, y, S, hT0, y0, hy, hnr, hlow, hout⟩ := exit_flight hP hatm
  -- output times close enough together
  have hyc : ContinuousOn (fun t => (y t).r * P.RP - P.RP) (Set.Icc 0 T) := (hy.r.mul continuousOn_const).sub continuousOn_const
  have hev2 := (hyc 0 ⟨le_rfl, hT0.le⟩).eventually (gt_mem_nhds hlow)
  rw [eventually_nhdsWithin_iff, Metric.eventually_nhds_iff] at hev2
  obtain ⟨ε₂, hε₂, hev2⟩ := hev2
  obtain ⟨n, hn⟩ := exists_nat_gt (T / ε₂)
  have hn0 : 0 < (n:ℝ) := lt_trans (by positivity) hn
  have hn1 : (1:ℝ) ≤ n := by exact_mod_cast Nat.one_le_iff_ne_zero.mpr (by rintro rfl; simp at hn0)
  set dt := P.tau * T / (n + 1) with hdt
  have hdt0 : 0 < dt := by positivity
  set tSec := n * dt with hts
  have hts0 : 0 ≤ tSec := by positivity
  have hdiv : tSec / dt = n := by rw [hts]; field_simp
  have eT : (tSec + dt) / P.tau = T := by rw [hts, hdt]; field_simp
  have edt : dt / P.tau = T / (n + 1) := by rw [hdt]; field_simp
  have ets : tSec / P.tau = n * T / (n + 1) := by rw [hts, hdt]; field_simp
  have hsecond : (y (dt / P.tau)).r * P.RP - P.RP < P.hSkip := by
    have hp : 0 < T / (n + 1) := by positivity
    rw [edt]
    refine hev2 (y := T / (n + 1)) ?_ ⟨hp.le, div_le_self hT0.le (by linarith)⟩
    rw [Real.dist_eq, sub_zero, abs_of_pos hp, div_lt_iff₀ (by linarith)]
    rw [div_lt_iff₀ hε₂] at hn
    linarith
  have hlast : P.hSkip < (y (tSec / P.tau)).r * P.RP - P.RP := by
    rw [ets]
    refine hout _ ⟨?_, ?_⟩
    · rw [le_div_iff₀ (by linarith)]
      have := mul_le_mul_of_nonneg_right hn1 hT0.le
      linarith
    · rw [div_le_iff₀ (by linarith)]; linarith
  obtain ⟨g1, g2⟩ := tGrid_get "MARS" P hP tSec dt hts0 hdt0
  rw [hdiv, Nat.ceil_natCast] at g1 g2
  have hmem : ∀ t ∈ Vehicle.tGrid P tSec dt, t ∈ Set.Icc 0 (tSec / P.tau) := by
    intro t ht
    obtain ⟨j, hj⟩ := List.mem_iff_getElem?.mp ht
    have hjl := (List.getElem?_eq_some_iff.mp hj).1
    rw [g1] at hjl
    rw [g2 j hjl] at hj
    obtain rfl := Option.some.inj hj
    have : (j:ℝ) ≤ n := by exact_mod_cast (by omega : j ≤ n)
    refine ⟨by positivity, ?_⟩
    rw [hts]
    gcongr
  have hTs : tSec / P.tau ≤ T := by rw [← eT]; gcongr; linarith
  set V := exitVehicle P atm h with hVd
  have hsam : samples V (traceIntegrator y) tSec dt 0 = (Vehicle.tGrid P tSec dt).map fun t => (t, y t) := by
    have g0 := g2 0 (by omega)
    change traceIntegrator y _ (exitState P h) (Vehicle.tGrid P tSec dt) = _
    cases hgr : Vehicle.tGrid P tSec dt with
    | nil => rw [hgr] at g1; simp at g1
    | cons t ts =>
      rw [hgr] at g0
      simp only [List.getElem?_cons_zero, Nat.cast_zero, zero_mul, zero_div, Option.some.injEq] at g0
      subst g0
      simp only [traceIntegrator, List.map_cons, y0]
  have hall : ∀ q ∈ samples V (traceIntegrator y) tSec dt 0, ∃ t ∈ Set.Icc 0 (tSec / P.tau), q = (t, y t) := by
    intro q hq
    rw [hsam] at hq
    obtain ⟨t, ht, rfl⟩ := List.mem_map.mp hq
    exact ⟨t, hmem t ht, rfl⟩
  obtain ⟨Q, hQ⟩ : ∃ Q, samples V (traceIntegrator y) tSec dt 0 = (0, y 0) :: Q := by
    have g0 := g2 0 (by omega)
    rw [hsam]
    cases hgr : Vehicle.tGrid P tSec dt with
    | nil => rw [hgr] at g1; simp at g1
    | cons t ts =>
      rw [hgr] at g0
      simp only [List.getElem?_cons_zero, Nat.cast_zero, zero_mul, zero_div, Option.some.injEq] at g0
      subst g0
      exact ⟨_, rfl⟩
  have habove : ∀ t ∈ Set.Icc 0 (tSec / P.tau), 100000 < (y t).r * P.RP - P.RP := fun t ht =>
    (near_exit hP (hnr t ⟨ht.1, ht.2.trans hTs⟩)).2.2.2.2.2
  obtain ⟨out, ho⟩ := C24_returns "MARS" V hP .strict (traceIntegrator y) tSec dt 0 _ Q hQ
    (by
      change P.hTrap < (y 0).r * P.RP - P.RP
      rw [hTr]
      linarith [habove 0 ⟨le_rfl, by positivity⟩])
    hlow
    (by
      intro q hq
      obtain ⟨t, ht, rfl⟩ := hall q (by rw [hQ]; exact List.mem_cons_of_mem _ hq)
      change (y t).r * P.RP - P.RP ≠ P.hTrap
      rw [hTr]
      exact ne_of_gt (by linarith [habove t ht]))
  obtain ⟨s, -, hs⟩ := terminal_isLast (C24_arrays_aligned V .strict (traceIntegrator y) tSec dt 0 out ho)
  obtain ⟨i1, i2, -, a4, a5, a6, a7, a8, a9, -⟩ := C24_arrays_aligned V .strict (traceIntegrator y) tSec dt 0 out ho
  obtain ⟨q, hq⟩ : ∃ q, ((samples V (traceIntegrator y) tSec dt 0).take out.index).getLast? = some q := by
    cases hl : ((samples V (traceIntegrator y) tSec dt 0).take out.index).getLast? with
    | some q => exact ⟨q, rfl⟩
    | none =>
      rw [List.getLast?_eq_none_iff] at hl
      have := congrArg List.length hl
      rw [List.length_take] at this
      simp only [List.length_nil] at this
      omega
  obtain ⟨t, ht, rfl⟩ := hall q (List.mem_of_mem_take (List.mem_of_getLast? hq))
  have hget : ∀ (l : List ℝ) (f : ℝ × FState → ℝ) (x : ℝ),
      l = ((samples V (traceIntegrator y) tSec dt 0).take out.index).map f → l.getLast? = some x → x = f (t, y t) := by
    intro l f x hl hx
    rw [hl, List.getLast?_map, hq] at hx
    exact (Option.some.inj hx).symm
  have hst : s = terminalOf P (y t) := by
    have b1 := hget _ _ _ a4 hs.1
    have b2 := hget _ _ _ a7 hs.2.1
    have b3 := hget _ _ _ a9 hs.2.2.1
    have b4 := hget _ _ _ a5 hs.2.2.2.1
    have b5 := hget _ _ _ a6 hs.2.2.2.2.1
    have b6 := hget _ _ _ a8 hs.2.2.2.2.2
    cases s
    simp only at b1 b2 b3 b4 b5 b6
    subst b1 b2 b3 b4 b5 b6
    rfl
  obtain ⟨n1, n2, n3, n4, n5, -⟩ := near_exit hP (hnr t ⟨ht.1, ht.2.trans hTs⟩)
  obtain ⟨r, v, q1, q2, q3, -⟩ := (C30_capture_verdict V .strict (traceIntegrator y) tSec dt 0).1 out ho
  obtain rfl : r = s.r := Option.some.inj (q1.symm.trans hs.1)
  obtain rfl : v = s.v := Option.some.inj (q2.symm.trans hs.2.1)
  have hrel : s.v ^ 2 / 2 - P.GM / s.r < 0 := by rw [hst]; exact n2
  obtain ⟨R, U, l1, l2, l3⟩ := slow_exit_leaves "MARS" P hP s (by rw [hst]; exact n1) hrel (by rw [hst]; exact n3)
    (by rw [hst]; exact (mul_pos n4 n5).le)
  refine ⟨P, atm, h, tSec, dt, y, S, out, s, t, R, U, hP, hatm, hdt0, ?_, y0, ?_, hlow, hsecond, hlast, ho, hs, ht, hst,
    q3 hrel, l1, l2, l3⟩
  · rw [hts]; exact le_mul_of_one_le_left hdt0.le hn1
  · rw [eT]; exact hy

end AMAT.Props
