import Verif.Props.Similarity

/-
C95: density and ballistic coefficient enter the motion only through their ratio.
-/

noncomputable section

namespace AMAT.Spec

/-- What is reported about the motion of a flight: classification, arrays, accelerations. -/
def motion (o : PropOut) : ℕ × ℤ × TrajArrays × TrajArrays × List (Option ℝ) × List ℝ :=
  (o.index, o.exitflag, o.c, o.plotc, o.accNetG, o.accDragG)

/-- The atmosphere with all densities multiplied by `k`. -/
def thicker (k : ℝ) (atm : Atmosphere) : Atmosphere := { atm with densityInt := fun h => k * atm.densityInt h }

/-- `W` has `k` times the ballistic coefficient of `V` and flies in `k` times the density; a constant drag coefficient. -/
def Scaled (k : ℝ) (V W : Vehicle) : Prop :=
  ∃ (m A beta LD alpha RN : ℝ) (P : Planet) (atm : Atmosphere) (f : ℝ → ℝ) (st : InitState), 0 < k ∧
    V = Vehicle.mk' m beta LD A alpha RN P atm false f st ∧
    W = Vehicle.mk' m (k * beta) LD A alpha RN P (thicker k atm) false f st

/-- For this problem the integrator asks for the rates of change at places above the surface only. -/
def StaysAbove (I : Integrator) (f : ℝ → FState → FState) (y0 : FState) (grid : List ℝ) : Prop :=
  ∀ g, (∀ t y, 1 ≤ y.r → g t y = f t y) → I g y0 grid = I f y0 grid

end AMAT.Spec

namespace AMAT.Props

open Real AMAT AMAT.Spec

/-- Density times `k`, coefficients divided by `k` (proof device). -/
def denser (k : ℝ) (V : Vehicle) : Vehicle :=
  { V with atm := thicker k V.atm, beta := k * V.beta, CD := V.CD / k, CL := V.CL / k }

/-- The condition under which this is no change. -/
structure Thick (k : ℝ) (V : Vehicle) : Prop where
  pos : 0 < k
  const : V.userDefinedCDMach = false

theorem mk'_denser {k : ℝ} (m beta LD A alpha RN : ℝ) (P : Planet) (atm : Atmosphere) (f : ℝ → ℝ) (st : InitState) :
    Vehicle.mk' m (k * beta) LD A alpha RN P (thicker k atm) false f st =
      denser k (Vehicle.mk' m beta LD A alpha RN P atm false f st) := by
  have e : m / (k * beta * A) = m / (beta * A) / k := by
    rw [div_div, mul_comm (beta * A) k, mul_assoc]
  simp only [Vehicle.mk', denser, e, mul_div_assoc]

theorem scaled_denser {k : ℝ} {V W : Vehicle} (h : Scaled k V W) : Thick k V ∧ W = denser k V := by
  obtain ⟨m, A, beta, LD, alpha, RN, P, atm, f, st, hk, rfl, rfl⟩ := h
  exact ⟨⟨hk, rfl⟩, mk'_denser _ _ _ _ _ _ _ _ _ _⟩

variable {k : ℝ} {V : Vehicle}

theorem thicker_rhobar (P : Planet) (atm : Atmosphere) (r th ph : ℝ) (hR : 0 < P.RP) (hr : 1 ≤ r) :
    P.rhobar (thicker k atm) r th ph = k * P.rhobar atm r th ph := by
  have h0 : ¬ r * P.RP - P.RP < 0 := by nlinarith
  simp only [Planet.rhobar, Planet.rho2, Planet.rho, Planet.density, thicker]
  split_ifs with h1 h2
  · ring
  · simp
  · exact absurd ⟨not_lt.mp h0, not_lt.mp h2⟩ h1

theorem thicker_rhoVec (P : Planet) (atm : Atmosphere) (r : ℝ) :
    P.rhoVec (thicker k atm) r = k * P.rhoVec atm r := rfl

theorem denser_Lbar (h : Thick k V) (hR : 0 < V.planet.RP) {r : ℝ} (hr : 1 ≤ r) : (denser k V).Lbar r = V.Lbar r := by
  have h1 := h.pos.ne'
  funext th ph v
  show 0.5 * V.planet.rhobar (thicker k V.atm) r th ph * v ^ 2 * V.Abar * (V.CL / k) = _
  rw [thicker_rhobar _ _ _ _ _ hR hr, Vehicle.Lbar]
  field_simp

theorem denser_Dbar (h : Thick k V) (hR : 0 < V.planet.RP) {r : ℝ} (hr : 1 ≤ r) : (denser k V).Dbar r = V.Dbar r := by
  have h1 := h.pos.ne'
  funext th ph v
  have hc : (denser k V).userDefinedCDMach = false := h.const
  simp only [Vehicle.Dbar, hc, h.const, Bool.false_eq_true, if_false]
  show 0.5 * V.planet.rhobar (thicker k V.atm) r th ph * v ^ 2 * V.Abar * (V.CD / k) = _
  rw [thicker_rhobar _ _ _ _ _ hR hr]
  field_simp

theorem denser_EOM (h : Thick k V) (hR : 0 < V.planet.RP) (y : FState) (t d : ℝ) (hr : 1 ≤ y.r) :
    (denser k V).EOM y t d = V.EOM y t d := by
  have e1 : ∀ th ph v d, (denser k V).a_sbar y.r th ph v d = V.a_sbar y.r th ph v d := by
    intro th ph v d
    simp only [Vehicle.a_sbar, denser_Dbar h hR hr]; rfl
  have e2 : ∀ th ph v d, (denser k V).a_nbar y.r th ph v d = V.a_nbar y.r th ph v d := by
    intro th ph v d
    simp only [Vehicle.a_nbar, denser_Lbar h hR hr]; rfl
  have e3 : ∀ th ph v d, (denser k V).a_wbar y.r th ph v d = V.a_wbar y.r th ph v d := by
    intro th ph v d
    simp only [Vehicle.a_wbar, denser_Lbar h hR hr]; rfl
  simp only [Vehicle.EOM, e1, e2, e3]
  rfl

theorem denser_Dvec (h : Thick k V) : (denser k V).Dvec = V.Dvec := by
  have h1 := h.pos.ne'
  funext r v
  have hc : (denser k V).userDefinedCDMach = false := h.const
  simp only [Vehicle.Dvec, hc, h.const, Bool.false_eq_true, if_false]
  show 0.5 * (k * V.planet.rhoVec V.atm r) * v ^ 2 * V.A * (V.CD / k) = _
  field_simp

theorem denser_Lvec (h : Thick k V) : (denser k V).Lvec = V.Lvec := by
  have h1 := h.pos.ne'
  funext r v
  show 0.5 * (k * V.planet.rhoVec V.atm r) * v ^ 2 * V.A * (V.CL / k) = _
  rw [Vehicle.Lvec]
  field_simp

theorem denser_accNet (h : Thick k V) : (denser k V).accNet = V.accNet := by
  funext d r v
  simp only [Vehicle.accNet, Vehicle.a_svec, Vehicle.a_nvec, Vehicle.a_wvec, denser_Dvec h, denser_Lvec h]
  rfl

theorem denser_accDrag (h : Thick k V) : (denser k V).accDrag = V.accDrag := by
  funext d r v
  simp only [Vehicle.accDrag, Vehicle.a_svec, Vehicle.a_nvec, Vehicle.a_wvec, denser_Dvec h, denser_Lvec h]
  rfl

theorem cumTrapz_shape (mode : ScipyMode) (t q q' : List ℝ) (x : ℝ) (h : q.length = q'.length) :
    (∃ e, cumTrapz mode (List.zip t q) x = .error e ∧ cumTrapz mode (List.zip t q') x = .error e) ∨
    ∃ l l', cumTrapz mode (List.zip t q) x = .ok l ∧ cumTrapz mode (List.zip t q') x = .ok l' := by
  unfold cumTrapz
  rcases t with _ | ⟨t, ts⟩
  · simp
  · rcases q with _ | ⟨q, qs⟩ <;> rcases q' with _ | ⟨q', qs'⟩
    · simp
    · simp at h
    · simp at h
    · simp only [List.zip_cons_cons]
      split_ifs <;> simp

/-- The same motion and `k` times the dynamic pressure, or the same exception. -/
theorem denser_postProcess (h : Thick k V) (mode : ScipyMode) (bar : TrajArrays) (d J : ℝ) :
    (∃ e, (denser k V).postProcess mode bar d J = .error e ∧ V.postProcess mode bar d J = .error e) ∨
    ∃ o' o, (denser k V).postProcess mode bar d J = .ok o' ∧ V.postProcess mode bar d J = .ok o ∧
      motion o' = motion o ∧ o'.dynPresAtm = o.dynPresAtm.map (k * ·) := by
  unfold Vehicle.postProcess
  rw [denser_accNet h, denser_accDrag h]
  simp only [show (denser k V).planet = V.planet from rfl, bind, Except.bind, pure, Except.pure]
  rcases V.planet.classifyTrajectory (V.planet.dimensionalizeArr bar).r with e | ⟨index, flag⟩
  · exact Or.inl ⟨e, rfl, rfl⟩
  simp only [Vehicle.qStagConvective, Vehicle.qStagRadiative, show (denser k V).planet = V.planet from rfl]
  rcases qConvFn V.planet.ID with _ | fc
  · exact Or.inl ⟨_, rfl, rfl⟩
  rcases qRadFn V.planet.ID with _ | fr
  · exact Or.inl ⟨_, rfl, rfl⟩
  simp only [Option.map_some, needNumber]
  set c := (V.planet.dimensionalizeArr bar).truncate index
  set q := List.zipWith (· + ·) (List.zipWith (fun r v => fc V.RN (V.planet.rhoVec V.atm r) v) c.r c.v)
    (List.zipWith (fun r v => fr V.RN (V.planet.rhoVec V.atm r) v) c.r c.v) with hq
  set q' := List.zipWith (· + ·) (List.zipWith (fun r v => fc (denser k V).RN (V.planet.rhoVec (denser k V).atm r) v) c.r c.v)
    (List.zipWith (fun r v => fr (denser k V).RN (V.planet.rhoVec (denser k V).atm r) v) c.r c.v) with hq'
  have hdyn : List.map (· / 1.01325E5) (List.zipWith (denser k V).dynPres c.r c.v) =
      (List.map (· / 1.01325E5) (List.zipWith V.dynPres c.r c.v)).map (k * ·) := by
    simp only [List.map_zipWith]
    congr 1
    funext r v
    show 0.5 * (k * V.planet.rhoVec V.atm r) * v ^ 2 / _ = k * (0.5 * V.planet.rhoVec V.atm r * v ^ 2 / _)
    rw [mul_div_assoc', mul_left_comm 0.5 k, mul_assoc k]
  rcases cumTrapz_shape mode c.t q' q J (by simp [hq, hq']) with ⟨e, h1, h2⟩ | ⟨l', l, h1, h2⟩
  · left; exact ⟨e, by rw [h1], by rw [h2]⟩
  · right
    simp only [h1, h2]
    exact ⟨_, _, rfl, rfl, rfl, hdyn⟩

theorem solvesAt_congr {f g : FState → FState} {y : ℝ → FState} {t : ℝ} (e : f (y t) = g (y t)) :
    SolvesAt f y t ↔ SolvesAt g y t := by
  constructor
  · intro h
    exact ⟨e ▸ h.r, e ▸ h.theta, e ▸ h.phi, e ▸ h.v, e ▸ h.psi, e ▸ h.gamma, e ▸ h.drange⟩
  · intro h
    exact ⟨e ▸ h.r, e ▸ h.theta, e ▸ h.phi, e ▸ h.v, e ▸ h.psi, e ▸ h.gamma, e ▸ h.drange⟩

/-- C95: above the surface the equations of motion see density and ballistic coefficient only through their ratio.  Hence
a curve that stays above the surface is a possible flight of the one vehicle exactly if it is one of the other. -/
theorem C95_dynamics (name : String) {k : ℝ} {V W : Vehicle} (h : Scaled k V W) (hP : Planet.init name = .ok V.planet) :
    (∀ (y : FState) t d, 1 ≤ y.r → W.EOM y t d = V.EOM y t d ∧ W.EOM2 t y d = V.EOM2 t y d) ∧
    ∀ (y : ℝ → FState) (d : ℝ → ℝ) t, 1 ≤ (y t).r →
      (SolvesAt (fun s => W.EOM s t (d t)) y t ↔ SolvesAt (fun s => V.EOM s t (d t)) y t) := by
  obtain ⟨hs, rfl⟩ := scaled_denser h
  obtain ⟨_, hR, _⟩ := C01_planet_consistent name _ hP
  have e := fun (y : FState) t d (hr : 1 ≤ y.r) => denser_EOM hs hR y t d hr
  refine ⟨fun y t d hr => ⟨e y t d hr, e y t d hr⟩, fun y d t hr => ?_⟩
  exact solvesAt_congr (e (y t) t (d t) hr)

/-- C95: a simulated flight through `k` times the density with `k` times the ballistic coefficient has the same arrays, the
same end and the same accelerations, and `k` times the dynamic pressure; or both raise the same exception. -/
theorem C95_flights (name : String) {k : ℝ} {V W : Vehicle} (h : Scaled k V W) (hP : Planet.init name = .ok V.planet)
    (mode : ScipyMode) (I : Integrator) (tSec dt d : ℝ)
    (hI : StaysAbove I (fun t y => V.EOM y t (d * π / 180.0)) (V.planet.nonDimState (Vehicle.entryState V.planet V.init))
      (Vehicle.tGrid V.planet tSec dt)) :
    ((∃ e, W.propogateEntry mode I tSec dt d = .error e ∧ V.propogateEntry mode I tSec dt d = .error e) ∨
      ∃ o' o, W.propogateEntry mode I tSec dt d = .ok o' ∧ V.propogateEntry mode I tSec dt d = .ok o ∧
        motion o' = motion o ∧ o'.dynPresAtm = o.dynPresAtm.map (k * ·)) ∧
    ((∃ e, W.propogateEntry2 mode I tSec dt d = .error e ∧ V.propogateEntry2 mode I tSec dt d = .error e) ∨
      ∃ o' o, W.propogateEntry2 mode I tSec dt d = .ok o' ∧ V.propogateEntry2 mode I tSec dt d = .ok o ∧
        motion o' = motion o ∧ o'.dynPresAtm = o.dynPresAtm.map (k * ·)) := by
  have hd := (C95_dynamics name h hP).1
  obtain ⟨hs, rfl⟩ := scaled_denser h
  have e1 : (denser k V).solveTrajectory I (V.planet.nonDimState (Vehicle.entryState V.planet V.init)) tSec dt (d * π / 180.0) =
      V.solveTrajectory I (V.planet.nonDimState (Vehicle.entryState V.planet V.init)) tSec dt (d * π / 180.0) := by
    unfold Vehicle.solveTrajectory
    exact congrArg _ (hI _ fun t y hy => (hd y t _ hy).1)
  have e2 : (denser k V).solveTrajectory2 I (V.planet.nonDimState (Vehicle.entryState V.planet V.init)) tSec dt (d * π / 180.0) =
      V.solveTrajectory2 I (V.planet.nonDimState (Vehicle.entryState V.planet V.init)) tSec dt (d * π / 180.0) := by
    unfold Vehicle.solveTrajectory2
    exact congrArg _ (hI _ fun t y hy => (hd y t _ hy).2)
  constructor
  · have := denser_postProcess hs mode
      (V.solveTrajectory I (V.planet.nonDimState (Vehicle.entryState V.planet V.init)) tSec dt (d * π / 180.0)) (d * π / 180.0) 0
    rw [← e1] at this
    conv at this =>
      enter [1, 1, e, 2]
      rw [e1]
    conv at this =>
      enter [2, 1, o', 1, o, 2, 1]
      rw [e1]
    exact this
  · have := denser_postProcess hs mode
      (V.solveTrajectory2 I (V.planet.nonDimState (Vehicle.entryState V.planet V.init)) tSec dt (d * π / 180.0)) (d * π / 180.0)
      V.init.heatLoad0
    rw [← e2] at this
    conv at this =>
      enter [1, 1, e, 2]
      rw [e2]
    conv at this =>
      enter [2, 1, o', 1, o, 2, 1]
      rw [e2]
    exact this

/-- C95: the convective heating rate then grows with the square root of the density (bodies with the Sutton-Graves law). -/
theorem C95_convective_heating {k : ℝ} {V W : Vehicle} (h : Scaled k V W)
    (hb : V.planet.ID ∈ ["VENUS", "EARTH", "MARS", "JUPITER", "SATURN", "TITAN"]) (hRN : 0 < V.RN)
    (hrho : ∀ x, 0 ≤ V.atm.densityInt x) (r v : List ℝ) :
    W.qStagConvective r v = (V.qStagConvective r v).map (List.map (√k * ·)) := by
  obtain ⟨hs, rfl⟩ := scaled_denser h
  have hp : ∀ x, (k * V.planet.rhoVec V.atm x / V.RN) ^ (0.5:ℝ) = √k * (V.planet.rhoVec V.atm x / V.RN) ^ (0.5:ℝ) := by
    intro x
    rw [mul_div_assoc, Real.mul_rpow hs.pos.le (div_nonneg (show 0 ≤ V.planet.rhoVec V.atm x from hrho _) hRN.le), Real.sqrt_eq_rpow]
    norm_num
  have key : ∀ c : ℝ, List.zipWith (fun r v => c * (V.planet.rhoVec (denser k V).atm r / (denser k V).RN) ^ (0.5:ℝ) * v ^ (3.0:ℝ)) r v =
      List.map (√k * ·) (List.zipWith (fun r v => c * (V.planet.rhoVec V.atm r / V.RN) ^ (0.5:ℝ) * v ^ (3.0:ℝ)) r v) := by
    intro c
    rw [List.map_zipWith]
    congr 1
    funext x y
    show c * (k * V.planet.rhoVec V.atm x / V.RN) ^ (0.5:ℝ) * y ^ (3.0:ℝ) = _
    rw [hp]
    generalize (V.planet.rhoVec V.atm x / V.RN) ^ (0.5:ℝ) = a
    generalize y ^ (3.0:ℝ) = b
    ring
  unfold Vehicle.qStagConvective
  simp only [List.mem_cons, List.not_mem_nil, or_false] at hb
  simp only [show (denser k V).planet = V.planet from rfl]
  rcases hb with hb | hb | hb | hb | hb | hb <;> simp only [hb, qConvFn] <;> simp only [String.reduceEq, if_true, if_false,
    Option.map_some, Option.some.injEq] <;> exact key _

/-- C95 (limit of the claim): below the surface the density is a constant of the planet, whatever atmosphere is loaded; there
the vehicle of `k` times the ballistic coefficient has the `k`-th part of the drag. -/
theorem C95_below_surface {k : ℝ} {V W : Vehicle} (h : Scaled k V W) (hR : 0 < V.planet.RP) (hT : 0 ≤ V.planet.hThres) {r : ℝ}
    (hr : r < 1) (th ph v : ℝ) : W.Dbar r th ph v = V.Dbar r th ph v / k := by
  obtain ⟨hs, rfl⟩ := scaled_denser h
  have hc : (denser k V).userDefinedCDMach = false := hs.const
  have h0 : r * V.planet.RP - V.planet.RP < 0 := by nlinarith
  have e : ∀ atm, V.planet.rhobar atm r th ph = V.planet.rho0 / V.planet.rho0 := by
    intro atm
    simp only [Planet.rhobar, Planet.rho2, Planet.rho, Planet.density]
    rw [if_neg (fun hh => absurd hh.1 (not_le.mpr h0)), if_neg (by linarith)]
  simp only [Vehicle.Dbar, hc, hs.const, Bool.false_eq_true, if_false]
  show 0.5 * V.planet.rhobar (thicker k V.atm) r th ph * v ^ 2 * V.Abar * (V.CD / k) = _
  rw [e, e, mul_div_assoc]

/-- Case for the theorems of C95: the demonstration flight at Mars in twice the density with twice the ballistic
coefficient. -/
example : ∃ (P : Planet) (W : Vehicle) (o o' : PropOut), Planet.init "MARS" = .ok P ∧ Scaled 2 (demoEntry P 100 5) W ∧
    W.beta = 200 ∧ (demoEntry P 100 5).propogateEntry .strict constIntegrator 1200 0.1 30 = .ok o ∧
    W.propogateEntry .strict constIntegrator 1200 0.1 30 = .ok o' ∧ o'.c = o.c ∧ o'.accNetG = o.accNetG ∧
    W.qStagConvective [3400000] [5000] = ((demoEntry P 100 5).qStagConvective [3400000] [5000]).map (List.map (√2 * ·)) := by
  obtain ⟨P, hP, -, -, hS, hT, -⟩ := demo_mars
  obtain ⟨out, h1, -⟩ := demo_flight (h := 100) (v := 5) hP .strict 30 (by rw [hT]; norm_num) (by rw [hS]; norm_num)
  let W : Vehicle := Vehicle.mk' 500 (2 * 100) 0.2 1 0 1 P (thicker 2 ⟨fun _ => 1, fun _ => 1, fun _ => 1, fun _ => 1⟩) false
    (fun _ => 1) ⟨100, 0, 0, 5, 0, -7, 0, 0⟩
  have hs : Scaled 2 (demoEntry P 100 5) W := ⟨500, 1, 100, 0.2, 0, 1, P, _, _, _, by norm_num, rfl, rfl⟩
  have hf := (C95_flights "MARS" hs hP .strict constIntegrator 1200 0.1 30 (fun _ _ => rfl)).1
  have hq := C95_convective_heating hs (by
    have := (C01_planet_consistent "MARS" P hP).1
    show P.ID ∈ _
    rw [this]; simp) (by norm_num [demoEntry, Vehicle.mk']) (fun _ => zero_le_one) [3400000] [5000]
  rcases hf with ⟨e, -, h2⟩ | ⟨o', o, h2, h3, h4, -⟩
  · rw [h1] at h2; cases h2
  · rw [h1] at h3
    cases h3
    simp only [motion, Prod.mk.injEq] at h4
    exact ⟨P, W, out, o', hP, hs, by norm_num [W, Vehicle.mk'], h1, h2, h4.2.2.1, h4.2.2.2.2.1, hq⟩

end AMAT.Props
