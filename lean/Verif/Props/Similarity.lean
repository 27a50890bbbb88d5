import Verif.Props.CorridorProps
import Verif.Props.GuidedTermination
import Verif.Lemmas.Lits

/-
C89: a flight depends on mass and reference area only through the ballistic coefficient and the lift-to-drag ratio.
C90: the bank angle of a ballistic vehicle has no effect; lift down is negative lift up.
-/

noncomputable section

namespace AMAT.Props

open Real AMAT

/-! ### The change of mass and area (proof device) -/

/-- Mass multiplied by `k`, area by `a`, angle of attack replaced; the derived coefficients as the constructor would
compute them for the same ballistic coefficient. -/
def rescale (k a al : ℝ) (V : Vehicle) : Vehicle :=
  { V with mass := k * V.mass, A := a * V.A, alpha := al, Abar := a / k * V.Abar, CD := k / a * V.CD,
           CL := k / a * V.CL }

/-- The scalings that keep the drag acceleration: any for a constant drag coefficient, equal factors for a drag curve. -/
structure Scaling (k a : ℝ) (V : Vehicle) : Prop where
  mass : k ≠ 0
  area : a ≠ 0
  drag : V.userDefinedCDMach = false ∨ a = k

theorem Scaling.of_flag {k a : ℝ} {V W : Vehicle} (h : Scaling k a V)
    (e : W.userDefinedCDMach = V.userDefinedCDMach) : Scaling k a W := ⟨h.mass, h.area, by rw [e]; exact h.drag⟩

variable {k a al : ℝ} {V : Vehicle}

theorem rescale_Lbar (h : Scaling k a V) : (rescale k a al V).Lbar = V.Lbar := by
  have h1 := h.mass; have h2 := h.area
  funext r th ph v
  simp only [Vehicle.Lbar, rescale]
  field_simp

theorem rescale_Dbar (h : Scaling k a V) : (rescale k a al V).Dbar = V.Dbar := by
  have h1 := h.mass; have h2 := h.area
  funext r th ph v
  rcases h.drag with hd | rfl
  · simp only [Vehicle.Dbar, rescale, hd]
    simp only [Bool.false_eq_true, if_false]
    field_simp
  · simp only [Vehicle.Dbar, rescale, div_self h1, one_mul, Vehicle.machScalar]

theorem rescale_EOM (h : Scaling k a V) : (rescale k a al V).EOM = V.EOM := by
  funext y t d
  have e1 : ∀ r th ph v d, (rescale k a al V).a_sbar r th ph v d = V.a_sbar r th ph v d := by
    intro r th ph v d
    simp only [Vehicle.a_sbar, rescale_Dbar h]
    simp only [rescale, Lits.l00, zero_mul]
  have e2 : ∀ r th ph v d, (rescale k a al V).a_nbar r th ph v d = V.a_nbar r th ph v d := by
    intro r th ph v d
    simp only [Vehicle.a_nbar, rescale_Lbar h]
    simp only [rescale, Lits.l00, zero_mul]
  have e3 : ∀ r th ph v d, (rescale k a al V).a_wbar r th ph v d = V.a_wbar r th ph v d := by
    intro r th ph v d
    simp only [Vehicle.a_wbar, rescale_Lbar h]
    simp only [rescale, Lits.l00, zero_mul]
  simp only [Vehicle.EOM, e1, e2, e3]
  rfl

theorem rescale_EOM2 (h : Scaling k a V) : (rescale k a al V).EOM2 = V.EOM2 := by
  funext t y d
  exact congrFun (congrFun (congrFun (rescale_EOM h) y) t) d

theorem rescale_a_svec (h : Scaling k a V) : (rescale k a al V).a_svec = V.a_svec := by
  have h1 := h.mass; have h2 := h.area
  funext r v
  simp only [Vehicle.a_svec, zero_mul, zero_sub, Vehicle.Dvec]
  congr 1
  rcases h.drag with hd | rfl
  · have hd' : (rescale k a al V).userDefinedCDMach = false := hd
    simp only [hd, hd', Bool.false_eq_true, if_false]
    simp only [rescale]
    rw [show 0.5 * V.planet.rhoVec V.atm r * v ^ 2 * (a * V.A) * (k / a * V.CD) =
      k * (0.5 * V.planet.rhoVec V.atm r * v ^ 2 * V.A * V.CD) by field_simp, mul_div_mul_left _ _ h1]
  · simp only [rescale, div_self h1, one_mul]
    set c := (if V.userDefinedCDMach = true then V.CDMach (v / V.planet.sonicVec V.atm r) else V.CD)
    rw [show 0.5 * V.planet.rhoVec V.atm r * v ^ 2 * (a * V.A) * c =
      a * (0.5 * V.planet.rhoVec V.atm r * v ^ 2 * V.A * c) by ring, mul_div_mul_left _ _ h1]

theorem rescale_lift (h : Scaling k a V) (r v x : ℝ) :
    (rescale k a al V).Lvec r v * x / (rescale k a al V).mass = V.Lvec r v * x / V.mass := by
  have h1 := h.mass; have h2 := h.area
  simp only [Vehicle.Lvec, rescale]
  rw [show 0.5 * V.planet.rhoVec V.atm r * v ^ 2 * (a * V.A) * (k / a * V.CL) * x =
      k * (0.5 * V.planet.rhoVec V.atm r * v ^ 2 * V.A * V.CL * x) by field_simp, mul_div_mul_left _ _ h1]

theorem rescale_a_nvec (h : Scaling k a V) : (rescale k a al V).a_nvec = V.a_nvec := by
  funext r v d
  simp only [Vehicle.a_nvec, zero_mul, add_zero]
  exact rescale_lift h r v _

theorem rescale_a_wvec (h : Scaling k a V) : (rescale k a al V).a_wvec = V.a_wvec := by
  funext r v d
  simp only [Vehicle.a_wvec, zero_mul, add_zero]
  exact rescale_lift h r v _

theorem rescale_postProcess (h : Scaling k a V) : (rescale k a al V).postProcess = V.postProcess := by
  funext mode bar delta J
  have e1 : (rescale k a al V).accNet = V.accNet := by
    funext d r v
    simp only [Vehicle.accNet, rescale_a_svec h, rescale_a_nvec h, rescale_a_wvec h]; rfl
  have e2 : (rescale k a al V).accDrag = V.accDrag := by
    funext d r v
    simp only [Vehicle.accDrag, rescale_a_svec h, rescale_a_nvec h, rescale_a_wvec h]; rfl
  unfold Vehicle.postProcess
  rw [e1, e2]
  rfl

theorem rescale_propogateEntry (h : Scaling k a V) : (rescale k a al V).propogateEntry = V.propogateEntry := by
  funext mode I tSec dt d
  unfold Vehicle.propogateEntry Vehicle.solveTrajectory
  rw [rescale_postProcess h, rescale_EOM h]
  rfl

theorem rescale_propogateEntry2 (h : Scaling k a V) : (rescale k a al V).propogateEntry2 = V.propogateEntry2 := by
  funext mode I tSec dt d
  unfold Vehicle.propogateEntry2 Vehicle.solveTrajectory2
  rw [rescale_postProcess h, rescale_EOM2 h]
  rfl

theorem rescale_dummy (f : ℝ → ℝ) : (rescale k a al V).dummyVehicle f = rescale k a al (V.dummyVehicle f) := rfl

theorem rescale_setBeta (x : ℝ) (h : Scaling k a V) :
    (rescale k a al V).setBeta x = rescale k a al (V.setBeta x) := by
  have h1 := h.mass; have h2 := h.area
  simp only [Vehicle.setBeta, rescale, Vehicle.mk.injEq, true_and, and_true]
  rw [show x * (a * V.A) = a * (x * V.A) by ring, mul_div_mul_comm]

theorem rescale_util (h : Scaling k a V) : (rescale k a al V).propogateEntryUtil = V.propogateEntryUtil := by
  funext mode I s tSec dt d f
  have h' : Scaling k a (V.dummyVehicle f) := h.of_flag rfl
  unfold Vehicle.propogateEntryUtil Vehicle.solveTrajectory
  rw [rescale_dummy]
  simp only [rescale_postProcess h', rescale_EOM h']
  rfl

theorem rescale_util2 (h : Scaling k a V) : (rescale k a al V).propogateEntryUtil2 = V.propogateEntryUtil2 := by
  funext mode I s tSec dt d f
  have h' : Scaling k a (V.dummyVehicle f) := h.of_flag rfl
  unfold Vehicle.propogateEntryUtil2 Vehicle.solveTrajectory2
  rw [rescale_dummy]
  simp only [rescale_postProcess h', rescale_EOM2 h']
  rfl

theorem rescale_utilD (h : Scaling k a V) : (rescale k a al V).propogateEntryUtilD = V.propogateEntryUtilD := by
  funext G mode I s tSec dt d f
  have h1 : Scaling k a (V.dummyVehicle f) := h.of_flag rfl
  have h' : Scaling k a ((V.dummyVehicle f).setBeta (G.beta1 * G.betaRatio)) := h.of_flag rfl
  unfold Vehicle.propogateEntryUtilD Vehicle.solveTrajectory
  rw [rescale_dummy, rescale_setBeta _ h1]
  simp only [rescale_postProcess h', rescale_EOM h']
  rfl

theorem rescale_utilD2 (h : Scaling k a V) : (rescale k a al V).propogateEntryUtilD2 = V.propogateEntryUtilD2 := by
  funext G mode I s tSec dt d f
  have h1 : Scaling k a (V.dummyVehicle f) := h.of_flag rfl
  have h' : Scaling k a ((V.dummyVehicle f).setBeta (G.beta1 * G.betaRatio)) := h.of_flag rfl
  unfold Vehicle.propogateEntryUtilD2 Vehicle.solveTrajectory2
  rw [rescale_dummy, rescale_setBeta _ h1]
  simp only [rescale_postProcess h', rescale_EOM2 h']
  rfl

theorem rescale_glideCommand (h : Scaling k a V) : (rescale k a al V).glideCommand = V.glideCommand := by
  have h1 := h.mass; have h2 := h.area
  funext G s
  have e : k / a * V.CL * (a * V.A) = k * (V.CL * V.A) := by field_simp
  have e0 : 0.75 * (k / a * V.CL) * (a * V.A) = k * (0.75 * V.CL * V.A) := by
    rw [mul_assoc, e, mul_assoc, mul_left_comm]
  have e1 : ∀ q, k / a * V.CL * q * (a * V.A) = k * (V.CL * q * V.A) := by intro q; field_simp
  have e2 : ∀ x, (-1.0 * (k * V.mass) * x) / (k * (0.75 * V.CL * V.A)) =
      (-1.0 * V.mass * x) / (0.75 * V.CL * V.A) := by
    intro x
    rw [mul_left_comm, mul_assoc k, mul_div_mul_left _ _ h1]
  have e3 : ∀ x q, (k * V.mass * x) / (k * (V.CL * q * V.A)) = (V.mass * x) / (V.CL * q * V.A) := by
    intro x q
    rw [show k * V.mass * x = k * (V.mass * x) by ring, mul_div_mul_left _ _ h1]
  have e4 : (k * (0.75 * V.CL * V.A) = 0) = (0.75 * V.CL * V.A = 0) := by
    rw [mul_eq_zero]; simp [h1]
  unfold Vehicle.glideCommand
  simp only [rescale, e0, e1, e2, e3, e4]

/-! ### Searches -/

/-- The vehicle handed back by a search has the drag flag of `V`. -/
def SameFlag {α : Type} (V : Vehicle) (r : Option (Vehicle × α)) : Prop :=
  ∀ p, r = some p → p.1.userDefinedCDMach = V.userDefinedCDMach

theorem bisectLoop_flag (H : Test) (tol : ℝ) : ∀ (n : ℕ) (V : Vehicle) (lo hi : ℝ) (lim : Option ℝ),
    SameFlag V (bisectLoop H tol n V lo hi lim) := by
  intro n
  induction n with
  | zero => intro V lo hi lim p hp; simp [bisectLoop] at hp
  | succ n ih =>
    intro V lo hi lim p hp
    unfold bisectLoop at hp
    split_ifs at hp with hc
    · simp only at hp
      split at hp
      · simp only [Option.some.injEq] at hp; rw [← hp]; rfl
      · split at hp
        · simp only [Option.some.injEq] at hp; rw [← hp]; rfl
        · split at hp
          · simp only [Option.some.injEq] at hp; rw [← hp]; rfl
          · split_ifs at hp
            · exact ih (((V.setGamma lo).setGamma (0.5 * (lo + hi))).setGamma hi) _ _ _ p hp
            · exact ih (((V.setGamma lo).setGamma (0.5 * (lo + hi))).setGamma hi) _ _ _ p hp
            · exact ih (((V.setGamma lo).setGamma (0.5 * (lo + hi))).setGamma hi) _ _ _ p hp
    · simp only [Option.some.injEq] at hp; rw [← hp]

theorem bisectBody_flag (H : Test) (fuel : ℕ) (V : Vehicle) (lo hi tol : ℝ) :
    SameFlag V (bisectBody H fuel V lo hi tol) := by
  intro p hp
  unfold bisectBody at hp
  split at hp
  · simp only [Option.some.injEq] at hp; rw [← hp]; rfl
  · simp only at hp
    split at hp
    · simp only [Option.some.injEq] at hp; rw [← hp]; rfl
    · split_ifs at hp with hc
      · have hl := bisectLoop_flag H tol fuel ((V.setGamma lo).setGamma hi) lo hi none
        split at hp
        · cases hp
        · next e1 => simp only [Option.some.injEq] at hp; rw [← hp]; exact hl _ e1
        · next e1 => simp only [Option.some.injEq] at hp; rw [← hp]; exact hl _ e1
        · next e1 => simp only [Option.some.injEq] at hp; rw [← hp]; exact hl _ e1
      · simp only [Option.some.injEq] at hp; rw [← hp]; rfl

theorem saveRestore_flag (restore : Vehicle → Vehicle) (V : Vehicle) (r : Option (Vehicle × Py (Option (ℝ × ℝ))))
    (hres : ∀ W, (restore W).userDefinedCDMach = W.userDefinedCDMach) (hr : SameFlag V r) :
    SameFlag V (saveRestore restore r) := by
  intro p hp
  unfold saveRestore at hp
  split at hp
  · cases hp
  · simp only [Option.some.injEq] at hp; rw [← hp]; exact hr _ rfl
  · simp only [Option.some.injEq] at hp; rw [← hp, hres]; exact hr _ rfl
  · simp only [Option.some.injEq] at hp; rw [← hp, hres]; exact hr _ rfl

theorem bisectSearch_flag (H : Test) (fuel : ℕ) (V : Vehicle) (lo hi tol : ℝ) :
    SameFlag V (bisectSearch H fuel V lo hi tol) :=
  saveRestore_flag _ V _ (fun _ => rfl) (bisectBody_flag H fuel V lo hi tol)

theorem efpaSearch_flag (H : Test) (fuel : ℕ) (V : Vehicle) (lo hi tol : ℝ) :
    SameFlag V (Vehicle.efpaSearch H fuel V lo hi tol) :=
  saveRestore_flag _ V _ (fun _ => rfl) (bisectBody_flag H fuel { V with LD := 0.0 } lo hi tol)

/-- What a search hands back, with the vehicle replaced. -/
def mapOut {α : Type} (ρ : Vehicle → Vehicle) (r : Option (Vehicle × α)) : Option (Vehicle × α) :=
  r.map fun p => (ρ p.1, p.2)

/-- On vehicles satisfying `Q`, the test `H'` of the replaced vehicle answers as `H` does of the vehicle itself. -/
structure Carries (ρ : Vehicle → Vehicle) (Q : Vehicle → Prop) (H H' : Test) : Prop where
  gamma : ∀ V x, (ρ V).setGamma x = ρ (V.setGamma x)
  keep : ∀ V x, Q V → Q (V.setGamma x)
  same : ∀ V, Q V → H' (ρ V) = H V

theorem bisectLoop_map {ρ : Vehicle → Vehicle} {Q : Vehicle → Prop} {H H' : Test} (hH : Carries ρ Q H H') (tol : ℝ) :
    ∀ (n : ℕ) (V : Vehicle) (lo hi : ℝ) (lim : Option ℝ), Q V →
    bisectLoop H' tol n (ρ V) lo hi lim = mapOut ρ (bisectLoop H tol n V lo hi lim) := by
  intro n
  induction n with
  | zero => intro V lo hi lim h; rfl
  | succ n ih =>
    intro V lo hi lim h
    unfold bisectLoop
    by_cases hc : |hi - lo| > tol
    · simp only [if_pos hc, hH.gamma]
      rw [hH.same _ (hH.keep _ _ h), hH.same _ (hH.keep _ _ (hH.keep _ _ h)),
        hH.same _ (hH.keep _ _ (hH.keep _ _ (hH.keep _ _ h)))]
      cases H (V.setGamma lo) with
      | error e => rfl
      | ok a1 =>
      simp only
      cases H ((V.setGamma lo).setGamma (0.5 * (lo + hi))) with
      | error e => rfl
      | ok a2 =>
      simp only
      cases H (((V.setGamma lo).setGamma (0.5 * (lo + hi))).setGamma hi) with
      | error e => rfl
      | ok a3 =>
      simp only
      have h3 := hH.keep _ hi (hH.keep _ (0.5 * (lo + hi)) (hH.keep _ lo h))
      split_ifs
      · exact ih _ _ _ _ h3
      · exact ih _ _ _ _ h3
      · exact ih _ _ _ _ h3
    · simp only [if_neg hc]
      rfl

theorem bisectBody_map {ρ : Vehicle → Vehicle} {Q : Vehicle → Prop} {H H' : Test} (hH : Carries ρ Q H H') (fuel : ℕ)
    (h : Q V) (lo hi tol : ℝ) :
    bisectBody H' fuel (ρ V) lo hi tol = mapOut ρ (bisectBody H fuel V lo hi tol) := by
  unfold bisectBody
  simp only [hH.gamma]
  rw [hH.same _ (hH.keep _ _ h), hH.same _ (hH.keep _ _ (hH.keep _ _ h)),
    bisectLoop_map hH _ _ _ _ _ _ (hH.keep _ _ (hH.keep _ _ h))]
  cases H (V.setGamma lo) with
  | error e => rfl
  | ok a1 =>
  simp only
  cases H ((V.setGamma lo).setGamma hi) with
  | error e => rfl
  | ok a2 =>
  simp only
  split_ifs
  · rcases bisectLoop H tol fuel ((V.setGamma lo).setGamma hi) lo hi none with _ | ⟨W, e | _ | x⟩ <;> rfl
  · rfl

theorem saveRestore_map {ρ : Vehicle → Vehicle} (restore restore' : Vehicle → Vehicle)
    (hr : ∀ W, restore' (ρ W) = ρ (restore W)) (r : Option (Vehicle × Py (Option (ℝ × ℝ)))) :
    saveRestore restore' (mapOut ρ r) = mapOut ρ (saveRestore restore r) := by
  rcases r with _ | ⟨W, e | _ | x⟩
  · rfl
  · rfl
  · simp only [saveRestore, mapOut, Option.map_some, hr]
  · simp only [saveRestore, mapOut, Option.map_some, hr]

theorem bisectSearch_map {ρ : Vehicle → Vehicle} {Q : Vehicle → Prop} {H H' : Test} (hH : Carries ρ Q H H')
    (hi0 : ∀ W, (ρ W).init = W.init) (fuel : ℕ) (h : Q V) (lo hi tol : ℝ) :
    bisectSearch H' fuel (ρ V) lo hi tol = mapOut ρ (bisectSearch H fuel V lo hi tol) := by
  unfold bisectSearch
  rw [bisectBody_map hH fuel h, hi0]
  exact saveRestore_map (fun W => W.setGamma V.init.gamma0Deg) (fun W => W.setGamma V.init.gamma0Deg)
    (fun W => hH.gamma _ _) _

theorem efpaSearch_map {ρ : Vehicle → Vehicle} {Q : Vehicle → Prop} {H H' : Test} (hH : Carries ρ Q H H')
    (hi0 : ∀ W, (ρ W).init = W.init) (hl : ∀ (W : Vehicle) l, { ρ W with LD := l } = ρ { W with LD := l })
    (hL : ∀ W, (ρ W).LD = W.LD) (fuel : ℕ) (h : Q { V with LD := 0.0 }) (lo hi tol : ℝ) :
    Vehicle.efpaSearch H' fuel (ρ V) lo hi tol = mapOut ρ (Vehicle.efpaSearch H fuel V lo hi tol) := by
  unfold Vehicle.efpaSearch
  rw [hl, bisectBody_map hH fuel h, hi0, hL]
  refine saveRestore_map (fun W => { W.setGamma V.init.gamma0Deg with LD := V.LD })
    (fun W => { W.setGamma V.init.gamma0Deg with LD := V.LD }) (fun W => ?_) _
  simp only [hH.gamma]
  exact hl _ _

theorem widthOf_map {ρ : Vehicle → Vehicle} {Q : Vehicle → Prop} (f g f' g' : Vehicle → Option (Vehicle × Py (ℝ × ℝ)))
    (swap : Bool) (hf : ∀ V, Q V → f' (ρ V) = mapOut ρ (f V)) (hg : ∀ V, Q V → g' (ρ V) = mapOut ρ (g V))
    (hs : ∀ V p, Q V → f V = some p → Q p.1) (h : Q V) :
    Vehicle.widthOf f' g' (ρ V) swap = mapOut ρ (Vehicle.widthOf f g V swap) := by
  unfold Vehicle.widthOf
  rw [hf V h]
  rcases hr : f V with _ | ⟨W, e | x⟩
  · rfl
  · rfl
  · simp only [mapOut, Option.map_some]
    rw [hg W (hs V _ h hr)]
    rcases g W with _ | ⟨W', e | y⟩ <;> rfl

theorem mapOut_snd {α : Type} (ρ : Vehicle → Vehicle) (r : Option (Vehicle × α)) :
    (mapOut ρ r).map Prod.snd = r.map Prod.snd := by cases r <;> rfl

/-- The two verdict tests, in the two directions. -/
theorem carries_test (S : SearchEnv) (d : ℝ) :
    Carries (rescale k a al) (Scaling k a) (S.test d) (S.test d) where
  gamma := fun _ _ => rfl
  keep := fun _ _ h => h.of_flag rfl
  same := by
    intro V h
    simp only [SearchEnv.test, Vehicle.hitsTargetApoapsis, rescale_propogateEntry h]
    rfl

theorem carries_test2 (S : SearchEnv) (d : ℝ) :
    Carries (rescale k a al) (Scaling k a) (S.test2 d) (S.test2 d) where
  gamma := fun _ _ => rfl
  keep := fun _ _ h => h.of_flag rfl
  same := by
    intro V h
    simp only [SearchEnv.test2, Vehicle.hitsTargetApoapsis2, rescale_propogateEntry2 h]
    rfl

/-! ### Guided simulations -/

/-- The entry phase does not see the rescaling. -/
structure BlindEntry (k a al : ℝ) (F : EntryPhase) : Prop where
  prop : ∀ V, Scaling k a V → F.prop (rescale k a al V) = F.prop V
  command : ∀ V, Scaling k a V → F.command (rescale k a al V) = F.command V
  predict : ∀ V, Scaling k a V → F.predict (rescale k a al V) = F.predict V

/-- The entry state with the vehicle rescaled. -/
def rescaleE (k a al : ℝ) (s : EntryState) : EntryState := { s with V := rescale k a al s.V }

/-- The exit state with the vehicle rescaled. -/
def rescaleX (k a al : ℝ) (s : ExitState) : ExitState := { s with V := rescale k a al s.V }

/-- The result with the vehicle rescaled. -/
def rescaleG (k a al : ℝ) (o : GuidedOut) : GuidedOut := { o with fin := rescaleX k a al o.fin }

theorem rescale_setInitialState (x : InitState) :
    (rescale k a al V).setInitialState x = rescale k a al (V.setInitialState x) := rfl

theorem npDiv_scale {k : ℝ} (hk : k ≠ 0) (x y : ℝ) : npDiv (k * x) (k * y) = npDiv x y := by
  unfold npDiv
  by_cases hy : y = 0
  · rw [if_pos hy, if_pos (by rw [hy, mul_zero])]
  · rw [if_neg hy, if_neg (mul_ne_zero hk hy), mul_div_mul_left _ _ hk]

theorem rescale_estimate (h : Scaling k a V) (acc g x : ℝ) :
    npDiv (2 * (rescale k a al V).mass * acc * g) ((rescale k a al V).CD * (rescale k a al V).A * x) =
      npDiv (2 * V.mass * acc * g) (V.CD * V.A * x) := by
  have h1 := h.mass; have h2 := h.area
  have e1 : (rescale k a al V).CD * (rescale k a al V).A * x = k * (V.CD * V.A * x) := by
    simp only [rescale]; field_simp
  have e2 : 2 * (rescale k a al V).mass * acc * g = k * (2 * V.mass * acc * g) := by
    simp only [rescale]; ring
  rw [e1, e2, npDiv_scale h1]

theorem entryCycle_rescale {F : EntryPhase} (hF : BlindEntry k a al F) (G : GuideParams) (mode : ScipyMode)
    (ts dt mt : ℝ) (s : EntryState) (h : Scaling k a s.V) :
    entryCycle G F mode ts dt mt (rescaleE k a al s) =
      (entryCycle G F mode ts dt mt s).map (fun p => (rescaleE k a al p.1, p.2)) := by
  unfold entryCycle
  simp only [rescaleE, bind, Except.bind]
  cases liftPy (pyLast s.segHeat) with
  | error e => rfl
  | ok J =>
  simp only
  cases liftPy (s.hist.last J) with
  | error e => rfl
  | ok x =>
  simp only
  have hx : Scaling k a (s.V.setInitialState x) := h.of_flag rfl
  rw [hF.command _ h]
  cases F.command s.V x s.deltaIni ts with
  | error e => rfl
  | ok c =>
  obtain ⟨delta, qref⟩ := c
  simp only [rescale_setInitialState]
  rw [hF.prop _ hx, hF.predict _ hx]
  cases liftPy (F.prop (s.V.setInitialState x) ts dt delta) with
  | error e => rfl
  | ok out =>
  simp only
  cases liftPy (pyLast s.hist.t) with
  | error e => rfl
  | ok tEnd =>
  simp only
  cases liftPy (pyLast s.hdot) with
  | error e => rfl
  | ok ho =>
  simp only
  cases liftPy (pyLast s.tStep) with
  | error e => rfl
  | ok tOld =>
  simp only
  cases liftPy (pyLast out.accNetG) with
  | error e => rfl
  | ok an =>
  simp only
  cases liftPy (pyLast out.accDragG) with
  | error e => rfl
  | ok ad =>
  simp only
  cases liftPy (pyLast (s.hist.extend (Hist.ofOut out) tEnd).heatload) with
  | error e => rfl
  | ok J' =>
  simp only
  cases liftPy ((s.hist.extend (Hist.ofOut out) tEnd).last J') with
  | error e => rfl
  | ok y =>
  simp only
  rw [rescale_estimate hx]
  simp only [show (rescale k a al (s.V.setInitialState x)).planet = (s.V.setInitialState x).planet from rfl,
    show (rescale k a al (s.V.setInitialState x)).atm = (s.V.setInitialState x).atm from rfl,
    show (rescale k a al s.V).planet = s.V.planet from rfl, show (rescale k a al s.V).atm = s.V.atm from rfl]
  split
  · next e hX => rw [hX]; rfl
  · next fn hX =>
    rw [hX]
    simp only
    split
    · rfl
    · rfl


theorem entryLoop_rescale {F : EntryPhase} (hF : BlindEntry k a al F) (G : GuideParams) (mode : ScipyMode)
    (ts dt mt : ℝ) : ∀ (fuel : ℕ) (s : EntryState), Scaling k a s.V →
    entryLoop G F mode ts dt mt fuel (rescaleE k a al s) =
      (entryLoop G F mode ts dt mt fuel s).map (fun r => r.map (rescaleE k a al)) := by
  intro fuel
  induction fuel with
  | zero => intro s h; rfl
  | succ n ih =>
    intro s h
    unfold entryLoop
    rw [entryCycle_rescale hF G mode ts dt mt s h, show (rescaleE k a al s).vAttr = s.vAttr from rfl]
    by_cases hc : s.vAttr > G.vSwitchKms
    · rw [if_pos hc, if_pos hc]
      rcases hr : entryCycle G F mode ts dt mt s with e | ⟨s', b⟩
      · rfl
      · obtain ⟨J, x, delta, qref, out, tEnd, J', y, hd, tOld, an, ad, fn, apo, -, -, -, -, -, -, -, -, -, -, -, -, -, e1, -⟩ :=
          entryCycle_inv hr
        cases b
        · exact ih s' (h.of_flag (by rw [e1]; rfl))
        · rfl
    · rw [if_neg hc, if_neg hc]; rfl

theorem entryLoop_flag {F : EntryPhase} {G : GuideParams} {mode : ScipyMode} {ts dt mt : ℝ} {fuel : ℕ} {s s' : EntryState}
    (h : entryLoop G F mode ts dt mt fuel s = some (.ok s')) :
    s'.V.userDefinedCDMach = s.V.userDefinedCDMach := by
  refine entryLoop_invariant (fun u => u.V.userDefinedCDMach = s.V.userDefinedCDMach) ?_ fuel s s' rfl h
  intro u u' b hu hc
  obtain ⟨J, x, delta, qref, out, tEnd, J', y, hd, tOld, an, ad, fn, apo, -, -, -, -, -, -, -, -, -, -, -, -, -, e1, -⟩ :=
    entryCycle_inv hc
  rw [e1]; exact hu

theorem entryPhase_rescale {F : EntryPhase} (hF : BlindEntry k a al F) (G : GuideParams) (mode : ScipyMode)
    (ts dt mt : ℝ) (fuel : ℕ) (hr : Option (List (Option ℝ))) (h : Scaling k a V) :
    entryPhase G F mode fuel (rescale k a al V) hr ts dt mt =
      (entryPhase G F mode fuel V hr ts dt mt).map (fun r => r.map (rescaleE k a al)) := by
  have e : entryStart F (rescale k a al V) hr dt = (entryStart F V hr dt).map (rescaleE k a al) := by
    unfold entryStart
    rw [hF.prop _ h]
    simp only [bind, Except.bind]
    cases liftPy (F.prop V 1.0 dt 0.0) with
    | error e => rfl
    | ok out =>
    simp only
    cases liftPy (pyLast (Hist.ofOut out).h) with
    | error e => rfl
    | ok u =>
    simp only
    cases liftPy (pyLast (Hist.ofOut out).v) with
    | error e => rfl
    | ok v => rfl
  unfold entryPhase
  rw [e]
  rcases hs : entryStart F V hr dt with e1 | s
  · rfl
  · obtain ⟨out, v, -, -, e2⟩ := entryStart_inv hs
    exact entryLoop_rescale hF G mode ts dt mt fuel s (h.of_flag (by rw [e2]))

/-- The exit phase does not see the rescaling. -/
def BlindExit (k a al : ℝ) (F : ExitPhase) : Prop := ∀ V, Scaling k a V → F.prop (rescale k a al V) = F.prop V

theorem exitCycle_rescale {F : ExitPhase} (hF : BlindExit k a al F) (ts dt J hr : ℝ) (s : ExitState)
    (h : Scaling k a s.V) :
    exitCycle F ts dt J hr (rescaleX k a al s) =
      (exitCycle F ts dt J hr s).map (fun p => (rescaleX k a al p.1, p.2)) := by
  unfold exitCycle
  simp only [rescaleX, bind, Except.bind]
  cases liftPy (s.hist.last J) with
  | error e => rfl
  | ok x =>
  simp only [rescale_setInitialState]
  have hx : Scaling k a (s.V.setInitialState x) := h.of_flag rfl
  rw [hF _ hx]
  cases liftPy (F.prop (s.V.setInitialState x) ts dt (F.command s.deltaIni ts)) with
  | error e => rfl
  | ok out =>
  simp only
  cases liftPy (pyLast s.hist.t) with
  | error e => rfl
  | ok tEnd =>
  simp only
  cases liftPy (pyLast s.hdot) with
  | error e => rfl
  | ok ho =>
  simp only
  cases liftPy (pyLast s.tStep) with
  | error e => rfl
  | ok tOld =>
  simp only
  cases liftPy ((s.hist.extend (Hist.ofOut out) tEnd).last J) with
  | error e => rfl
  | ok y => rfl

theorem exitLoop_rescale {F : ExitPhase} (hF : BlindExit k a al F) (ts dt J hr : ℝ) :
    ∀ (fuel : ℕ) (s : ExitState), Scaling k a s.V →
    exitLoop F ts dt J hr fuel (rescaleX k a al s) =
      (exitLoop F ts dt J hr fuel s).map (fun r => r.map (rescaleX k a al)) := by
  intro fuel
  induction fuel with
  | zero => intro s h; rfl
  | succ n ih =>
    intro s h
    unfold exitLoop
    rw [exitCycle_rescale hF ts dt J hr s h, show (rescaleX k a al s).hCur = s.hCur from rfl,
      show (rescaleX k a al s).V.planet = s.V.planet from rfl]
    by_cases hc : s.hCur < s.V.planet.hSkip / 1.0E3
    · rw [if_pos hc, if_pos hc]
      rcases hs : exitCycle F ts dt J hr s with e | ⟨s', b⟩
      · rfl
      · obtain ⟨x, out, tEnd, y, hd, tOld, -, -, -, -, -, -, e1, -⟩ := exitCycle_inv hs
        cases b
        · exact ih s' (h.of_flag (by rw [e1]; rfl))
        · rfl
    · rw [if_neg hc, if_neg hc]; rfl

theorem exitResults_rescale (G : GuideParams) (s : ExitState) :
    exitResults G (rescaleX k a al s) = (exitResults G s).map (rescaleG k a al) := by
  unfold exitResults
  simp only [rescaleX, bind, Except.bind]
  cases liftPy (s.hist.last 0) with
  | error e => rfl
  | ok y => rfl

theorem exitPhase_rescale {F : ExitPhase} (hF : BlindExit k a al F) (G : GuideParams) (ts dt : ℝ) (fuel : ℕ)
    (s : EntryState) (h : Scaling k a V) :
    exitPhase G F fuel (rescale k a al V) (rescaleE k a al s) ts dt =
      (exitPhase G F fuel V s ts dt).map (fun r => r.map (rescaleG k a al)) := by
  have e : exitStart (rescale k a al V) (rescaleE k a al s) =
      (exitStart V s).map (fun p => (rescaleX k a al p.1, p.2)) := by
    unfold exitStart
    simp only [rescaleE, bind, Except.bind]
    cases liftPy (pyLast s.hist.t) with
    | error e => rfl
    | ok u =>
    simp only
    cases liftPy (pyLast s.hist.h) with
    | error e => rfl
    | ok hk =>
    simp only
    cases liftPy (pyLast s.hist.v) with
    | error e => rfl
    | ok w =>
    simp only
    cases liftPy (pyLast s.deltaDeg) with
    | error e => rfl
    | ok p =>
    simp only
    cases liftPy (pyLast s.hdot) with
    | error e => rfl
    | ok hr =>
    simp only
    cases liftPy (pyLast s.hist.heatload) with
    | error e => rfl
    | ok J => rfl
  unfold exitPhase
  rw [e]
  rcases hs : exitStart V s with e1 | ⟨x, J, hr⟩
  · rfl
  · obtain ⟨hk, p, -, -, -, -, e2⟩ := exitStart_inv hs
    simp only [Except.map]
    rw [exitLoop_rescale hF ts dt J hr fuel x (h.of_flag (by rw [e2]))]
    rcases exitLoop F ts dt J hr fuel x with _ | e3 | s'
    · rfl
    · rfl
    · simp only [Option.map_some, Except.map, exitResults_rescale]

theorem guided_rescale {FE : EntryPhase} {FX : ExitPhase} (hE : BlindEntry k a al FE) (hX : BlindExit k a al FX)
    (G : GuideParams) (mode : ScipyMode) (fuel : ℕ) (hr : Option (List (Option ℝ))) (prep : Vehicle → Vehicle)
    (hp : ∀ W, Scaling k a W → prep (rescale k a al W) = rescale k a al (prep W))
    (hpf : ∀ W, (prep W).userDefinedCDMach = W.userDefinedCDMach) (tsE tsX dt mt : ℝ) (h : Scaling k a V) :
    Vehicle.guided G FE FX mode fuel (rescale k a al V) hr prep tsE tsX dt mt =
      (Vehicle.guided G FE FX mode fuel V hr prep tsE tsX dt mt).map (fun r => r.map (rescaleG k a al)) := by
  unfold Vehicle.guided
  rw [entryPhase_rescale hE G mode tsE dt mt fuel hr h]
  rcases hs : entryPhase G FE mode fuel V hr tsE dt mt with _ | e | s
  · rfl
  · rfl
  · have hf : s.V.userDefinedCDMach = V.userDefinedCDMach := by
      unfold entryPhase at hs
      rcases h0 : entryStart FE V hr dt with e | s0
      · rw [h0] at hs; simp at hs
      · rw [h0] at hs
        obtain ⟨out, v, -, -, e2⟩ := entryStart_inv h0
        rw [entryLoop_flag hs, e2]
    have hsV := h.of_flag hf
    simp only [Option.map_some, Except.map]
    rw [show (rescaleE k a al s).V = rescale k a al s.V from rfl, hp _ hsV]
    exact exitPhase_rescale hX G tsX dt fuel s (hsV.of_flag (hpf _))

theorem blind_glide1 (G : GuideParams) (mode : ScipyMode) (I : Integrator) :
    BlindEntry k a al (Vehicle.glide1 G mode I) where
  prop := fun V h => by simp only [Vehicle.glide1, rescale_propogateEntry h]
  command := fun V h => by
    funext x d t
    simp only [Vehicle.glide1, Vehicle.glideBank, rescale_glideCommand h]
  predict := fun V h => by
    funext y tm dt f
    simp only [Vehicle.glide1, rescale_util h]
    rfl

theorem blind_glide2 (G : GuideParams) (mode : ScipyMode) (I I' : Integrator) :
    BlindEntry k a al (Vehicle.glide2 G mode I I') where
  prop := fun V h => by simp only [Vehicle.glide2, rescale_propogateEntry2 h]
  command := fun V h => by
    funext x d t
    simp only [Vehicle.glide2, Vehicle.glideBank, rescale_glideCommand h]
  predict := fun V h => by
    funext y tm dt f
    simp only [Vehicle.glide2, rescale_util h]
    rfl

theorem blind_drag1 (G : GuideParams) (mode : ScipyMode) (I : Integrator) :
    BlindEntry k a al (Vehicle.drag1 G mode I) where
  prop := fun V h => by simp only [Vehicle.drag1, rescale_propogateEntry h]
  command := fun V h => rfl
  predict := fun V h => by
    funext y tm dt f
    simp only [Vehicle.drag1, rescale_utilD h]
    rfl

theorem blind_drag2 (G : GuideParams) (mode : ScipyMode) (I' : Integrator) :
    BlindEntry k a al (Vehicle.drag2 G mode I') where
  prop := fun V h => by simp only [Vehicle.drag2, rescale_propogateEntry2 h]
  command := fun V h => rfl
  predict := fun V h => by
    funext y tm dt f
    simp only [Vehicle.drag2, rescale_utilD2 h]
    rfl

theorem mk'_rescale {m m' A A' : ℝ} (hm : m ≠ 0) (hm' : m' ≠ 0) (hA : A ≠ 0) (hA' : A' ≠ 0) (beta LD alpha alpha' RN : ℝ)
    (P : Planet) (atm : Atmosphere) (flag : Bool) (f : ℝ → ℝ) (st : InitState) :
    Vehicle.mk' m' beta LD A' alpha' RN P atm flag f st =
      rescale (m' / m) (A' / A) alpha' (Vehicle.mk' m beta LD A alpha RN P atm flag f st) := by
  have e1 : m' / m * m = m' := div_mul_cancel₀ _ hm
  have e2 : A' / A * A = A' := div_mul_cancel₀ _ hA
  have e3 : m' / m / (A' / A) * (m / (beta * A)) = m' / (beta * A') := by
    field_simp
  have e4 : A' / A / (m' / m) * (A / (m / (P.rho0 * P.RP))) = A' / (m' / (P.rho0 * P.RP)) := by
    field_simp
  simp only [Vehicle.mk', rescale, e1, e2, e3, e4, div_self hm, div_self hm']
  congr 1
  rw [mul_left_comm, e3]

/-! ### C89 -/

end AMAT.Props

namespace AMAT.Spec

/-- Two vehicles built by the constructor that differ at most in mass, reference area and angle of attack, with the same
ballistic coefficient and lift-to-drag ratio.  If the drag coefficient is a curve over the Mach number, which replaces
the one derived from the ballistic coefficient, the mass per area must agree as well. -/
def Twins (V W : Vehicle) : Prop :=
  ∃ (m m' A A' beta LD alpha alpha' RN : ℝ) (P : Planet) (atm : Atmosphere) (flag : Bool) (f : ℝ → ℝ) (st : InitState),
    0 < m ∧ 0 < m' ∧ 0 < A ∧ 0 < A' ∧ (flag = true → m / A = m' / A') ∧
    V = Vehicle.mk' m beta LD A alpha RN P atm flag f st ∧ W = Vehicle.mk' m' beta LD A' alpha' RN P atm flag f st

/-- What a guided simulation reports about the flight: everything but the vehicle. -/
def reported (o : GuidedOut) : Hist × List ℝ × List ℝ × List ℝ × List (Option ℝ) × List (Option ℝ) × List (Option ℝ) :=
  (o.fin.hist, o.fin.tStep, o.fin.deltaDeg, o.fin.hdot, o.fin.hddot, o.fin.hdotref,
    [o.apoapsis, o.periapsis, o.percError, o.periapsisRaiseDV, o.apoapsisRaiseDV])

/-- The value or exception a search hands back. -/
def answer {α : Type} (r : Option (Vehicle × α)) : Option α := r.map Prod.snd

/-- The report or exception of a guided simulation. -/
def report (r : Option (Run GuidedOut)) :=
  r.map (fun x => x.map reported)

end AMAT.Spec

namespace AMAT.Props

open Real AMAT AMAT.Spec

theorem rescale_LD (k a al l : ℝ) (W : Vehicle) : ({ rescale k a al W with LD := l } : Vehicle) = rescale k a al { W with LD := l } :=
  rfl

theorem twins_rescale {V W : Vehicle} (h : Twins V W) : ∃ k a al, Scaling k a V ∧ W = rescale k a al V := by
  obtain ⟨m, m', A, A', beta, LD, alpha, alpha', RN, P, atm, flag, f, st, hm, hm', hA, hA', hd, rfl, rfl⟩ := h
  refine ⟨m' / m, A' / A, alpha', ⟨by positivity, by positivity, ?_⟩,
    mk'_rescale hm.ne' hm'.ne' hA.ne' hA'.ne' _ _ _ _ _ _ _ _ _ _⟩
  cases flag with
  | false => exact Or.inl rfl
  | true =>
    right
    have := hd rfl
    rw [div_eq_div_iff hA.ne' hA'.ne'] at this
    rw [div_eq_div_iff hA.ne' hm.ne']
    linarith

/-- C89: vehicles with the same ballistic coefficient and lift-to-drag ratio fly the same trajectory with the same loads
and heating, whatever their mass and area. -/
theorem C89_flights_equal {V W : Vehicle} (h : Twins V W) :
    W.propogateEntry = V.propogateEntry ∧ W.propogateEntry2 = V.propogateEntry2 ∧ W.isCaptured = V.isCaptured := by
  obtain ⟨k, a, al, hs, rfl⟩ := twins_rescale h
  refine ⟨rescale_propogateEntry hs, rescale_propogateEntry2 hs, ?_⟩
  funext mode I t dt d
  unfold Vehicle.isCaptured
  rw [rescale_propogateEntry hs]
  rfl

theorem search_keeps {k a : ℝ} {V : Vehicle} {H : Test} {fuel : ℕ} {lo hi tol : ℝ} (p : Vehicle × Py (ℝ × ℝ))
    (h : Scaling k a V) (hp : bisectSearch H fuel V lo hi tol = some p) : Scaling k a p.1 :=
  h.of_flag (bisectSearch_flag H fuel V lo hi tol p hp)

/-- C89: they have the same corridor bounds and corridor widths. -/
theorem C89_corridors_equal {V W : Vehicle} (h : Twins V W) (S : SearchEnv) (fuel : ℕ)
    (beta1 ratio lo hi tol lo' hi' tol' : ℝ) :
    answer (W.findOverShootLimit S fuel lo hi tol) = answer (V.findOverShootLimit S fuel lo hi tol) ∧
    answer (W.findOverShootLimit2 S fuel lo hi tol) = answer (V.findOverShootLimit2 S fuel lo hi tol) ∧
    answer (W.findUnderShootLimit S fuel lo hi tol) = answer (V.findUnderShootLimit S fuel lo hi tol) ∧
    answer (W.findUnderShootLimit2 S fuel lo hi tol) = answer (V.findUnderShootLimit2 S fuel lo hi tol) ∧
    answer (W.computeTCW S fuel lo hi lo' hi' tol tol') = answer (V.computeTCW S fuel lo hi lo' hi' tol tol') ∧
    answer (W.computeTCW2 S fuel lo hi lo' hi' tol tol') = answer (V.computeTCW2 S fuel lo hi lo' hi' tol tol') ∧
    answer (W.computeTCWD S fuel beta1 ratio lo hi tol) = answer (V.computeTCWD S fuel beta1 ratio lo hi tol) ∧
    answer (W.computeTCWD2 S fuel beta1 ratio lo hi tol) = answer (V.computeTCWD2 S fuel beta1 ratio lo hi tol) := by
  obtain ⟨k, a, al, hs, rfl⟩ := twins_rescale h
  have b1 : ∀ d lo hi tol, ∀ V, Scaling k a V → bisectSearch (S.test d) fuel (rescale k a al V) lo hi tol =
      mapOut (rescale k a al) (bisectSearch (S.test d) fuel V lo hi tol) := fun d lo hi tol V h =>
    bisectSearch_map (carries_test S d) (fun _ => rfl) fuel h lo hi tol
  have b2 : ∀ d lo hi tol, ∀ V, Scaling k a V → bisectSearch (S.test2 d) fuel (rescale k a al V) lo hi tol =
      mapOut (rescale k a al) (bisectSearch (S.test2 d) fuel V lo hi tol) := fun d lo hi tol V h =>
    bisectSearch_map (carries_test2 S d) (fun _ => rfl) fuel h lo hi tol
  have d1 : ∀ b, ∀ V, Scaling k a V → Vehicle.findEFPALimitD S fuel ((rescale k a al V).setBeta b) lo hi tol =
      mapOut (rescale k a al) (Vehicle.findEFPALimitD S fuel (V.setBeta b) lo hi tol) := by
    intro b V h
    rw [rescale_setBeta _ h]
    have hb : Scaling k a { V.setBeta b with LD := 0.0 } := h.of_flag rfl
    unfold Vehicle.findEFPALimitD
    exact efpaSearch_map (ρ := rescale k a al) (Q := Scaling k a) (carries_test S 0.0) (fun _ => rfl)
      (fun W l => rescale_LD k a al l W) (fun _ => rfl) fuel hb lo hi tol
  have d2 : ∀ b, ∀ V, Scaling k a V → Vehicle.findEFPALimitD2 S fuel ((rescale k a al V).setBeta b) lo hi tol =
      mapOut (rescale k a al) (Vehicle.findEFPALimitD2 S fuel (V.setBeta b) lo hi tol) := by
    intro b V h
    rw [rescale_setBeta _ h]
    have hb : Scaling k a { V.setBeta b with LD := 0.0 } := h.of_flag rfl
    unfold Vehicle.findEFPALimitD2
    exact efpaSearch_map (ρ := rescale k a al) (Q := Scaling k a) (carries_test2 S 0.0) (fun _ => rfl)
      (fun W l => rescale_LD k a al l W) (fun _ => rfl) fuel hb lo hi tol
  have key : ∀ {α : Type} (r r' : Option (Vehicle × α)), r = mapOut (rescale k a al) r' → answer r = answer r' := by
    intro α r r' e; rw [e]; exact mapOut_snd _ _
  refine ⟨key _ _ (b1 _ _ _ _ _ hs), key _ _ (b2 _ _ _ _ _ hs), key _ _ (b1 _ _ _ _ _ hs), key _ _ (b2 _ _ _ _ _ hs),
    key _ _ ?_, key _ _ ?_, key _ _ ?_, key _ _ ?_⟩
  · exact widthOf_map _ _ _ _ false (b1 _ _ _ _) (b1 _ _ _ _) (fun V p hV hp => search_keeps p hV hp) hs
  · exact widthOf_map _ _ _ _ false (b2 _ _ _ _) (b2 _ _ _ _) (fun V p hV hp => search_keeps p hV hp) hs
  · exact widthOf_map _ _ _ _ true (d1 _) (d1 _)
      (fun V p hV hp => hV.of_flag (efpaSearch_flag _ fuel (V.setBeta (beta1 * ratio)) lo hi tol p hp)) hs
  · exact widthOf_map _ _ _ _ true (d2 _) (d2 _)
      (fun V p hV hp => hV.of_flag (efpaSearch_flag _ fuel (V.setBeta (beta1 * ratio)) lo hi tol p hp)) hs

/-- C89: the four guided simulations report the same. -/
theorem C89_guided_equal {V W : Vehicle} (h : Twins V W) (G : GuideParams) (mode : ScipyMode) (I I' : Integrator) (fuel : ℕ)
    (hr : Option (List (Option ℝ))) (ts tsX dt mt : ℝ) :
    report (W.propogateGuidedEntry G mode I fuel hr ts dt mt) = report (V.propogateGuidedEntry G mode I fuel hr ts dt mt) ∧
    report (W.propogateGuidedEntry2 G mode I I' fuel hr ts dt mt) =
      report (V.propogateGuidedEntry2 G mode I I' fuel hr ts dt mt) ∧
    report (W.propogateGuidedEntryD G mode I fuel hr ts tsX dt mt) =
      report (V.propogateGuidedEntryD G mode I fuel hr ts tsX dt mt) ∧
    report (W.propogateGuidedEntryD2 G mode I' fuel hr ts tsX dt mt) =
      report (V.propogateGuidedEntryD2 G mode I' fuel hr ts tsX dt mt) := by
  obtain ⟨k, a, al, hs, rfl⟩ := twins_rescale h
  have key : ∀ r r' : Option (Run GuidedOut), r = r'.map (fun x => x.map (rescaleG k a al)) → report r = report r' := by
    intro r r' e
    rw [e]
    rcases r' with _ | e | o <;> rfl
  have x1 : BlindExit k a al (Vehicle.exit1 G mode I) := fun V h => by
    simp only [Vehicle.exit1, rescale_propogateEntry h]
  have x2 : BlindExit k a al (Vehicle.exit2 G mode I') := fun V h => by
    simp only [Vehicle.exit2, rescale_propogateEntry2 h]
  have x3 : BlindExit k a al (Vehicle.exitD1 mode I) := fun V h => by
    simp only [Vehicle.exitD1, rescale_propogateEntry h]
  have x4 : BlindExit k a al (Vehicle.exitD2 mode I') := fun V h => by
    simp only [Vehicle.exitD2, rescale_propogateEntry2 h]
  have hb : Scaling k a (V.setBeta G.beta1) := hs.of_flag rfl
  refine ⟨key _ _ ?_, key _ _ ?_, key _ _ ?_, key _ _ ?_⟩
  · exact guided_rescale (blind_glide1 G mode I) x1 G mode fuel hr (fun W => W) (fun _ _ => rfl) (fun _ => rfl) _ _ _ _ hs
  · exact guided_rescale (blind_glide2 G mode I I') x2 G mode fuel hr (fun W => W) (fun _ _ => rfl) (fun _ => rfl) _ _ _ _ hs
  · unfold Vehicle.propogateGuidedEntryD
    rw [rescale_setBeta _ hs]
    exact guided_rescale (blind_drag1 G mode I) x3 G mode fuel hr (fun W => W.setBeta (G.beta1 * G.betaRatio))
      (fun _ h => rescale_setBeta _ h) (fun _ => rfl) _ _ _ _ hb
  · unfold Vehicle.propogateGuidedEntryD2
    rw [rescale_setBeta _ hs]
    exact guided_rescale (blind_drag2 G mode I') x4 G mode fuel hr (fun W => W.setBeta (G.beta1 * G.betaRatio))
      (fun _ h => rescale_setBeta _ h) (fun _ => rfl) _ _ _ _ hb

/-- Case for `C89_flights_equal`: a 500 kg probe with 1 m² and a 900 kg probe with 3 m² and another trim angle. -/
example : ∃ (P : Planet) (out : PropOut), Planet.init "MARS" = .ok P ∧
    (demoEntry P 100 5).propogateEntry .strict constIntegrator 1200 0.1 30 = .ok out ∧
    (Vehicle.mk' 900 100 0.2 3 10 1 P ⟨fun _ => 1, fun _ => 1, fun _ => 1, fun _ => 1⟩ false (fun _ => 1)
      ⟨100, 0, 0, 5, 0, -7, 0, 0⟩).propogateEntry .strict constIntegrator 1200 0.1 30 = .ok out := by
  obtain ⟨P, hP, -, -, hS, hT, -⟩ := demo_mars
  obtain ⟨out, h1, -⟩ := demo_flight (h := 100) (v := 5) hP .strict 30 (by rw [hT]; norm_num) (by rw [hS]; norm_num)
  refine ⟨P, out, hP, h1, ?_⟩
  rw [(C89_flights_equal (V := demoEntry P 100 5) ⟨500, 900, 1, 3, 100, 0.2, 0, 10, 1, P, _, false, _, _, by norm_num,
    by norm_num, by norm_num, by norm_num, by simp, rfl, rfl⟩).1]
  exact h1

/-- Case for `C89_corridors_equal`: the overshoot bound found for the demonstration vehicle is that of a craft of twice the
mass and area. -/
example : ∃ (V W : Vehicle) (n : ℕ) (x : ℝ), W.mass = 2 * V.mass ∧
    answer (V.findOverShootLimit demoSearch n (-90) 0 1e-3) = some (.ok (x, 1)) ∧
    answer (W.findOverShootLimit demoSearch n (-90) 0 1e-3) = some (.ok (x, 1)) := by
  obtain ⟨P, hP, -⟩ := demo_mars
  obtain ⟨c, _, _, h⟩ := demo_search
  obtain ⟨x, y, n, hn, -⟩ := h P hP
  have h1 : answer ((demoCraft P).findOverShootLimit demoSearch n (-90) 0 1e-3) = some (.ok (x, 1)) := by
    rw [(hn n le_rfl).1]; rfl
  refine ⟨demoCraft P, Vehicle.mk' 1000 100 0.24 2 0 1 P ⟨fun _ => 1, fun _ => 1, fun _ => 1, fun _ => 1⟩ false (fun _ => 1)
    ⟨100, 0, 0, 4, 0, -7, 0, 0⟩, n, x, by norm_num [demoCraft, Vehicle.mk'], h1, ?_⟩
  rw [(C89_corridors_equal (V := demoCraft P) ⟨500, 1000, 1, 2, 100, 0.24, 0, 0, 1, P, _, false, _, _, by norm_num,
    by norm_num, by norm_num, by norm_num, by simp, rfl, rfl⟩ demoSearch n 0 0 (-90) 0 1e-3 0 0 0).1]
  exact h1

/-- Case for `C89_guided_equal`: the example run of the guided simulation, and that of a vehicle of other mass. -/
example : ∃ (V W : Vehicle) (G : GuideParams) (I : Integrator) (o o' : GuidedOut), W.mass ≠ V.mass ∧
    V.propogateGuidedEntry G .strict I 3 none 1 0.1 600 = some (.ok o) ∧
    W.propogateGuidedEntry G .strict I 3 none 1 0.1 600 = some (.ok o') ∧ o'.fin.deltaDeg = o.fin.deltaDeg ∧
    o.fin.deltaDeg.length = 3 := by
  obtain ⟨P, hP⟩ := (C01_planet_names "MARS").1.mpr (by simp [Spec.bodies])
  obtain ⟨o, h1, h2, -⟩ := guided_run P hP 4 (by norm_num) ⟨fun _ => 1, fun _ => 1, fun _ => 1, fun _ => 1⟩ one_pos
  set V := exampleVehicle P ⟨fun _ => 1, fun _ => 1, fun _ => 1, fun _ => 1⟩ 4 with hV
  have e := (C89_guided_equal (V := V) (W := Vehicle.mk' 750 100 0.2 2 0 1 P ⟨fun _ => 1, fun _ => 1, fun _ => 1, fun _ => 1⟩
      false (fun _ => 1) ⟨100, 0, 0, 4, 0, -90, 0, 0⟩) ⟨500, 750, 1, 2, 100, 0.2, 0, 0, 1, P, _, false, _, _, by norm_num,
    by norm_num, by norm_num, by norm_num, by simp, rfl, rfl⟩ exampleGuide .strict (exampleIntegrator P) (exampleIntegrator P) 3
    none 1 1 0.1 600).1
  rw [h1] at e
  set W := Vehicle.mk' 750 100 0.2 2 0 1 P ⟨fun _ => 1, fun _ => 1, fun _ => 1, fun _ => 1⟩ false (fun _ => 1)
    ⟨100, 0, 0, 4, 0, -90, 0, 0⟩ with hW
  rcases h3 : W.propogateGuidedEntry exampleGuide .strict (exampleIntegrator P) 3 none 1 0.1 600 with _ | _ | o'
  · rw [h3] at e; simp [report] at e
  · rw [h3] at e; simp [report, Except.map] at e
  · rw [h3] at e
    simp only [report, Option.map_some, Except.map, Option.some.injEq, Except.ok.injEq, reported, Prod.mk.injEq] at e
    exact ⟨V, W, exampleGuide, exampleIntegrator P, o, o', by norm_num [hV, hW, exampleVehicle, Vehicle.mk'], h1, h3,
      e.2.2.1, h2⟩

/-! ### C90 -/

/-- Another lift-to-drag ratio (proof device). -/
def withLift (l c : ℝ) (V : Vehicle) : Vehicle := { V with LD := l, CL := c }

/-- Only the lift vector counts. -/
theorem lift_vector (V : Vehicle) (l c d d' : ℝ) (hc : c * cos d' = V.CL * cos d) (hs : c * sin d' = V.CL * sin d) :
    (∀ y t, (withLift l c V).EOM y t d' = V.EOM y t d) ∧
    ∀ mode bar J, (withLift l c V).postProcess mode bar d' J = V.postProcess mode bar d J := by
  have eL : ∀ r th ph v, (withLift l c V).Lbar r th ph v * cos d' = V.Lbar r th ph v * cos d := by
    intro r th ph v
    simp only [Vehicle.Lbar, withLift, mul_assoc, hc]
  have eL' : ∀ r th ph v, (withLift l c V).Lbar r th ph v * sin d' = V.Lbar r th ph v * sin d := by
    intro r th ph v
    simp only [Vehicle.Lbar, withLift, mul_assoc, hs]
  have eV : ∀ r v, (withLift l c V).Lvec r v * cos d' = V.Lvec r v * cos d := by
    intro r v
    simp only [Vehicle.Lvec, withLift, mul_assoc, hc]
  have eV' : ∀ r v, (withLift l c V).Lvec r v * sin d' = V.Lvec r v * sin d := by
    intro r v
    simp only [Vehicle.Lvec, withLift, mul_assoc, hs]
  constructor
  · intro y t
    have e2 : ∀ r th ph v, (withLift l c V).a_nbar r th ph v d' = V.a_nbar r th ph v d := by
      intro r th ph v
      simp only [Vehicle.a_nbar, Lits.l00, zero_mul, add_zero, eL]
      rfl
    have e3 : ∀ r th ph v, (withLift l c V).a_wbar r th ph v d' = V.a_wbar r th ph v d := by
      intro r th ph v
      simp only [Vehicle.a_wbar, Lits.l00, zero_mul, add_zero, eL']
      rfl
    simp only [Vehicle.EOM, e2, e3]
    rfl
  · intro mode bar J
    have n1 : ∀ r v, (withLift l c V).a_nvec r v d' = V.a_nvec r v d := by
      intro r v
      simp only [Vehicle.a_nvec, zero_mul, add_zero, eV]
      rfl
    have n2 : ∀ r v, (withLift l c V).a_wvec r v d' = V.a_wvec r v d := by
      intro r v
      simp only [Vehicle.a_wvec, zero_mul, add_zero, eV']
      rfl
    have e1 : (withLift l c V).accNet d' = V.accNet d := by
      funext r v
      simp only [Vehicle.accNet, n1, n2]
      rfl
    have e2 : (withLift l c V).accDrag d' = V.accDrag d := by
      funext r v
      simp only [Vehicle.accDrag, n1, n2]
      rfl
    unfold Vehicle.postProcess
    rw [e1, e2]
    rfl

theorem lift_flights (V : Vehicle) (l c d d' : ℝ) (hc : c * cos (d' * π / 180) = V.CL * cos (d * π / 180))
    (hs : c * sin (d' * π / 180) = V.CL * sin (d * π / 180)) (mode : ScipyMode) (I : Integrator) (t dt : ℝ) :
    (withLift l c V).propogateEntry mode I t dt d' = V.propogateEntry mode I t dt d ∧
    (withLift l c V).propogateEntry2 mode I t dt d' = V.propogateEntry2 mode I t dt d := by
  have l180 : (180.0 : ℝ) = 180 := by norm_num
  rw [← l180] at hc hs
  obtain ⟨h1, h2⟩ := lift_vector V l c _ _ hc hs
  have h1' : ∀ t y, (withLift l c V).EOM2 t y (d' * π / 180.0) = V.EOM2 t y (d * π / 180.0) := fun t y => h1 y t
  unfold Vehicle.propogateEntry Vehicle.propogateEntry2 Vehicle.solveTrajectory Vehicle.solveTrajectory2
  simp only [h2, h1, h1']
  exact ⟨rfl, rfl⟩

/-- C90: the flight depends on the bank angle only through the two components of the lift vector. -/
theorem C90_lift_vector (m beta LD LD' A alpha RN : ℝ) (P : Planet) (atm : Atmosphere) (flag : Bool) (f : ℝ → ℝ)
    (st : InitState) (d d' : ℝ) (hc : LD' * cos (d' * π / 180) = LD * cos (d * π / 180))
    (hs : LD' * sin (d' * π / 180) = LD * sin (d * π / 180)) (mode : ScipyMode) (I : Integrator) (t dt : ℝ) :
    (Vehicle.mk' m beta LD' A alpha RN P atm flag f st).propogateEntry mode I t dt d' =
      (Vehicle.mk' m beta LD A alpha RN P atm flag f st).propogateEntry mode I t dt d ∧
    (Vehicle.mk' m beta LD' A alpha RN P atm flag f st).propogateEntry2 mode I t dt d' =
      (Vehicle.mk' m beta LD A alpha RN P atm flag f st).propogateEntry2 mode I t dt d := by
  refine lift_flights (Vehicle.mk' m beta LD A alpha RN P atm flag f st) LD' (LD' * (m / (beta * A))) d d' ?_ ?_ mode I t dt
  · simp only [Vehicle.mk']
    rw [mul_right_comm, hc, mul_right_comm]
  · simp only [Vehicle.mk']
    rw [mul_right_comm, hs, mul_right_comm]

/-- C90: the bank angle of a ballistic vehicle has no effect, a full turn has none for any vehicle, and turning the
vehicle upside down is the same as reversing its lift. -/
theorem C90_bank_symmetries (m beta LD A alpha RN : ℝ) (P : Planet) (atm : Atmosphere) (flag : Bool) (f : ℝ → ℝ)
    (st : InitState) (d d' : ℝ) (mode : ScipyMode) (I : Integrator) (t dt : ℝ) :
    (Vehicle.mk' m beta 0 A alpha RN P atm flag f st).propogateEntry mode I t dt d' =
      (Vehicle.mk' m beta 0 A alpha RN P atm flag f st).propogateEntry mode I t dt d ∧
    (Vehicle.mk' m beta 0 A alpha RN P atm flag f st).propogateEntry2 mode I t dt d' =
      (Vehicle.mk' m beta 0 A alpha RN P atm flag f st).propogateEntry2 mode I t dt d ∧
    (Vehicle.mk' m beta LD A alpha RN P atm flag f st).propogateEntry mode I t dt (d + 360) =
      (Vehicle.mk' m beta LD A alpha RN P atm flag f st).propogateEntry mode I t dt d ∧
    (Vehicle.mk' m beta LD A alpha RN P atm flag f st).propogateEntry2 mode I t dt (d + 360) =
      (Vehicle.mk' m beta LD A alpha RN P atm flag f st).propogateEntry2 mode I t dt d ∧
    (Vehicle.mk' m beta (-LD) A alpha RN P atm flag f st).propogateEntry mode I t dt (d + 180) =
      (Vehicle.mk' m beta LD A alpha RN P atm flag f st).propogateEntry mode I t dt d ∧
    (Vehicle.mk' m beta (-LD) A alpha RN P atm flag f st).propogateEntry2 mode I t dt (d + 180) =
      (Vehicle.mk' m beta LD A alpha RN P atm flag f st).propogateEntry2 mode I t dt d := by
  have t1 : (d + 360) * π / 180 = d * π / 180 + 2 * π := by ring
  have t2 : (d + 180) * π / 180 = d * π / 180 + π := by ring
  have a := C90_lift_vector m beta 0 0 A alpha RN P atm flag f st d d' (by ring) (by ring) mode I t dt
  have b := C90_lift_vector m beta LD LD A alpha RN P atm flag f st d (d + 360) (by rw [t1, cos_add_two_pi])
    (by rw [t1, sin_add_two_pi]) mode I t dt
  have c := C90_lift_vector m beta LD (-LD) A alpha RN P atm flag f st d (d + 180) (by rw [t2, cos_add_pi]; ring)
    (by rw [t2, sin_add_pi]; ring) mode I t dt
  exact ⟨a.1, a.2, b.1, b.2, c.1, c.2⟩

/-- Case for `C90_lift_vector` and `C90_bank_symmetries`: the demonstration flight with the lift reversed, flown upside down. -/
example : ∃ (P : Planet) (out : PropOut), Planet.init "MARS" = .ok P ∧
    (demoEntry P 100 5).propogateEntry .strict constIntegrator 1200 0.1 30 = .ok out ∧
    (Vehicle.mk' 500 100 (-0.2) 1 0 1 P ⟨fun _ => 1, fun _ => 1, fun _ => 1, fun _ => 1⟩ false (fun _ => 1)
      ⟨100, 0, 0, 5, 0, -7, 0, 0⟩).propogateEntry .strict constIntegrator 1200 0.1 210 = .ok out := by
  obtain ⟨P, hP, -, -, hS, hT, -⟩ := demo_mars
  obtain ⟨out, h1, -⟩ := demo_flight (h := 100) (v := 5) hP .strict 30 (by rw [hT]; norm_num) (by rw [hS]; norm_num)
  refine ⟨P, out, hP, h1, ?_⟩
  rw [show (210:ℝ) = 30 + 180 by norm_num, (C90_bank_symmetries 500 100 0.2 1 0 1 P _ false _ _ 30 0 .strict constIntegrator
    1200 0.1).2.2.2.2.1]
  exact h1

/-- Turning the lift around carries the test with lift down over to the test with lift up. -/
def turned (V : Vehicle) : Vehicle := withLift (-V.LD) (-V.CL) V

theorem turned_mk' (m beta LD A alpha RN : ℝ) (P : Planet) (atm : Atmosphere) (flag : Bool) (f : ℝ → ℝ) (st : InitState) :
    Vehicle.mk' m beta (-LD) A alpha RN P atm flag f st = turned (Vehicle.mk' m beta LD A alpha RN P atm flag f st) := by
  simp only [Vehicle.mk', turned, withLift, neg_mul]

theorem cos_sin_half_turn : cos ((180.0:ℝ) * π / 180) = -1 ∧ sin ((180.0:ℝ) * π / 180) = 0 ∧ cos ((0.0:ℝ) * π / 180) = 1 ∧
    sin ((0.0:ℝ) * π / 180) = 0 := by
  have e1 : (180.0:ℝ) * π / 180 = π := by norm_num
  have e2 : (0.0:ℝ) * π / 180 = 0 := by norm_num
  rw [e1, e2]
  simp

theorem carries_turned (S : SearchEnv) : Carries turned (fun _ => True) (S.test 0.0) (S.test 180.0) ∧
    Carries turned (fun _ => True) (S.test2 0.0) (S.test2 180.0) ∧
    Carries turned (fun _ => True) (S.test 180.0) (S.test 0.0) ∧
    Carries turned (fun _ => True) (S.test2 180.0) (S.test2 0.0) := by
  obtain ⟨c1, c2, c3, c4⟩ := cos_sin_half_turn
  have up := fun V : Vehicle => lift_flights V (-V.LD) (-V.CL) 0.0 180.0 (by rw [c1, c3]; ring) (by rw [c2, c4]; ring) S.mode
    S.I S.tSec S.dt
  have dn := fun V : Vehicle => lift_flights V (-V.LD) (-V.CL) 180.0 0.0 (by rw [c1, c3]; ring) (by rw [c2, c4]; ring) S.mode
    S.I S.tSec S.dt
  refine ⟨⟨fun _ _ => rfl, fun _ _ h => h, fun V _ => ?_⟩, ⟨fun _ _ => rfl, fun _ _ h => h, fun V _ => ?_⟩,
    ⟨fun _ _ => rfl, fun _ _ h => h, fun V _ => ?_⟩, ⟨fun _ _ => rfl, fun _ _ h => h, fun V _ => ?_⟩⟩
  · simp only [SearchEnv.test, Vehicle.hitsTargetApoapsis, turned, (up V).1]; rfl
  · simp only [SearchEnv.test2, Vehicle.hitsTargetApoapsis2, turned, (up V).2]; rfl
  · simp only [SearchEnv.test, Vehicle.hitsTargetApoapsis, turned, (dn V).1]; rfl
  · simp only [SearchEnv.test2, Vehicle.hitsTargetApoapsis2, turned, (dn V).2]; rfl

/-- C90: reversing the lift exchanges the two corridor bounds. -/
theorem C90_reversed_bounds (m beta LD A alpha RN : ℝ) (P : Planet) (atm : Atmosphere) (flag : Bool) (f : ℝ → ℝ)
    (st : InitState) (S : SearchEnv) (fuel : ℕ) (lo hi tol : ℝ) :
    answer ((Vehicle.mk' m beta (-LD) A alpha RN P atm flag f st).findOverShootLimit S fuel lo hi tol) =
      answer ((Vehicle.mk' m beta LD A alpha RN P atm flag f st).findUnderShootLimit S fuel lo hi tol) ∧
    answer ((Vehicle.mk' m beta (-LD) A alpha RN P atm flag f st).findUnderShootLimit S fuel lo hi tol) =
      answer ((Vehicle.mk' m beta LD A alpha RN P atm flag f st).findOverShootLimit S fuel lo hi tol) ∧
    answer ((Vehicle.mk' m beta (-LD) A alpha RN P atm flag f st).findOverShootLimit2 S fuel lo hi tol) =
      answer ((Vehicle.mk' m beta LD A alpha RN P atm flag f st).findUnderShootLimit2 S fuel lo hi tol) ∧
    answer ((Vehicle.mk' m beta (-LD) A alpha RN P atm flag f st).findUnderShootLimit2 S fuel lo hi tol) =
      answer ((Vehicle.mk' m beta LD A alpha RN P atm flag f st).findOverShootLimit2 S fuel lo hi tol) := by
  rw [turned_mk']
  obtain ⟨h1, h2, h3, h4⟩ := carries_turned S
  unfold Vehicle.findOverShootLimit Vehicle.findUnderShootLimit Vehicle.findOverShootLimit2 Vehicle.findUnderShootLimit2
  refine ⟨?_, ?_, ?_, ?_⟩
  · rw [bisectSearch_map h1 (fun _ => rfl) fuel trivial]; exact mapOut_snd _ _
  · rw [bisectSearch_map h3 (fun _ => rfl) fuel trivial]; exact mapOut_snd _ _
  · rw [bisectSearch_map h2 (fun _ => rfl) fuel trivial]; exact mapOut_snd _ _
  · rw [bisectSearch_map h4 (fun _ => rfl) fuel trivial]; exact mapOut_snd _ _

/-- C90: a ballistic vehicle has one bound only, and a corridor width of zero. -/
theorem C90_ballistic_corridor (m beta A alpha RN : ℝ) (P : Planet) (atm : Atmosphere) (flag : Bool) (f : ℝ → ℝ)
    (st : InitState) (S : SearchEnv) (fuel : ℕ) (lo hi tol : ℝ) :
    let V := Vehicle.mk' m beta 0 A alpha RN P atm flag f st
    answer (V.findOverShootLimit S fuel lo hi tol) = answer (V.findUnderShootLimit S fuel lo hi tol) ∧
    answer (V.findOverShootLimit2 S fuel lo hi tol) = answer (V.findUnderShootLimit2 S fuel lo hi tol) ∧
    (∀ w, answer (V.computeTCW S fuel lo hi lo hi tol tol) = some (.ok w) → w = 0) ∧
    (∀ w, answer (V.computeTCW2 S fuel lo hi lo hi tol tol) = some (.ok w) → w = 0) ∧
    (∀ x, answer (V.findUnderShootLimit S fuel lo hi tol) = some (.ok x) →
      answer (V.computeTCW S fuel lo hi lo hi tol tol) = some (.ok 0)) ∧
    (∀ x, answer (V.findUnderShootLimit2 S fuel lo hi tol) = some (.ok x) →
      answer (V.computeTCW2 S fuel lo hi lo hi tol tol) = some (.ok 0)) := by
  intro V
  have e := C90_reversed_bounds m beta 0 A alpha RN P atm flag f st S fuel lo hi tol
  rw [neg_zero] at e
  have e1 : answer (V.findOverShootLimit S fuel lo hi tol) = answer (V.findUnderShootLimit S fuel lo hi tol) := e.1
  have e2 : answer (V.findOverShootLimit2 S fuel lo hi tol) = answer (V.findUnderShootLimit2 S fuel lo hi tol) := e.2.2.1
  have un : ∀ {α : Type} {r : Option (Vehicle × Py α)} {x : α}, answer r = some (.ok x) → ∃ W, r = some (W, .ok x) := by
    intro α r x h
    rcases r with _ | ⟨W, y⟩
    · simp [answer] at h
    · simp only [answer, Option.map_some, Option.some.injEq] at h
      exact ⟨W, by rw [h]⟩
  refine ⟨e1, e2, ?_, ?_, ?_, ?_⟩
  · intro w hw
    obtain ⟨W, hW⟩ := un hw
    obtain ⟨-, x, y, h1, h2, h3⟩ := C36_width_is_difference V fuel lo hi lo hi tol tol W w hW
    rw [h1, h2] at e1
    simp only [answer, Option.map_some, Option.some.injEq, Except.ok.injEq] at e1
    rw [h3, e1, sub_self]
  · intro w hw
    obtain ⟨W, hW⟩ := un hw
    obtain ⟨-, x, y, h1, h2, h3⟩ := C36_width_is_difference2 V fuel lo hi lo hi tol tol W w hW
    rw [h1, h2] at e2
    simp only [answer, Option.map_some, Option.some.injEq, Except.ok.injEq] at e2
    rw [h3, e2, sub_self]
  · intro x hx
    obtain ⟨W, hW⟩ := un hx
    obtain ⟨U, hU⟩ := un (e1.trans hx)
    have h1 := C35_vehicle_restored_partial Spec.IsSearch.under V W _ _ _ _ _ hW
    have h2 := C35_vehicle_restored_partial Spec.IsSearch.over V U _ _ _ _ _ hU
    subst h1 h2
    unfold Vehicle.computeTCW Vehicle.widthOf
    simp only [hU, hW, Bool.false_eq_true, if_false, sub_self]
    rfl
  · intro x hx
    obtain ⟨W, hW⟩ := un hx
    obtain ⟨U, hU⟩ := un (e2.trans hx)
    have h1 := C35_vehicle_restored_partial Spec.IsSearch.under2 V W _ _ _ _ _ hW
    have h2 := C35_vehicle_restored_partial Spec.IsSearch.over2 V U _ _ _ _ _ hU
    subst h1 h2
    unfold Vehicle.computeTCW2 Vehicle.widthOf
    simp only [hU, hW, Bool.false_eq_true, if_false, sub_self]
    rfl

/-- Case for `C90_reversed_bounds`: the demonstration vehicle with its lift reversed. -/
example : ∃ (P : Planet) (n : ℕ) (y : ℝ), Planet.init "MARS" = .ok P ∧
    answer ((Vehicle.mk' 500 100 (-0.24) 1 0 1 P ⟨fun _ => 1, fun _ => 1, fun _ => 1, fun _ => 1⟩ false (fun _ => 1)
      ⟨100, 0, 0, 4, 0, -7, 0, 0⟩).findOverShootLimit demoSearch n (-90) 0 1e-3) = some (.ok (y, 1)) := by
  obtain ⟨P, hP, -⟩ := demo_mars
  obtain ⟨c, _, _, h⟩ := demo_search
  obtain ⟨x, y, n, hn, -⟩ := h P hP
  refine ⟨P, n, y, hP, ?_⟩
  rw [(C90_reversed_bounds 500 100 0.24 1 0 1 P _ false _ _ demoSearch n (-90) 0 1e-3).1]
  have := (hn n le_rfl).2
  unfold demoCraft at this
  rw [this]; rfl

/-- Case for `C90_ballistic_corridor`: the demonstration vehicle without lift. -/
example : ∃ (P : Planet) (n : ℕ), Planet.init "MARS" = .ok P ∧
    answer ((Vehicle.mk' 500 100 0 1 0 1 P ⟨fun _ => 1, fun _ => 1, fun _ => 1, fun _ => 1⟩ false (fun _ => 1)
      ⟨100, 0, 0, 4, 0, -7, 0, 0⟩).computeTCW demoSearch n (-90) 0 (-90) 0 1e-3 1e-3) = some (.ok 0) := by
  obtain ⟨P, hP, -⟩ := demo_mars
  obtain ⟨c, hc0, hc1, H⟩ := const_threshold
  set V := Vehicle.mk' 500 100 0 1 0 1 P ⟨fun _ => 1, fun _ => 1, fun _ => 1, fun _ => 1⟩ false (fun _ => 1)
      ⟨100, 0, 0, 4, 0, -7, 0, 0⟩ with hV
  have hne : (fun g : ℝ => (if g ≤ c then -1 else 1 : ℤ)) (-90) ≠ (fun g : ℝ => (if g ≤ c then -1 else 1 : ℤ)) 0 := by
    simp [hc0.le, hc1]
  obtain ⟨y, n, h3, -⟩ := C33_search_accurate (S := demoSearch) Spec.IsSearch.under V
    (fun g => if g ≤ c then -1 else 1) (fun g => by split_ifs <;> simp) (-90) 0 1e-3 c (by norm_num) (by norm_num)
    (fun g hg => H P hP V rfl rfl rfl 0 g hg) hne
    (fun g g' h h' => by rw [if_pos h.le, if_pos h'.le])
    (fun g g' h h' => by rw [if_neg (not_le.mpr h), if_neg (not_le.mpr h')])
  refine ⟨P, n, hP, ?_⟩
  exact (C90_ballistic_corridor 500 100 1 0 1 P _ false _ _ demoSearch n (-90) 0 1e-3).2.2.2.2.1 (y, 1) (by
    have := h3 n le_rfl
    rw [hV] at this
    rw [this]; rfl)

end AMAT.Props
