import Verif.Model.Store

/-
C63: predictions made during a guided flight work on copies; every object that existed before is left as it was, and the
prediction is the one of the record model.
-/

noncomputable section

namespace AMAT

namespace Spec

/-- Every planet and vehicle that existed in `h` still exists in `h'`, with all attributes unchanged. -/
def Undisturbed (h h' : Heap) : Prop :=
  (∀ (l : ℕ) (p : PlanetObj), h.planets[l]? = some p → h'.planets[l]? = some p) ∧
  (∀ (l : ℕ) (v : VehicleObj), h.vehicles[l]? = some v → h'.vehicles[l]? = some v)

/-- Object `self` of `h` is a vehicle that, together with the planet it refers to, is described by the record `V`. -/
def Describes (h : Heap) (self : ℕ) (V : Vehicle) : Prop :=
  ∃ (v : VehicleObj) (p : PlanetObj), h.vehicles[self]? = some v ∧ h.planets[v.planetObj]? = some p ∧
    V.planet = p.consts ∧ V.atm = p.atm ∧ V.mass = v.mass ∧ V.beta = v.beta ∧ V.LD = v.LD ∧ V.A = v.A ∧
    V.alpha = v.alpha ∧ V.RN = v.RN ∧ V.userDefinedCDMach = v.userDefinedCDMach ∧ V.CDMach = v.CDMach ∧
    V.Abar = v.Abar ∧ V.mbar = v.mbar ∧ V.CD = v.CD ∧ V.CL = v.CL ∧ V.init = v.init ∧ V.initRef = v.initRef

end Spec

namespace Obj

variable {α β : Type}

theorem bind_run (p : Obj α) (q : α → Obj β) (h : Heap) :
    (p >>= q) h = match p h with
      | (.ok x, h') => q x h'
      | (.error e, h') => (.error e, h') := rfl

theorem bind_ok {p : Obj α} {q : α → Obj β} {h h' : Heap} {x : α} (hp : p h = (.ok x, h')) :
    (p >>= q) h = q x h' := by rw [bind_run, hp]

theorem bind_error {p : Obj α} {q : α → Obj β} {h h' : Heap} {e : PyErr} (hp : p h = (.error e, h')) :
    (p >>= q) h = (.error e, h') := by rw [bind_run, hp]

theorem pure_run (x : α) (h : Heap) : (pure x : Obj α) h = (.ok x, h) := rfl

theorem vehicle_ok {h : Heap} {l : ℕ} {v : VehicleObj} (hv : h.vehicles[l]? = some v) :
    vehicle l h = (.ok v, h) := by simp [vehicle, hv, getAttr]

theorem vehicle_error {h : Heap} {l : ℕ} (hv : h.vehicles[l]? = none) :
    vehicle l h = (.error .attributeError, h) := by simp only [vehicle, hv, getAttr]

theorem planet_ok {h : Heap} {l : ℕ} {p : PlanetObj} (hp : h.planets[l]? = some p) :
    planet l h = (.ok p, h) := by simp [planet, hp, getAttr]

theorem planet_error {h : Heap} {l : ℕ} (hp : h.planets[l]? = none) :
    planet l h = (.error .attributeError, h) := by simp only [planet, hp, getAttr]

theorem record_ok {h : Heap} {l : ℕ} {v : VehicleObj} {p : PlanetObj} (hv : h.vehicles[l]? = some v)
    (hp : h.planets[v.planetObj]? = some p) : record l h = (.ok (VehicleObj.record v p), h) := by
  unfold record
  rw [bind_ok (vehicle_ok hv), bind_ok (planet_ok hp), pure_run]

theorem modify_last {γ : Type} (l : List γ) (x : γ) (f : γ → γ) :
    (l ++ [x]).modify l.length f = l ++ [f x] := by
  induction l with
  | nil => simp
  | cons a l ih => simpa using ih

theorem modify_end {γ : Type} (l : List γ) (x y : γ) (f : γ → γ) :
    (l ++ [x, y]).modify l.length f = l ++ [f x, y] := by
  induction l with
  | nil => simp
  | cons a l ih => simpa using ih

/-- The state of the store while a copy is flown: the old objects and the three new ones. -/
def during (h : Heap) (p q : PlanetObj) (w : VehicleObj) : Heap :=
  { planets := h.planets ++ [p, q], vehicles := h.vehicles ++ [w] }

theorem during_undisturbed (h : Heap) (p q : PlanetObj) (w : VehicleObj) : Spec.Undisturbed h (during h p q w) := by
  constructor
  · intro l x hx
    exact List.getElem?_append_left (List.getElem?_eq_some_iff.1 hx).1 ▸ hx
  · intro l x hx
    exact List.getElem?_append_left (List.getElem?_eq_some_iff.1 hx).1 ▸ hx

theorem dummyVehicle_ok {h : Heap} {self : ℕ} {v : VehicleObj} {p : PlanetObj} (hv : h.vehicles[self]? = some v)
    (hp : h.planets[v.planetObj]? = some p) (f : ℝ → ℝ) :
    dummyVehicle self f h = (.ok h.vehicles.length,
      during h { p with atm := { p.atm with densityInt := f } } p { v with planetObj := h.planets.length }) := by
  have hv' := (List.getElem?_eq_some_iff.1 hv).1
  have hp' := (List.getElem?_eq_some_iff.1 hp).1
  unfold dummyVehicle
  rw [bind_ok (vehicle_ok hv)]
  have h1 : deepcopyPlanet v.planetObj h = (.ok h.planets.length, { h with planets := h.planets ++ [p] }) := by
    unfold deepcopyPlanet
    rw [bind_ok (planet_ok hp)]
    rfl
  rw [bind_ok h1]
  have h2 : setPlanet h.planets.length (fun p : PlanetObj => { p with atm := { p.atm with densityInt := f } })
      { h with planets := h.planets ++ [p] } =
      (.ok (), { h with planets := h.planets ++ [{ p with atm := { p.atm with densityInt := f } }] }) := by
    unfold setPlanet
    simp only [modify_last]
  rw [bind_ok h2]
  have h3 : deepcopyVehicle self
      { h with planets := h.planets ++ [{ p with atm := { p.atm with densityInt := f } }] } =
      (.ok h.vehicles.length, during h { p with atm := { p.atm with densityInt := f } } p
        { v with planetObj := h.planets.length + 1 }) := by
    unfold deepcopyVehicle
    rw [bind_ok (vehicle_ok (v := v)
      (h := { h with planets := h.planets ++ [{ p with atm := { p.atm with densityInt := f } }] }) hv)]
    have h4 : deepcopyPlanet v.planetObj
        { h with planets := h.planets ++ [{ p with atm := { p.atm with densityInt := f } }] } =
        (.ok (h.planets.length + 1),
          { h with planets := h.planets ++ [{ p with atm := { p.atm with densityInt := f } }, p] }) := by
      unfold deepcopyPlanet
      rw [bind_ok (planet_ok (p := p) (by
        show (h.planets ++ _)[v.planetObj]? = _
        rw [List.getElem?_append_left hp', hp]))]
      simp [newPlanet]
    rw [bind_ok h4]
    rfl
  rw [bind_ok h3]
  have h5 : setVehicle h.vehicles.length (fun v : VehicleObj => { v with planetObj := h.planets.length })
      (during h { p with atm := { p.atm with densityInt := f } } p { v with planetObj := h.planets.length + 1 }) =
      (.ok (), during h { p with atm := { p.atm with densityInt := f } } p
        { v with planetObj := h.planets.length }) := by
    unfold setVehicle during
    simp only [modify_last]
  rw [bind_ok h5, pure_run]

/-- If a reference dangled, nothing would have been touched. -/
theorem dummyVehicle_error {h : Heap} {self : ℕ} (f : ℝ → ℝ)
    (hn : h.vehicles[self]? = none ∨ ∃ v, h.vehicles[self]? = some v ∧ h.planets[v.planetObj]? = none) :
    dummyVehicle self f h = (.error .attributeError, h) := by
  unfold dummyVehicle
  rcases hn with hv | ⟨v, hv, hp⟩
  · rw [bind_error (vehicle_error hv)]
  · rw [bind_ok (vehicle_ok hv)]
    have h1 : deepcopyPlanet v.planetObj h = (.error .attributeError, h) := by
      unfold deepcopyPlanet
      rw [bind_error (planet_error hp)]
    rw [bind_error h1]

/-- Two vehicle objects that differ in the marks left by drag evaluations only. -/
def SameButMarks (w w' : VehicleObj) : Prop := ∃ (a : Option ℝ) (b : Option (List ℝ)), w' = { w with CD1 := a, CDvec := b }

theorem SameButMarks.refl (w : VehicleObj) : SameButMarks w w := ⟨w.CD1, w.CDvec, rfl⟩

theorem SameButMarks.trans {u v w : VehicleObj} (h : SameButMarks u v) (h' : SameButMarks v w) : SameButMarks u w := by
  obtain ⟨a, b, rfl⟩ := h
  obtain ⟨c, d, rfl⟩ := h'
  exact ⟨c, d, rfl⟩

theorem during_vehicle (h : Heap) (p q : PlanetObj) (w : VehicleObj) :
    (during h p q w).vehicles[h.vehicles.length]? = some w := by simp [during]

theorem during_planet (h : Heap) (p q : PlanetObj) (w : VehicleObj) :
    (during h p q w).planets[h.planets.length]? = some p := by simp [during]

theorem during_record {h : Heap} {p q : PlanetObj} {w : VehicleObj} (hw : w.planetObj = h.planets.length) :
    record h.vehicles.length (during h p q w) = (.ok (VehicleObj.record w p), during h p q w) :=
  record_ok (during_vehicle h p q w) (by rw [hw]; exact during_planet h p q w)

theorem during_set (h : Heap) (p q : PlanetObj) (w : VehicleObj) (f : VehicleObj → VehicleObj) :
    setVehicle h.vehicles.length f (during h p q w) = (.ok (), during h p q (f w)) := by
  unfold setVehicle during
  simp only [modify_last]

theorem runDbar_during (h : Heap) (p q : PlanetObj) (c : List (ℝ × ℝ × ℝ × ℝ)) :
    ∀ w : VehicleObj, w.planetObj = h.planets.length → ∃ w' : VehicleObj,
      runDbar h.vehicles.length c (during h p q w) = (.ok (), during h p q w') ∧ SameButMarks w w' := by
  induction c with
  | nil => exact fun w _ => ⟨w, rfl, .refl w⟩
  | cons x c ih =>
    intro w hw
    obtain ⟨r, th, ph, v⟩ := x
    have h1 : ∃ a b, Dbar h.vehicles.length r th ph v (during h p q w) =
        (.ok a, during h p q { w with CD1 := b }) := by
      unfold Dbar
      rw [bind_ok (during_record hw), bind_ok (during_set h p q w _), pure_run]
      exact ⟨_, _, rfl⟩
    obtain ⟨a, b, h1⟩ := h1
    obtain ⟨w', h2, h3⟩ := ih { w with CD1 := b } hw
    refine ⟨w', ?_, SameButMarks.trans ⟨b, w.CDvec, rfl⟩ h3⟩
    unfold runDbar
    rw [bind_ok h1]
    exact h2

theorem runDvec_during (h : Heap) (p q : PlanetObj) (c : List (List ℝ × List ℝ)) :
    ∀ w : VehicleObj, w.planetObj = h.planets.length → ∃ w' : VehicleObj,
      runDvec h.vehicles.length c (during h p q w) = (.ok (), during h p q w') ∧ SameButMarks w w' := by
  induction c with
  | nil => exact fun w _ => ⟨w, rfl, .refl w⟩
  | cons x c ih =>
    intro w hw
    obtain ⟨r, v⟩ := x
    have h1 : ∃ a b, Dvectorized h.vehicles.length r v (during h p q w) =
        (.ok a, during h p q { w with CDvec := b }) := by
      unfold Dvectorized
      rw [bind_ok (during_record hw), bind_ok (during_set h p q w _), pure_run]
      exact ⟨_, _, rfl⟩
    obtain ⟨a, b, h1⟩ := h1
    obtain ⟨w', h2, h3⟩ := ih { w with CDvec := b } hw
    refine ⟨w', ?_, SameButMarks.trans ⟨w.CD1, b, rfl⟩ h3⟩
    unfold runDvec
    rw [bind_ok h1]
    exact h2

theorem fly_during (h : Heap) (p q : PlanetObj) (w : VehicleObj) (hw : w.planetObj = h.planets.length) (c : Calls)
    (run : Vehicle → Py PropOut) : ∃ w' : VehicleObj,
      fly h.vehicles.length c run (during h p q w) = (run (VehicleObj.record w p), during h p q w') := by
  obtain ⟨w₁, h1, a, b, rfl⟩ := runDbar_during h p q c.dbar w hw
  obtain ⟨w₂, h2, d, e, rfl⟩ := runDvec_during h p q c.dvec { w with CD1 := a, CDvec := b } hw
  refine ⟨{ w with CD1 := d, CDvec := e }, ?_⟩
  unfold fly
  rw [bind_ok h1, bind_ok h2]
  have h3 := during_record (h := h) (p := p) (q := q) (w := { w with CD1 := d, CDvec := e }) hw
  rw [bind_ok h3]
  rfl

theorem jettison_during (h : Heap) (p q : PlanetObj) (v w : VehicleObj) (self : ℕ) (hv : h.vehicles[self]? = some v) :
    ∃ w' : VehicleObj, (jettisonCopy self h.vehicles.length (during h p q w)).2 = during h p q w' ∧
      w'.planetObj = w.planetObj := by
  have hv' : (during h p q w).vehicles[self]? = some v := (during_undisturbed h p q w).2 self v hv
  unfold jettisonCopy
  rw [bind_ok (vehicle_ok hv')]
  cases h1 : v.beta1 with
  | none =>
    rw [bind_error (h' := during h p q w) (e := .typeError) (by simp [ofPy, needNumber])]
    exact ⟨w, rfl, rfl⟩
  | some b1 =>
    rw [bind_ok (h' := during h p q w) (x := b1) (by simp [ofPy, needNumber])]
    cases h2 : v.betaRatio with
    | none =>
      rw [bind_error (h' := during h p q w) (e := .typeError) (by simp [ofPy, needNumber])]
      exact ⟨w, rfl, rfl⟩
    | some r =>
      rw [bind_ok (h' := during h p q w) (x := r) (by simp [ofPy, needNumber]), bind_ok (during_set h p q w _)]
      by_cases h0 : b1 * r * v.A = 0
      · rw [if_pos h0]
        exact ⟨_, rfl, rfl⟩
      · rw [if_neg h0, during_set]
        exact ⟨_, rfl, rfl⟩

theorem jettison_ok (h : Heap) (p q : PlanetObj) (v w : VehicleObj) (self : ℕ) (hv : h.vehicles[self]? = some v)
    {b1 r : ℝ} (hb : v.beta1 = some b1) (hr : v.betaRatio = some r) (h0 : b1 * r * v.A ≠ 0) :
    jettisonCopy self h.vehicles.length (during h p q w) =
      (.ok (), during h p q { w with beta := b1 * r, CD := v.mass / (b1 * r * v.A) }) := by
  have hv' : (during h p q w).vehicles[self]? = some v := (during_undisturbed h p q w).2 self v hv
  unfold jettisonCopy
  rw [bind_ok (vehicle_ok hv'), hb, hr,
    bind_ok (h' := during h p q w) (x := b1) (by simp [ofPy, needNumber]),
    bind_ok (h' := during h p q w) (x := r) (by simp [ofPy, needNumber]), bind_ok (during_set h p q w _), if_neg h0,
    during_set]

/-- Whatever is flown on the copy, the old objects stay. -/
theorem util_undisturbed (self : ℕ) (f : ℝ → ℝ) (c : Calls) (run : Vehicle → Py PropOut) (h : Heap) :
    Spec.Undisturbed h ((do let w ← dummyVehicle self f; fly w c run : Obj PropOut) h).2 := by
  cases hv : h.vehicles[self]? with
  | none =>
    rw [bind_error (dummyVehicle_error f (.inl hv))]
    exact ⟨fun _ _ h => h, fun _ _ h => h⟩
  | some v =>
    cases hp : h.planets[v.planetObj]? with
    | none =>
      rw [bind_error (dummyVehicle_error f (.inr ⟨v, hv, hp⟩))]
      exact ⟨fun _ _ h => h, fun _ _ h => h⟩
    | some p =>
      rw [bind_ok (dummyVehicle_ok hv hp f)]
      obtain ⟨w', h1⟩ := fly_during h { p with atm := { p.atm with densityInt := f } } p
        { v with planetObj := h.planets.length } rfl c run
      rw [h1]
      exact during_undisturbed h _ _ _

theorem utilD_undisturbed (self : ℕ) (f : ℝ → ℝ) (c : Calls) (run : Vehicle → Py PropOut) (h : Heap) :
    Spec.Undisturbed h
      ((do let w ← dummyVehicle self f; jettisonCopy self w; fly w c run : Obj PropOut) h).2 := by
  cases hv : h.vehicles[self]? with
  | none =>
    rw [bind_error (dummyVehicle_error f (.inl hv))]
    exact ⟨fun _ _ h => h, fun _ _ h => h⟩
  | some v =>
    cases hp : h.planets[v.planetObj]? with
    | none =>
      rw [bind_error (dummyVehicle_error f (.inr ⟨v, hv, hp⟩))]
      exact ⟨fun _ _ h => h, fun _ _ h => h⟩
    | some p =>
      rw [bind_ok (dummyVehicle_ok hv hp f)]
      obtain ⟨w₁, h1, h1'⟩ := jettison_during h { p with atm := { p.atm with densityInt := f } } p v
        { v with planetObj := h.planets.length } self hv
      rcases h2 : jettisonCopy self h.vehicles.length (during h { p with atm := { p.atm with densityInt := f } } p
        { v with planetObj := h.planets.length }) with ⟨e | u, h'⟩
      · rw [h2] at h1
        rw [bind_error h2]
        exact h1 ▸ during_undisturbed h _ _ _
      · rw [h2] at h1
        rw [bind_ok h2]
        obtain ⟨w', h3⟩ := fly_during h { p with atm := { p.atm with densityInt := f } } p w₁ h1' c run
        rw [show h' = _ from h1, h3]
        exact during_undisturbed h _ _ _

theorem predict_undisturbed (self : ℕ) (q : Obj PropOut) (h : Heap) (hq : Spec.Undisturbed h (q h).2) :
    Spec.Undisturbed h (predictApoapsis self q h).2 := by
  unfold predictApoapsis
  rcases h1 : q h with ⟨e | out, h'⟩
  · rw [bind_error h1]
    rwa [h1] at hq
  · rw [bind_ok h1]
    rw [h1] at hq
    have h2 : (record self h').2 = h' := by
      unfold record
      cases hv : h'.vehicles[self]? with
      | none => rw [bind_error (vehicle_error hv)]
      | some v =>
        rw [bind_ok (vehicle_ok hv)]
        cases hp : h'.planets[v.planetObj]? with
        | none => rw [bind_error (planet_error hp)]
        | some p => rw [bind_ok (planet_ok hp), pure_run]
    rcases h3 : record self h' with ⟨e | V, h''⟩
    · rw [bind_error h3]
      rw [h3] at h2
      exact (show h'' = h' from h2) ▸ hq
    · rw [bind_ok h3]
      rw [h3] at h2
      exact (show h'' = h' from h2) ▸ hq

end Obj

namespace Props

open Obj

/-- **C63.** Predicting a trajectory with the measured atmosphere, with any of the four functions, leaves every planet
and vehicle object as it was: the vehicle in flight, its planet, and all others.  This holds for all stores, arguments
and integrators, whichever points the integrator evaluates, and also if the prediction raises. -/
theorem C63_prediction_undisturbed (h : Heap) (self : ℕ) (c : Calls) (mode : ScipyMode) (I : Integrator) (s : InitState)
    (tSec dt deltaDeg : ℝ) (f : ℝ → ℝ) :
    Spec.Undisturbed h (propogateEntryUtil self c mode I s tSec dt deltaDeg f h).2 ∧
    Spec.Undisturbed h (propogateEntryUtil2 self c mode I s tSec dt deltaDeg f h).2 ∧
    Spec.Undisturbed h (propogateEntryUtilD self c mode I s tSec dt deltaDeg f h).2 ∧
    Spec.Undisturbed h (propogateEntryUtilD2 self c mode I s tSec dt deltaDeg f h).2 :=
  ⟨util_undisturbed self f c _ h, util_undisturbed self f c _ h, utilD_undisturbed self f c _ h,
    utilD_undisturbed self f c _ h⟩

/-- **C63.** The same for the four methods that predict the apoapsis. -/
theorem C63_apoapsis_undisturbed (h : Heap) (self : ℕ) (c : Calls) (mode : ScipyMode) (I : Integrator) (s : InitState)
    (tSec dt deltaDeg : ℝ) (f : ℝ → ℝ) :
    Spec.Undisturbed h (predictApoapsis self (propogateEntryUtil self c mode I s tSec dt deltaDeg f) h).2 ∧
    Spec.Undisturbed h (predictApoapsis self (propogateEntryUtil2 self c mode I s tSec dt deltaDeg f) h).2 ∧
    Spec.Undisturbed h (predictApoapsis self (propogateEntryUtilD self c mode I s tSec dt deltaDeg f) h).2 ∧
    Spec.Undisturbed h (predictApoapsis self (propogateEntryUtilD2 self c mode I s tSec dt deltaDeg f) h).2 :=
  have k := C63_prediction_undisturbed h self c mode I s tSec dt deltaDeg f
  ⟨predict_undisturbed self _ h k.1, predict_undisturbed self _ h k.2.1, predict_undisturbed self _ h k.2.2.1,
    predict_undisturbed self _ h k.2.2.2⟩

theorem describes_record {h : Heap} {self : ℕ} {V : Vehicle} (hV : Spec.Describes h self V) :
    ∃ (v : VehicleObj) (p : PlanetObj), h.vehicles[self]? = some v ∧ h.planets[v.planetObj]? = some p ∧
      V = VehicleObj.record v p := by
  obtain ⟨v, p, hv, hp, h1⟩ := hV
  refine ⟨v, p, hv, hp, ?_⟩
  obtain ⟨h1, h2, h3, h4, h5, h6, h7, h8, h9, h10, h11, h12, h13, h14, h15, h16⟩ := h1
  cases V
  simp only at h1 h2 h3 h4 h5 h6 h7 h8 h9 h10 h11 h12 h13 h14 h15 h16
  subst h1 h2 h3 h4 h5 h6 h7 h8 h9 h10 h11 h12 h13 h14 h15 h16
  rfl

/-- **C63.** After a prediction the vehicle is still the one it was. -/
theorem C63_vehicle_as_before (h h' : Heap) (hu : Spec.Undisturbed h h') (self : ℕ) (V : Vehicle)
    (hV : Spec.Describes h self V) : Spec.Describes h' self V := by
  obtain ⟨v, p, hv, hp, rest⟩ := hV
  exact ⟨v, p, hu.2 _ _ hv, hu.1 _ _ hp, rest⟩

/-- **C63.** The trajectory predicted on the copies is the one computed by the record model for this vehicle in the
measured density; it depends neither on other objects nor on the points the integrator evaluates. -/
theorem C63_prediction_value (h : Heap) (self : ℕ) (V : Vehicle) (hV : Spec.Describes h self V) (c : Calls)
    (mode : ScipyMode) (I : Integrator) (s : InitState) (tSec dt deltaDeg : ℝ) (f : ℝ → ℝ) :
    (propogateEntryUtil self c mode I s tSec dt deltaDeg f h).1 = V.propogateEntryUtil mode I s tSec dt deltaDeg f ∧
    (propogateEntryUtil2 self c mode I s tSec dt deltaDeg f h).1 = V.propogateEntryUtil2 mode I s tSec dt deltaDeg f := by
  obtain ⟨v, p, hv, hp, rfl⟩ := describes_record hV
  constructor
  · unfold Obj.propogateEntryUtil
    rw [bind_ok (dummyVehicle_ok hv hp f)]
    obtain ⟨w', h1⟩ := fly_during h { p with atm := { p.atm with densityInt := f } } p
      { v with planetObj := h.planets.length } rfl c (fun W => W.postProcess mode
        (W.solveTrajectory I (W.planet.nonDimState (Vehicle.entryState W.planet s)) tSec dt (deltaDeg * Real.pi / 180.0))
        (deltaDeg * Real.pi / 180.0) s.heatLoad0)
    rw [h1]
    rfl
  · unfold Obj.propogateEntryUtil2
    rw [bind_ok (dummyVehicle_ok hv hp f)]
    obtain ⟨w', h1⟩ := fly_during h { p with atm := { p.atm with densityInt := f } } p
      { v with planetObj := h.planets.length } rfl c (fun W => W.postProcess mode
        (W.solveTrajectory2 I (W.planet.nonDimState (Vehicle.entryState W.planet s)) tSec dt (deltaDeg * Real.pi / 180.0))
        (deltaDeg * Real.pi / 180.0) s.heatLoad0)
    rw [h1]
    rfl

/-- **C63.** The same for the prediction after jettison, of a vehicle whose drag-modulation parameters are set. -/
theorem C63_jettison_value (h : Heap) (self : ℕ) (V : Vehicle) (hV : Spec.Describes h self V) (G : GuideParams)
    (hG : ∀ v, h.vehicles[self]? = some v → v.beta1 = some G.beta1 ∧ v.betaRatio = some G.betaRatio)
    (h0 : G.beta1 * G.betaRatio * V.A ≠ 0) (c : Calls)
    (mode : ScipyMode) (I : Integrator) (s : InitState) (tSec dt deltaDeg : ℝ) (f : ℝ → ℝ) :
    (propogateEntryUtilD self c mode I s tSec dt deltaDeg f h).1 =
      V.propogateEntryUtilD G mode I s tSec dt deltaDeg f ∧
    (propogateEntryUtilD2 self c mode I s tSec dt deltaDeg f h).1 =
      V.propogateEntryUtilD2 G mode I s tSec dt deltaDeg f := by
  obtain ⟨v, p, hv, hp, rfl⟩ := describes_record hV
  obtain ⟨hb, hr⟩ := hG v hv
  have hj := jettison_ok h { p with atm := { p.atm with densityInt := f } } p v { v with planetObj := h.planets.length }
    self hv hb hr h0
  constructor
  · unfold Obj.propogateEntryUtilD
    rw [bind_ok (dummyVehicle_ok hv hp f), bind_ok hj]
    obtain ⟨w', h1⟩ := fly_during h { p with atm := { p.atm with densityInt := f } } p
      { v with planetObj := h.planets.length, beta := G.beta1 * G.betaRatio,
               CD := v.mass / (G.beta1 * G.betaRatio * v.A) } rfl c (fun W => W.postProcess mode
        (W.solveTrajectory I (W.planet.nonDimState (Vehicle.entryState W.planet s)) tSec dt (deltaDeg * Real.pi / 180.0))
        (deltaDeg * Real.pi / 180.0) 0)
    rw [h1]
    rfl
  · unfold Obj.propogateEntryUtilD2
    rw [bind_ok (dummyVehicle_ok hv hp f), bind_ok hj]
    obtain ⟨w', h1⟩ := fly_during h { p with atm := { p.atm with densityInt := f } } p
      { v with planetObj := h.planets.length, beta := G.beta1 * G.betaRatio,
               CD := v.mass / (G.beta1 * G.betaRatio * v.A) } rfl c (fun W => W.postProcess mode
        (W.solveTrajectory2 I (W.planet.nonDimState (Vehicle.entryState W.planet s)) tSec dt (deltaDeg * Real.pi / 180.0))
        (deltaDeg * Real.pi / 180.0) s.heatLoad0)
    rw [h1]
    rfl

/-- C63, for contrast: evaluating the drag of a vehicle does write to that vehicle, so flying the vehicle itself instead of
a copy would disturb it. -/
theorem C63_drag_evaluation_writes (h : Heap) (self : ℕ) (v : VehicleObj) (p : PlanetObj)
    (hv : h.vehicles[self]? = some v) (hp : h.planets[v.planetObj]? = some p) (hc : v.userDefinedCDMach = false)
    (hn : v.CD1 = none) (r th ph s : ℝ) :
    ((Obj.Dbar self r th ph s h).2.vehicles[self]?).map (fun v => v.CD1) = some (some v.CD) ∧
    ¬ Spec.Undisturbed h (Obj.Dbar self r th ph s h).2 := by
  have h1 : (Obj.Dbar self r th ph s h).2.vehicles[self]? = some { v with CD1 := some v.CD } := by
    unfold Obj.Dbar
    rw [bind_ok (record_ok hv hp)]
    have : setVehicle self (fun o : VehicleObj => { o with CD1 := some ((VehicleObj.record v p).CD1
        (r * (VehicleObj.record v p).planet.RP) (s * (VehicleObj.record v p).planet.Vref)) }) h =
        (.ok (), { h with vehicles := h.vehicles.modify self fun o : VehicleObj => { o with CD1 := some v.CD } }) := by
      have e : ∀ a b, (VehicleObj.record v p).CD1 a b = v.CD := by
        intro a b
        simp [Vehicle.CD1, VehicleObj.record, hc]
      simp only [e, setVehicle]
    rw [bind_ok this, pure_run]
    show (h.vehicles.modify self _)[self]? = _
    rw [List.getElem?_modify_eq, hv]
    rfl
  refine ⟨by rw [h1]; rfl, fun hu => ?_⟩
  have := hu.2 self v hv
  rw [h1, Option.some.injEq] at this
  have h2 : some v.CD = v.CD1 := congrArg VehicleObj.CD1 this
  rw [hn] at h2
  cases h2

/-- The vehicle object of a record (`planetObj` as given, nothing evaluated yet). -/
def VehicleObj.ofRecord (V : Vehicle) (pl : ℕ) (b1 ratio : Option ℝ) : VehicleObj :=
  { mass := V.mass, beta := V.beta, LD := V.LD, A := V.A, alpha := V.alpha, RN := V.RN, planetObj := pl,
    userDefinedCDMach := V.userDefinedCDMach, CDMach := V.CDMach, Abar := V.Abar, mbar := V.mbar, CD := V.CD, CL := V.CL,
    init := V.init, initRef := V.initRef, CD1 := none, CDvec := none, beta1 := b1, betaRatio := ratio,
    other := fun _ => none }

theorem ofRecord_describes (V : Vehicle) (b1 ratio : Option ℝ) :
    Spec.Describes ⟨[⟨V.planet, V.atm, fun _ => none⟩], [VehicleObj.ofRecord V 0 b1 ratio]⟩ 0 V :=
  ⟨_, _, rfl, rfl, rfl, rfl, rfl, rfl, rfl, rfl, rfl, rfl, rfl, rfl, rfl, rfl, rfl, rfl, rfl, rfl⟩

/-- Every vehicle record is that of a store; with drag-modulation parameters 50 and 10 and an area of 1 the hypotheses of
`C63_jettison_value`, and of `C63_vehicle_as_before`, `C63_prediction_value` and `C63_drag_evaluation_writes` before it, are
met. -/
example (V : Vehicle) (hA : V.A = 1) (G : GuideParams) (hG : G.beta1 = 50 ∧ G.betaRatio = 10) :
    ∃ h : Heap, Spec.Describes h 0 V ∧
      (∀ v, h.vehicles[0]? = some v → v.beta1 = some G.beta1 ∧ v.betaRatio = some G.betaRatio) ∧
      G.beta1 * G.betaRatio * V.A ≠ 0 := by
  refine ⟨_, ofRecord_describes V (some G.beta1) (some G.betaRatio), ?_, ?_⟩
  · intro v hv
    simp only [List.getElem?_cons_zero, Option.some.injEq] at hv
    subst hv
    exact ⟨rfl, rfl⟩
  · rw [hG.1, hG.2, hA]
    norm_num

end Props

end AMAT
