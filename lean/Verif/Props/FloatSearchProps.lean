import Verif.Lemmas.FloatSearch
import Verif.Lemmas.Lits

/-
Property C86: the corridor-bound searches in double precision.
-/

noncomputable section

namespace AMAT.Props

open Set

/-- The corridor searches with rounded angles, each with the question it asks about one entry angle.  The question is
an arbitrary function of the vehicle (`hitsTargetApoapsis` and `hitsTargetApoapsis2` with their own rounding errors are
among them); the drag-modulation searches ask it about the vehicle without lift. -/
inductive Spec.IsRoundedSearch (rnd : ℝ → ℝ) (H : Vehicle → Py ℤ) :
    (ℕ → Vehicle → ℝ → ℝ → ℝ → Option (Vehicle × Py (ℝ × ℝ))) → (Vehicle → ℝ → Py ℤ) → Prop
  | lift : Spec.IsRoundedSearch rnd H (bisectSearchR rnd H)
      (fun V g => H { V with init := { V.init with gamma0Deg := g } })
  | drag : Spec.IsRoundedSearch rnd H (efpaSearchR rnd H)
      (fun V g => H { V with init := { V.init with gamma0Deg := g }, LD := 0 })

theorem rounded_shape {rnd : ℝ → ℝ} {H : Vehicle → Py ℤ}
    {search : ℕ → Vehicle → ℝ → ℝ → ℝ → Option (Vehicle × Py (ℝ × ℝ))} {test : Vehicle → ℝ → Py ℤ}
    (h : Spec.IsRoundedSearch rnd H search test) (V : Vehicle) :
    ∃ (prep : Vehicle) (restore : Vehicle → Vehicle),
      (∀ fuel lo hi tol, search fuel V lo hi tol = saveRestore restore (bisectBodyR rnd H fuel prep lo hi tol)) ∧
      (∀ g, H (prep.setGamma g) = test V g) ∧ (∀ y, restore (prep.setGamma y) = V) := by
  cases h with
  | lift => exact ⟨V, fun W => W.setGamma V.init.gamma0Deg, fun _ _ _ _ => rfl, fun _ => rfl, fun _ => rfl⟩
  | drag => exact ⟨{ V with LD := 0.0 }, fun W => { W.setGamma V.init.gamma0Deg with LD := V.LD },
      fun _ _ _ _ => rfl, fun g => by rw [Lits.l00]; rfl, fun _ => rfl⟩

/-- With exact arithmetic the rounded searches are the searches of `Verif/Model/Corridor.lean`. -/
theorem C86_exact_arithmetic (H : Vehicle → Py ℤ) :
    bisectSearchR (fun x => x) H = bisectSearch H ∧ efpaSearchR (fun x => x) H = Vehicle.efpaSearch H := by
  have key : ∀ (tol : ℝ) (k : ℕ) (V : Vehicle) (lo hi : ℝ) (limit : Option ℝ),
      bisectLoopR (fun x => x) H tol k V lo hi limit = bisectLoop H tol k V lo hi limit := by
    intro tol k
    induction k with
    | zero => intros; rfl
    | succ k ih => intro V lo hi limit; unfold bisectLoopR bisectLoop; simp only [ih]; rfl
  have body : ∀ fuel V lo hi tol, bisectBodyR (fun x => x) H fuel V lo hi tol = bisectBody H fuel V lo hi tol := by
    intro fuel V lo hi tol
    unfold bisectBodyR bisectBody
    simp only [key]
    rfl
  constructor
  · funext fuel V lo hi tol; unfold bisectSearchR bisectSearch; rw [body]
  · funext fuel V lo hi tol; unfold efpaSearchR Vehicle.efpaSearch; rw [body]

variable {rnd : ℝ → ℝ} {H : Vehicle → Py ℤ}
  {search : ℕ → Vehicle → ℝ → ℝ → ℝ → Option (Vehicle × Py (ℝ × ℝ))} {test : Vehicle → ℝ → Py ℤ}

/-- C86: in double precision (any rounding to nearest), for a bracket of angles of magnitude up to `2^(e+53)` and a
tolerance of at least `2^e` — the spacing of the double-precision numbers of that magnitude — a search over whose
bracket the verdict changes ends, leaves the vehicle as it was and returns an angle of the bracket with the verdict of
the high guess, which is within the tolerance (as the code computes the distance; in any case closer than twice the
tolerance) of an angle of the bracket with the other verdict. -/
theorem C86_search_ends (hr : RoundsTo binary64 rnd) (hs : Spec.IsRoundedSearch rnd H search test) (V : Vehicle)
    (f : ℝ → ℤ) (hf : ∀ g, f g = -1 ∨ f g = 1) (lo hi tol : ℝ) (hlo : lo ∈ binary64) (hhi : hi ∈ binary64)
    (htolF : tol ∈ binary64) (e : ℤ) (he : -1074 ≤ e) (hlo' : |lo| ≤ (2 : ℝ) ^ (e + 53))
    (hhi' : |hi| ≤ (2 : ℝ) ^ (e + 53)) (htol : (2 : ℝ) ^ e ≤ tol) (hwide : tol < |rnd (hi - lo)|)
    (hH : ∀ g ∈ uIcc lo hi ∩ binary64, test V g = .ok (f g)) (hne : f lo ≠ f hi) :
    ∃ lim ∈ uIcc lo hi ∩ binary64, f lim = f hi ∧
      (∃ g ∈ uIcc lo hi ∩ binary64, |rnd (lim - g)| ≤ tol ∧ |lim - g| < 2 * tol ∧ f g = f lo) ∧
      ∃ n, ∀ fuel, n ≤ fuel → search fuel V lo hi tol = some (V, .ok (lim, 1)) := by
  obtain ⟨prep, restore, h1, h2, h3⟩ := rounded_shape hs V
  have hH' : ∀ g ∈ uIcc lo hi ∩ binary64, H (prep.setGamma g) = .ok (f g) := fun g hg => by rw [h2, hH g hg]
  have hpos : 0 < tol := lt_of_lt_of_le (binary64.two_zpow_pos e) htol
  have hbd : ∀ x ∈ uIcc lo hi, |x| ≤ (2 : ℝ) ^ (e + 53) := by
    intro x hx
    rw [mem_uIcc] at hx
    rw [abs_le] at hlo' hhi' ⊢
    rcases hx with ⟨a, b⟩ | ⟨a, b⟩ <;> constructor <;> linarith [hlo'.1, hlo'.2, hhi'.1, hhi'.2]
  have small : ∀ d : ℝ, |d| ≤ tol → |rnd d| ≤ tol := by
    intro d hd
    rw [abs_le] at hd ⊢
    exact ⟨hr.ge_of_ge (binary64.neg_mem htolF) hd.1, hr.le_of_le htolF hd.2⟩
  have big : ∀ d : ℝ, 2 * tol ≤ |d| → 2 * tol ≤ |rnd d| := by
    intro d hd
    rw [le_abs] at hd ⊢
    rcases hd with hd | hd
    · exact Or.inl (hr.ge_of_ge (binary64.dbl htolF) hd)
    · exact Or.inr (by linarith [hr.le_of_le (x := d) (binary64.neg_mem (binary64.dbl htolF)) (by linarith)])
  have hres : ∀ x ∈ uIcc lo hi ∩ binary64, ∀ y ∈ uIcc lo hi ∩ binary64, |rnd (y - x)| > tol →
      ∃ z ∈ binary64, z ∈ uIcc x y ∧ z ≠ x ∧ z ≠ y := by
    intro x hx y hy hxy
    have hd : tol < |y - x| := by
      by_contra hc
      push Not at hc
      exact absurd (small _ hc) (not_le.mpr hxy)
    rcases lt_abs.mp hd with hd | hd
    · obtain ⟨z, hz, a, b⟩ := binary64.exists_between he (hbd x hx.1) (hbd y hy.1) (by linarith)
      exact ⟨z, hz, by rw [mem_uIcc]; exact Or.inl ⟨a.le, b.le⟩, a.ne', b.ne⟩
    · obtain ⟨z, hz, a, b⟩ := binary64.exists_between he (hbd y hy.1) (hbd x hx.1) (by linarith)
      exact ⟨z, hz, by rw [mem_uIcc]; exact Or.inr ⟨a.le, b.le⟩, b.ne, a.ne'⟩
  obtain ⟨lo', l1, lim, l2, y, e1, e2, e3, e4, e5, e6⟩ := bisectLoopR_spec hr (binary64.halves hr) H tol f hf
    _ (prep.setGamma hi) lo hi none hlo hhi (binary64.finite lo hi) le_rfl hres
    (fun g hg => by rw [setGamma_setGamma]; exact hH' g hg) hne
  refine ⟨lim, ⟨e3 right_mem_uIcc, l2⟩, e6, ⟨lo', ⟨e3 left_mem_uIcc, l1⟩, e4, ?_, e5⟩, (uIcc lo hi ∩ binary64).ncard + 1,
    fun fuel hfuel => ?_⟩
  · by_contra hc
    push Not at hc
    linarith [big _ hc]
  · have e1 := e1 fuel hfuel
    rw [if_pos hwide, if_pos hwide] at e1
    have hneg : f lo * f hi < 0 := (sign_mul_neg (hf lo) (hf hi)).mpr hne
    rw [h1]
    unfold bisectBodyR
    simp only [hH' lo ⟨left_mem_uIcc, hlo⟩, setGamma_setGamma, hH' hi ⟨right_mem_uIcc, hhi⟩, if_pos hneg, e1,
      saveRestore, h3, Lits.l10]

/-- C86 (finding): if the angles of the bracket have magnitude at least `2^j` and the tolerance is smaller than the
spacing `2^(j-52)` of the double-precision numbers there, a search over whose bracket the verdict changes never
returns. -/
theorem C86_search_never_ends (hr : RoundsTo binary64 rnd) (hs : Spec.IsRoundedSearch rnd H search test) (V : Vehicle)
    (f : ℝ → ℤ) (hf : ∀ g, f g = -1 ∨ f g = 1) (lo hi tol : ℝ) (hlo : lo ∈ binary64) (hhi : hi ∈ binary64)
    (j : ℤ) (hj : -1022 ≤ j) (hmag : ∀ g ∈ uIcc lo hi, (2 : ℝ) ^ j ≤ |g|) (htol : tol < (2 : ℝ) ^ (j - 52))
    (hH : ∀ g ∈ uIcc lo hi ∩ binary64, test V g = .ok (f g)) (hne : f lo ≠ f hi) :
    ∀ fuel, search fuel V lo hi tol = none := by
  intro fuel
  obtain ⟨prep, restore, h1, h2, h3⟩ := rounded_shape hs V
  have hH' : ∀ g ∈ uIcc lo hi ∩ binary64, H (prep.setGamma g) = .ok (f g) := fun g hg => by rw [h2, hH g hg]
  have hneg : f lo * f hi < 0 := (sign_mul_neg (hf lo) (hf hi)).mpr hne
  have hpF := binary64.pow_mem (e := j - 52) (by omega)
  rw [h1]
  unfold bisectBodyR
  simp only [hH' lo ⟨left_mem_uIcc, hlo⟩, setGamma_setGamma, hH' hi ⟨right_mem_uIcc, hhi⟩, if_pos hneg]
  rw [bisectLoopR_diverges hr (binary64.halves hr) H tol f hf fuel _ lo hi none hlo hhi ?_
    (fun g hg => by rw [setGamma_setGamma]; exact hH' g hg) hne]
  · rfl
  · intro x hx y hy hxy
    have hg := binary64.gap hx.2 hy.2 (hmag x hx.1) (hmag y hy.1) hxy
    refine lt_of_lt_of_le htol ?_
    rw [le_abs] at hg ⊢
    rcases hg with hg | hg
    · exact Or.inl (hr.ge_of_ge hpF hg)
    · exact Or.inr (by linarith [hr.le_of_le (x := y - x) (binary64.neg_mem hpF) (by linarith)])

/-- C86 for the angles of practice: guesses between -64° and 64° and a tolerance of at least `2^-47`° (7.2e-15°). -/
theorem C86_practical_angles (hr : RoundsTo binary64 rnd) (hs : Spec.IsRoundedSearch rnd H search test) (V : Vehicle)
    (f : ℝ → ℤ) (hf : ∀ g, f g = -1 ∨ f g = 1) (lo hi tol : ℝ) (hlo : lo ∈ binary64) (hhi : hi ∈ binary64)
    (htolF : tol ∈ binary64) (hlo' : |lo| ≤ 64) (hhi' : |hi| ≤ 64) (htol : 1 / 2 ^ 47 ≤ tol)
    (hwide : tol < |rnd (hi - lo)|) (hH : ∀ g ∈ uIcc lo hi ∩ binary64, test V g = .ok (f g)) (hne : f lo ≠ f hi) :
    ∃ lim n, ∀ fuel, n ≤ fuel → search fuel V lo hi tol = some (V, .ok (lim, 1)) := by
  obtain ⟨lim, _, _, _, n, hn⟩ := C86_search_ends hr hs V f hf lo hi tol hlo hhi htolF (-47) (by norm_num)
    (by norm_num; exact hlo') (by norm_num; exact hhi') (by norm_num at htol ⊢; exact htol) hwide hH hne
  exact ⟨lim, n, hn⟩

/-- A verdict that changes at -10 degrees. -/
def switchAtTen : Vehicle → Py ℤ := open Classical in fun V => .ok (if V.init.gamma0Deg < -10 then 1 else -1)

theorem small_int_mem (n : ℤ) (h : |n| < 2 ^ 53) : (n : ℝ) ∈ binary64 := ⟨n, 0, h, by norm_num, by simp⟩

/-- The hypotheses can be met (rounding functions exist, `exists_roundsTo`): bracket [-12°, -9°], tolerance 1/1024°
returns (case for `C86_practical_angles` and `C86_search_ends`, of which it is an instance), … -/
example (hr : RoundsTo binary64 rnd) (V : Vehicle) : ∃ lim n, ∀ fuel, n ≤ fuel →
    bisectSearchR rnd switchAtTen fuel V (-12) (-9) (1 / 1024) = some (V, .ok (lim, 1)) := by
  classical
  have m12 : (-12 : ℝ) ∈ binary64 := by simpa using small_int_mem (-12) (by norm_num)
  have m9 : (-9 : ℝ) ∈ binary64 := by simpa using small_int_mem (-9) (by norm_num)
  have m3 : (3 : ℝ) ∈ binary64 := by simpa using small_int_mem 3 (by norm_num)
  refine C86_practical_angles hr Spec.IsRoundedSearch.lift V (fun g => if g < -10 then 1 else -1)
    (fun g => by split_ifs <;> simp) (-12) (-9) (1 / 1024) m12 m9 ⟨1, -10, by norm_num, by norm_num, by norm_num⟩
    (by norm_num [abs_le]) (by norm_num [abs_le]) (by norm_num) ?_ (fun g _ => rfl) ?_
  · have : (-9 : ℝ) - -12 = 3 := by norm_num
    rw [this, hr.eq_self m3]
    norm_num
  · norm_num

/-- … and the tolerance 1e-15° never does (case for `C86_search_never_ends`). -/
example (hr : RoundsTo binary64 rnd) (V : Vehicle) (fuel : ℕ) :
    bisectSearchR rnd switchAtTen fuel V (-12) (-9) (1 / 10 ^ 15) = none := by
  classical
  have m12 : (-12 : ℝ) ∈ binary64 := by simpa using small_int_mem (-12) (by norm_num)
  have m9 : (-9 : ℝ) ∈ binary64 := by simpa using small_int_mem (-9) (by norm_num)
  refine C86_search_never_ends hr Spec.IsRoundedSearch.lift V (fun g => if g < -10 then 1 else -1)
    (fun g => by split_ifs <;> simp) (-12) (-9) _ m12 m9 3 (by norm_num) ?_ (by norm_num) (fun g _ => rfl) ?_ fuel
  · intro g hg
    rw [mem_uIcc] at hg
    have : g ≤ -8 := by rcases hg with ⟨a, b⟩ | ⟨a, b⟩ <;> linarith
    rw [abs_of_nonpos (by linarith)]
    norm_num
    linarith
  · norm_num

end AMAT.Props
