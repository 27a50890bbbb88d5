import Verif.Model.Maneuver
import Verif.Lemmas.Lambert
import Verif.Props.ArrivalOrbit

/-
Helper lemmas: the probe leg of a deflection manoeuvre.
-/

noncomputable section

open Classical

namespace AMAT

open Real

/-- The scalars of a probe leg in units of the semi-transverse axis `a` and mean motion `n`. -/
structure LegCore (A : Approach) (e h r a n k δ : ℝ) : Prop where
  a0 : 0 < a
  n0 : 0 < n
  k0 : 0 < k
  k2 : k ^ 2 = e ^ 2 - 1
  gm : n ^ 2 * a ^ 3 = A.P.GM
  ha : A.a = some (-a)
  rp : A.rp = a * (e - 1)
  hh : h = n * a ^ 2 * k
  d0 : 0 < δ
  dpi : δ < π
  den : 0 < 1 + e * cos δ
  hr : r = a * k ^ 2 / (1 + e * cos δ)
  th : Maneuver.thetaDv A r = some (-δ)

theorem leg_core {A : Approach} {V e b h : ℝ} {d u w : V3} (H : ApproachCore A V e b h d u w) {r : ℝ} (hr : A.rp < r) :
    ∃ a n k δ, LegCore A e h r a n k δ ∧ a = A.P.GM / V ^ 2 := by
  have hg := H.gm; have hV := H.vpos; have he := H.e1; have hh := H.hpos; have hrp := H.rp
  have hr0 : 0 < r := by linarith
  have ha0 : 0 < A.P.GM / V ^ 2 := by positivity
  set a := A.P.GM / V ^ 2 with ha
  set n := sqrt (A.P.GM / a ^ 3) with hn
  have hn0 : 0 < n := sqrt_pos.mpr (by positivity)
  have hgm : n ^ 2 * a ^ 3 = A.P.GM := by rw [hn, sq_sqrt (by positivity)]; field_simp
  have hrpe : A.rp = a * (e - 1) := by rw [H.heq, ha]; field_simp; ring
  have hk2 : (0:ℝ) < e ^ 2 - 1 := by nlinarith
  have hk0 := sqrt_pos.mpr hk2
  have hks := sq_sqrt hk2.le
  set k := sqrt (e ^ 2 - 1) with hk
  have hhe : h = n * a ^ 2 * k := by
    apply (pow_left_inj₀ hh.le (by positivity) two_ne_zero).mp
    rw [H.hsq, hrpe, ← hgm, mul_pow, mul_pow, hks]; ring
  have hq : A.rp * (1 + e) / r * 1 = h ^ 2 / (A.P.GM * r) := by rw [H.hsq]; field_simp
  set x := (h ^ 2 / (A.P.GM * r) - 1) * (1 / e) with hx
  have hx1 : 1 + e * x = h ^ 2 / (A.P.GM * r) := by rw [hx]; field_simp; ring
  have hpos : 0 < h ^ 2 / (A.P.GM * r) := by positivity
  have hlt : h ^ 2 / (A.P.GM * r) < 1 + e := by
    rw [← hq, mul_one, div_lt_iff₀ hr0]; nlinarith
  have hxl : -1 < x := by by_contra hc; push Not at hc; nlinarith
  have hxu : x < 1 := by by_contra hc; push Not at hc; nlinarith
  have hcos : cos (arccos x) = x := cos_arccos hxl.le hxu.le
  have hrr : r = a * k ^ 2 / (1 + e * cos (arccos x)) := by
    rw [hcos, hx1, eq_div_iff hpos.ne', hhe, ← hgm]; field_simp
  refine ⟨a, n, k, arccos x, ⟨ha0, hn0, hk0, hks, hgm, ?_, hrpe, hhe, arccos_pos.mpr hxu, ?_, ?_, hrr, ?_⟩, rfl⟩
  · rw [H.ha, ha]; congr 1; ring
  · rcases lt_or_eq_of_le (arccos_le_pi x) with h | h
    · exact h
    · rw [arccos_eq_pi] at h; linarith
  · rw [hcos, hx1]; exact hpos
  · unfold Maneuver.thetaDv
    rw [H.hh, H.he]
    simp only [bind, Option.bind, pure]
    rw [npDiv_some (by positivity)]
    simp only []
    rw [npDiv_some (by positivity)]
    simp only []
    have e1 : (1.0:ℝ) / e = 1 / e := by norm_num
    rw [e1, ← hx, npArccos_some ⟨hxl.le, hxu.le⟩]
    simp

namespace LegCore
variable {A : Approach} {V e b h r a n k δ : ℝ} {d u w : V3}

theorem delta (L : LegCore A e h r a n k δ) : Maneuver.deltaProbe A r = some δ := by
  unfold Maneuver.deltaProbe
  rw [L.th]
  simp only [bind, Option.bind, pure, abs_neg, abs_of_pos L.d0]

theorem den' (L : LegCore A e h r a n k δ) : 0 < 1 + e * cos (-δ) := by rw [cos_neg]; exact L.den

theorem semi (L : LegCore A e h r a n k δ) : h ^ 2 / A.P.GM = a * k ^ 2 := by
  have := L.a0; have := L.n0
  rw [L.hh, ← L.gm]; field_simp

theorem rvec (L : LegCore A e h r a n k δ) (H : ApproachCore A V e b h d u w) (hn : w.x ≠ 0 ∨ w.y ≠ 0) :
    Maneuver.rVecDv A r = some (cPos (h ^ 2 / A.P.GM) e u (V3.cross w u) (-δ)) := by
  unfold Maneuver.rVecDv
  rw [L.th]
  exact H.pos hn L.den'

theorem rnorm (L : LegCore A e h r a n k δ) (H : ApproachCore A V e b h d u w) :
    V3.norm (cPos (h ^ 2 / A.P.GM) e u (V3.cross w u) (-δ)) = r := by
  rw [(Props.Core.laws H L.den').1, L.semi, cos_neg, ← L.hr]

theorem rpos (L : LegCore A e h r a n k δ) : 0 < r := by
  have := L.a0; have := L.k0; have := L.den
  rw [L.hr]; positivity

theorem timeUnit (L : LegCore A e h r a n k δ) : Maneuver.timeUnit A = some (1 / n) := by
  have ha := L.a0; have hn := L.n0
  have hg : 0 < A.P.GM := by rw [← L.gm]; positivity
  unfold Maneuver.timeUnit
  rw [L.ha]
  simp only [bind, Option.bind]
  rw [npDiv_some hg.ne', abs_neg, abs_of_pos ha]
  simp only []
  rw [npSqrt_some (by positivity)]
  congr 1
  rw [← sqrt_sq (by positivity : 0 ≤ 1 / n), ← L.gm]
  congr 1
  field_simp

/-- The hyperbolic anomaly of the manoeuvre point. -/
theorem anomaly (L : LegCore A e h r a n k δ) (H : ApproachCore A V e b h d u w) :
    ∃ x, Maneuver.hDv A r = some x ∧ 0 < x ∧ cosh x = (e + cos δ) / (1 + e * cos δ) ∧ sinh x = k * sin δ / (1 + e * cos δ) := by
  have he := H.e1; have hd := L.den; have d0 := L.d0; have dpi := L.dpi; have hk := L.k0
  have hch : 0 < cos (δ / 2) := cos_pos_of_mem_Ioo ⟨by linarith, by linarith⟩
  have hsh : 0 < sin (δ / 2) := sin_pos_of_pos_of_lt_pi (by linarith) (by linarith)
  have hq : 0 < (e - 1) / (e + 1) := div_pos (by linarith) (by linarith)
  have hs := sqrt_pos.mpr hq
  have hs2 := sq_sqrt hq.le
  set s := sqrt ((e - 1) / (e + 1)) with hsd
  set τ := s * (sin (δ / 2) / cos (δ / 2)) with hτ
  have hτ0 : 0 < τ := by positivity
  have sc := sin_sq_add_cos_sq (δ / 2)
  have cE : cos δ = 2 * cos (δ / 2) ^ 2 - 1 := by rw [← cos_two_mul]; ring_nf
  have sE : sin δ = 2 * sin (δ / 2) * cos (δ / 2) := by rw [← sin_two_mul]; ring_nf
  have hsk : s * (e + 1) = k := by
    apply (pow_left_inj₀ (by positivity) hk.le two_ne_zero).mp
    rw [mul_pow, hs2, L.k2]; field_simp; ring
  have hsin2 : sin (δ / 2) ^ 2 = 1 - cos (δ / 2) ^ 2 := by linarith
  have hτ2 : τ ^ 2 = (e - 1) / (e + 1) * ((1 - cos (δ / 2) ^ 2) / cos (δ / 2) ^ 2) := by
    rw [hτ, mul_pow, hs2, div_pow, hsin2]
  have hm : 1 - τ ^ 2 = (1 + e * cos δ) / ((e + 1) * cos (δ / 2) ^ 2) := by
    rw [hτ2, cE]; field_simp; ring
  have hp : 1 + τ ^ 2 = (e + cos δ) / ((e + 1) * cos (δ / 2) ^ 2) := by
    rw [hτ2, cE]; field_simp; ring
  have hmp : 0 < 1 - τ ^ 2 := by rw [hm]; positivity
  have hτ1 : τ < 1 := by nlinarith
  have hmem : τ ∈ Set.Ioo (-1 : ℝ) 1 := ⟨by linarith, hτ1⟩
  refine ⟨2 * artanh τ, ?_, ?_, ?_, ?_⟩
  · unfold Maneuver.hDv
    rw [H.he, L.delta]
    simp only [bind, Option.bind, pure]
    rw [npDiv_some (by linarith)]
    simp only []
    rw [npSqrt_some hq.le]
    simp only []
    have e1 : (0.5:ℝ) * δ = δ / 2 := by norm_num; ring
    rw [e1]
    unfold npTan
    rw [npDiv_some hch.ne']
    simp only []
    rw [← hsd, ← hτ]
    unfold npArctanh
    rw [if_pos ⟨by linarith, hτ1⟩]
  · have := artanh_pos (x := τ) ⟨hτ0, hτ1⟩
    linarith
  · have hne := hmp.ne'
    rw [cosh_two_mul, cosh_artanh hmem, sinh_artanh hmem, div_pow, div_pow, sq_sqrt hmp.le, ← add_div, one_pow, hp, hm]
    field_simp
  · have hne := hmp.ne'
    rw [sinh_two_mul, cosh_artanh hmem, sinh_artanh hmem]
    have e1 : 2 * (τ / sqrt (1 - τ ^ 2)) * (1 / sqrt (1 - τ ^ 2)) = 2 * τ / sqrt (1 - τ ^ 2) ^ 2 := by
      have := (sqrt_pos.mpr hmp).ne'
      field_simp
    rw [e1, sq_sqrt hmp.le, hm, hτ, ← hsk, sE]
    field_simp

theorem tof (L : LegCore A e h r a n k δ) (H : ApproachCore A V e b h d u w) {x : ℝ} (hx : Maneuver.hDv A r = some x) :
    Maneuver.tofProbe A r = some (1 / n * |e * sinh x - x| / 86400) := by
  unfold Maneuver.tofProbe
  rw [H.he, hx, L.timeUnit]
  simp only [bind, Option.bind]
  rw [npDiv_some (by norm_num)]

/-- The `f` and `g` coefficients of a probe leg. -/
theorem coefs (L : LegCore A e h r a n k δ) (H : ApproachCore A V e b h d u w) :
    Maneuver.fCoef A.rp (a * k ^ 2) δ = some ((e + cos δ) / (1 + e)) ∧
    Maneuver.gCoef A.P.GM r A.rp (a * k ^ 2) δ = some (1 / n * ((e - 1) * k * sin δ / (1 + e * cos δ))) := by
  have ha := L.a0; have hn := L.n0; have hk := L.k0; have he := H.e1; have hd := L.den
  have hk2 := L.k2
  constructor
  · unfold Maneuver.fCoef
    rw [npDiv_some (by positivity)]
    simp only [bind, Option.bind, pure, Option.some.injEq]
    rw [L.rp, L.k2]
    have h1 : e ^ 2 - 1 ≠ 0 := by nlinarith
    have h2 : (1:ℝ) + e ≠ 0 := by linarith
    rw [show a * (e - 1) / (a * (e ^ 2 - 1)) = 1 / (1 + e) by field_simp; ring]
    field_simp; ring
  · unfold Maneuver.gCoef
    have hg : A.P.GM * (a * k ^ 2) = (n * a ^ 2 * k) ^ 2 := by rw [← L.gm]; ring
    rw [hg, npSqrt_some (by positivity), sqrt_sq (by positivity)]
    simp only [bind, Option.bind, pure]
    rw [npDiv_some (by positivity)]
    simp only [Option.some.injEq]
    rw [L.rp, L.hr]
    field_simp

/-- The vector identity behind the probe leg. -/
theorem arc_vec (L : LegCore A e h r a n k δ) (H : ApproachCore A V e b h d u w) :
    A.rp • u = ((e + cos δ) / (1 + e)) • cPos (h ^ 2 / A.P.GM) e u (V3.cross w u) (-δ) +
      (1 / n * ((e - 1) * k * sin δ / (1 + e * cos δ))) • cVel (A.P.GM / h) e u (V3.cross w u) (-δ) := by
  have ha := L.a0; have hn := L.n0; have hk := L.k0; have he := H.e1; have hd := L.den
  have h2 : (1:ℝ) + e ≠ 0 := by linarith
  have hg : A.P.GM / h = n * a / k := by rw [L.hh, ← L.gm]; field_simp
  have sc := sin_sq_add_cos_sq δ
  rw [L.semi, hg, L.rp]
  unfold cPos cVel
  rw [cos_neg, sin_neg, neg_neg, L.k2]
  generalize V3.cross w u = q
  have key : ∀ x y : ℝ, a * (e - 1) * x = (e + cos δ) / (1 + e) * (a * (e ^ 2 - 1) / (1 + e * cos δ) * (cos δ * x + -sin δ * y)) +
      1 / n * ((e - 1) * k * sin δ / (1 + e * cos δ)) * (n * a / k * (sin δ * x + (e + cos δ) * y)) := by
    intro x y
    field_simp
    linear_combination (-(e - 1) * (1 + e) * x) * sc
  ext <;> simp only [V3.add_x, V3.add_y, V3.add_z, V3.smul_x, V3.smul_y, V3.smul_z]
  · exact key _ _
  · exact key _ _
  · exact key _ _

theorem g_pos (L : LegCore A e h r a n k δ) (H : ApproachCore A V e b h d u w) :
    0 < 1 / n * ((e - 1) * k * sin δ / (1 + e * cos δ)) := by
  have hn := L.n0; have hk := L.k0; have he := H.e1; have hd := L.den
  have hs : 0 < sin δ := sin_pos_of_pos_of_lt_pi L.d0 L.dpi
  have : 0 < e - 1 := by linarith
  positivity

theorem pProbe (L : LegCore A e h r a n k δ) (H : ApproachCore A V e b h d u w) : Maneuver.pProbe A = some (a * k ^ 2) := by
  unfold Maneuver.pProbe
  rw [L.ha, H.he]
  simp only [bind, Option.bind, pure, Option.some.injEq]
  rw [L.k2]; ring

theorem rpVec (H : ApproachCore A V e b h d u w) : A.rpVec = some (A.rp • u) := by
  unfold Approach.rpVec
  rw [H.hu]
  rfl

/-- The velocity computed at any position `X` with this probe's angle. -/
theorem vProbe_at (L : LegCore A e h r a n k δ) (H : ApproachCore A V e b h d u w) (X : V3) :
    Maneuver.vProbe A r X = some ((1 / (1 / n * ((e - 1) * k * sin δ / (1 + e * cos δ)))) •
      (A.rp • u - ((e + cos δ) / (1 + e)) • X)) := by
  unfold Maneuver.vProbe
  rw [L.pProbe H, L.delta]
  simp only [bind, Option.bind]
  rw [(L.coefs H).1, (L.coefs H).2, rpVec H]
  simp only []
  unfold Maneuver.vecDv
  rw [if_neg (L.g_pos H).ne']

/-- At the probe's own position it is the velocity of the arrival hyperbola. -/
theorem vProbe_own (L : LegCore A e h r a n k δ) (H : ApproachCore A V e b h d u w) :
    Maneuver.vProbe A r (cPos (h ^ 2 / A.P.GM) e u (V3.cross w u) (-δ)) =
      some (cVel (A.P.GM / h) e u (V3.cross w u) (-δ)) := by
  rw [L.vProbe_at H, L.arc_vec H]
  have hg := (L.g_pos H).ne'
  generalize 1 / n * ((e - 1) * k * sin δ / (1 + e * cos δ)) = g at *
  congr 1
  ext <;> simp only [V3.add_x, V3.add_y, V3.add_z, V3.sub_x, V3.sub_y, V3.sub_z, V3.smul_x, V3.smul_y, V3.smul_z] <;>
    field_simp <;> ring

/-- The two-body motion from a position and a velocity with the scalars of this leg. -/
theorem motion_at (L : LegCore A e h r a n k δ) (H : ApproachCore A V e b h d u w) {R U : V3} (hRR : V3.dot R R = r ^ 2)
    (hRU : V3.dot R U = r * (A.P.GM / h * e * sin (-δ))) (hUU : V3.dot U U = V ^ 2 + 2 * A.P.GM / r)
    (harc : A.rp • u = ((e + cos δ) / (1 + e)) • R + (1 / n * ((e - 1) * k * sin δ / (1 + e * cos δ))) • U) :
    ∃ T, Maneuver.tofProbe A r = some T ∧ 0 < T ∧ Spec.Transfer A.P.GM R U (A.rp • u) (T * 86400) := by
  obtain ⟨x, hx, hx0, hcx, hsx⟩ := L.anomaly H
  have ha := L.a0; have hn := L.n0; have hk := L.k0; have he := H.e1; have hd := L.den; have hg := H.gm
  have hk2 := L.k2
  have h2 : (1:ℝ) + e ≠ 0 := by linarith
  have cs := cosh_sq x
  have hr : r = a * (e * cosh x - 1) := by rw [L.hr, hcx, L.k2]; field_simp; ring
  have hr0 : 0 < e * cosh x - 1 := by have := one_le_cosh x; nlinarith
  have hV2 : V ^ 2 = n ^ 2 * a ^ 2 := by
    have := H.ha
    rw [L.ha] at this
    have h3 : -a = -A.P.GM / V ^ 2 := Option.some.inj this
    have hV := H.vpos
    rw [eq_div_iff (by positivity)] at h3
    have : a * V ^ 2 = n ^ 2 * a ^ 3 := by rw [L.gm]; linarith
    have h4 : a * (V ^ 2) = a * (n ^ 2 * a ^ 2) := by rw [this]; ring
    exact mul_left_cancel₀ ha.ne' h4
  have h1 : V3.dot R R = (a * (e * cosh x - 1)) ^ 2 := by rw [hRR, ← hr]
  have h3 : V3.dot R U = n * a ^ 2 * (-(e * sinh x)) := by
    rw [hRU, sin_neg, hsx, L.hr, L.hh, ← L.gm]; field_simp
  have h4 : V3.dot U U = n ^ 2 * a ^ 2 * (2 / (e * cosh x - 1) + 1) := by
    rw [hUU, hV2, hr, ← L.gm]; field_simp
    ring
  have hel : 1 < (1 + (e * cosh x - 1)) ^ 2 - (-(e * sinh x)) ^ 2 := by
    have : (1 + (e * cosh x - 1)) ^ 2 - (-(e * sinh x)) ^ 2 = e ^ 2 := by linear_combination e ^ 2 * cs
    rw [this]; nlinarith
  obtain ⟨Rt, Ut, m1, m2, m3, m4, fd, gd, m5, m6⟩ := hyper_arc (x := x) ha hn hr0 hel h1 h3 h4 L.gm
  have hKx : hK (e * cosh x - 1) (-(e * sinh x)) x = e * sinh x - x := by unfold hK; ring
  have hKpos : 0 < e * sinh x - x := by
    rw [← hKx, ← hK_zero (e * cosh x - 1) (-(e * sinh x))]
    exact hK_strictMono hr0 hel hx0
  have hF : 1 - (cosh x - 1) / (e * cosh x - 1) = (e + cos δ) / (1 + e) := by
    have hden : e * cosh x - 1 = (e ^ 2 - 1) / (1 + e * cos δ) := by rw [hcx]; field_simp; ring
    have hnz : e ^ 2 - 1 ≠ 0 := by nlinarith
    rw [hden, hcx]; field_simp; ring
  have hG : 1 / n * ((e * cosh x - 1) * sinh x + -(e * sinh x) * (cosh x - 1)) =
      1 / n * ((e - 1) * k * sin δ / (1 + e * cos δ)) := by
    have : (e * cosh x - 1) * sinh x + -(e * sinh x) * (cosh x - 1) = (e - 1) * sinh x := by ring
    rw [this, hsx]; ring
  rw [hKx, hF, hG] at m4
  rw [hKx] at m5
  rw [hF, hG] at m6
  have ht : 1 / n * |e * sinh x - x| / 86400 * 86400 = 1 / n * (e * sinh x - x) := by
    rw [abs_of_pos hKpos, div_mul_cancel₀ _ (by norm_num)]
  refine ⟨_, L.tof H hx, by rw [abs_of_pos hKpos]; positivity, Rt, Ut, m1, m2, m3, ?_, _, _, fd, gd, ?_, ?_, m6⟩
  · rw [ht, m4, ← harc]
  · rw [ht, m4]
  · rw [ht, m5]

/-- The two-body motion of the probe from the manoeuvre point to periapsis. -/
theorem motion (L : LegCore A e h r a n k δ) (H : ApproachCore A V e b h d u w) :
    ∃ T, Maneuver.tofProbe A r = some T ∧ 0 < T ∧ Spec.Transfer A.P.GM (cPos (h ^ 2 / A.P.GM) e u (V3.cross w u) (-δ))
      (cVel (A.P.GM / h) e u (V3.cross w u) (-δ)) (A.rp • u) (T * 86400) := by
  obtain ⟨l1, l2, l3, l4, l5, l6, l7⟩ := Props.Core.laws H L.den'
  have hrad : h ^ 2 / A.P.GM / (1 + e * cos (-δ)) = r := by rw [L.semi, cos_neg, ← L.hr]
  rw [hrad] at l1 l5 l6
  exact L.motion_at H (by rw [← V3.norm_sq, l1]) l6 l5 (L.arc_vec H)

/-- A velocity computed with this leg's angle at a position `R` at the manoeuvre radius. -/
theorem dots_at (L : LegCore A e h r a n k δ) (H : ApproachCore A V e b h d u w) {R U : V3} (hRR : V3.dot R R = r ^ 2)
    (hU : Maneuver.vProbe A r R = some U) :
    V3.dot U U = V ^ 2 + 2 * A.P.GM / r -
      2 * ((e + cos δ) / (1 + e)) * A.rp / (1 / n * ((e - 1) * k * sin δ / (1 + e * cos δ))) ^ 2 *
        (V3.dot R u - r * cos δ) ∧
    (V3.dot R u = r * cos δ → V3.dot R U = r * (A.P.GM / h * e * sin (-δ))) ∧
    A.rp • u = ((e + cos δ) / (1 + e)) • R + (1 / n * ((e - 1) * k * sin δ / (1 + e * cos δ))) • U := by
  obtain ⟨l1, l2, l3, l4, l5, l6, l7⟩ := Props.Core.laws H L.den'
  have hrad : h ^ 2 / A.P.GM / (1 + e * cos (-δ)) = r := by rw [L.semi, cos_neg, ← L.hr]
  rw [hrad] at l1 l5 l6 l7
  rw [cos_neg] at l7
  have hown := L.vProbe_own H
  rw [L.vProbe_at H] at hU hown
  have hg := (L.g_pos H).ne'
  have hU' := (Option.some.inj hU).symm
  have hown' := (Option.some.inj hown).symm
  have hR0 : V3.dot (cPos (h ^ 2 / A.P.GM) e u (V3.cross w u) (-δ)) (cPos (h ^ 2 / A.P.GM) e u (V3.cross w u) (-δ)) = r ^ 2 := by
    rw [← V3.norm_sq, l1]
  generalize cPos (h ^ 2 / A.P.GM) e u (V3.cross w u) (-δ) = R0 at *
  generalize cVel (A.P.GM / h) e u (V3.cross w u) (-δ) = U0 at *
  generalize 1 / n * ((e - 1) * k * sin δ / (1 + e * cos δ)) = g at *
  generalize (e + cos δ) / (1 + e) = f at *
  have d1 : ∀ X : V3, V3.dot X ((1 / g) • (A.rp • u - f • X)) = 1 / g * (A.rp * V3.dot X u - f * V3.dot X X) := by
    intro X
    simp only [V3.dot, V3.sub_x, V3.sub_y, V3.sub_z, V3.smul_x, V3.smul_y, V3.smul_z]; ring
  have d2 : ∀ X : V3, V3.dot ((1 / g) • (A.rp • u - f • X)) ((1 / g) • (A.rp • u - f • X)) =
      1 / g ^ 2 * (A.rp ^ 2 * V3.dot u u - 2 * f * A.rp * V3.dot X u + f ^ 2 * V3.dot X X) := by
    intro X
    simp only [V3.dot, V3.sub_x, V3.sub_y, V3.sub_z, V3.smul_x, V3.smul_y, V3.smul_z]; field_simp; ring
  refine ⟨?_, ?_, ?_⟩
  · rw [hU', d2, ← l5, hown', d2, hRR, hR0, l7]
    field_simp; ring
  · intro hc
    rw [hU', d1, ← l6, hown', d1, hRR, hR0, l7, hc]
  · rw [hU']
    ext <;> simp only [V3.add_x, V3.add_y, V3.add_z, V3.sub_x, V3.sub_y, V3.sub_z, V3.smul_x, V3.smul_y, V3.smul_z] <;>
      field_simp <;> ring

end LegCore

/-- The spacecraft leg: from a position `R1` at distance `r`, not in line with the target periapsis. -/
theorem space_leg {S : Approach} {V e b h : ℝ} {d u w : V3} (H : ApproachCore S V e b h d u w) {r : ℝ} {R1 : V3}
    (hr : 0 < r) (hR1 : V3.norm R1 = r) (hnc : V3.cross R1 (S.rp • u) ≠ 0) :
    ∃ δ P C s al be f g T, Maneuver.deltaSpace S ((1 / r) • R1) = some δ ∧ 0 < δ ∧ δ < π ∧
      V3.dot u R1 = r * cos δ ∧
      Maneuver.lambert S r δ = some (C, s, al, be) ∧
      Maneuver.pSpace (-S.P.GM / V ^ 2) S.rp r C s al be = some P ∧
      Maneuver.fCoef S.rp P δ = some f ∧ Maneuver.gCoef S.P.GM r S.rp P δ = some g ∧ g ≠ 0 ∧
      Maneuver.vSpace S r R1 ((1 / r) • R1) = some ((1 / g) • (S.rp • u - f • R1)) ∧
      V3.dot ((1 / g) • (S.rp • u - f • R1)) ((1 / g) • (S.rp • u - f • R1)) = V ^ 2 + 2 * S.P.GM / r ∧
      Maneuver.tofSpace S r ((1 / r) • R1) = some T ∧ 0 < T ∧
      Spec.Transfer S.P.GM R1 ((1 / g) • (S.rp • u - f • R1)) (S.rp • u) (T * 86400) ∧
        C = sqrt (S.rp ^ 2 + r ^ 2 - 2 * S.rp * r * cos δ) ∧ s = 1 / 2 * (S.rp + r + C) ∧
        al = 2 * arsinh (sqrt (s / (2 * (S.P.GM / V ^ 2)))) ∧ be = 2 * arsinh (sqrt ((s - C) / (2 * (S.P.GM / V ^ 2)))) ∧
        P = 4 * (S.P.GM / V ^ 2) * (s - S.rp) * (s - r) / C ^ 2 * sinh (1 / 2 * (al + be)) ^ 2 := by
  have hg := H.gm; have hV := H.vpos; have hrp := H.rp
  -- the angle
  set x := V3.dot u ((1 / r) • R1) with hx
  have hun : V3.dot ((1 / r) • R1) ((1 / r) • R1) = 1 := by
    rw [V3.dot_smul_left, V3.dot_smul_right, ← V3.norm_sq, hR1]; field_simp
  have hb := V3.dot_unit_le H.uu hun
  have hcr : V3.cross R1 (S.rp • u) = (-(r * S.rp)) • V3.cross u ((1 / r) • R1) := by
    ext <;> simp only [V3.cross, V3.smul_x, V3.smul_y, V3.smul_z] <;> field_simp <;> ring
  have hlag : V3.dot (V3.cross u ((1 / r) • R1)) (V3.cross u ((1 / r) • R1)) = 1 - x ^ 2 := by
    rw [V3.dot_cross_self, H.uu, hun, ← hx]; ring
  have hx2 : x ^ 2 < 1 := by
    by_contra hc
    push Not at hc
    have h0 : V3.dot (V3.cross u ((1 / r) • R1)) (V3.cross u ((1 / r) • R1)) = 0 :=
      le_antisymm (by rw [hlag]; linarith) (V3.dot_self_nonneg _)
    have h1 : V3.cross u ((1 / r) • R1) = 0 := by
      rw [← V3.norm_eq_zero]
      exact V3.norm_eq_of_sq (le_refl 0) (by rw [h0]; ring)
    apply hnc
    rw [hcr, h1]
    ext <;> simp
  have hxl : -1 < x := by nlinarith
  have hxu : x < 1 := by nlinarith
  have hcos : cos (arccos x) = x := cos_arccos hxl.le hxu.le
  have hd0 : 0 < arccos x := arccos_pos.mpr hxu
  have hdpi : arccos x < π := by
    rcases lt_or_eq_of_le (arccos_le_pi x) with h | h
    · exact h
    · rw [arccos_eq_pi] at h; linarith
  have hdel : Maneuver.deltaSpace S ((1 / r) • R1) = some (arccos x) := by
    unfold Maneuver.deltaSpace
    rw [H.hu]
    simp only [bind, Option.bind]
    rw [← hx, npArccos_some ⟨hxl.le, hxu.le⟩]
  have hux : V3.dot u R1 = r * x := by rw [hx, V3.dot_smul_right]; field_simp
  have hdot : V3.dot R1 (S.rp • u) = r * S.rp * cos (arccos x) := by
    rw [V3.dot_smul_right, V3.dot_comm, hux, hcos]; ring
  set δ := arccos x with hδ
  have ha0 : 0 < S.P.GM / V ^ 2 := by positivity
  have habs : |-S.P.GM / V ^ 2| = S.P.GM / V ^ 2 := by
    rw [neg_div, abs_neg, abs_of_pos ha0]
  set a := S.P.GM / V ^ 2 with ha
  -- the computed scalars
  set C := sqrt (S.rp ^ 2 + r ^ 2 - 2 * S.rp * r * cos δ) with hC
  set s := 1 / 2 * (S.rp + r + C) with hs
  set al := 2 * arsinh (sqrt (s / (2 * a))) with hal
  set be := 2 * arsinh (sqrt ((s - C) / (2 * a))) with hbe
  set P := 4 * a * (s - S.rp) * (s - r) / C ^ 2 * sinh (1 / 2 * (al + be)) ^ 2 with hP
  obtain ⟨-, -, -, -, -, -, hC0, hs0, hsC, -⟩ := lambert_facts ha0 hr hrp hd0 hdpi hC hs hal hbe
  have hRs : V3.norm (S.rp • u) = S.rp := by
    rw [V3.norm_smul, V3.norm_of_dot_one H.uu, mul_one, abs_of_pos hrp]
  obtain ⟨f, g, hf, hgg, hP0, hg0, hen, htp, Rt, Ut, m1, m2, m3, m4, m5⟩ :=
    lambert_motion hg ha0 hr hrp hd0 hdpi hC hs hal hbe hP hR1 hRs hdot
  have hlam : Maneuver.lambert S r δ = some (C, s, al, be) := by
    unfold Maneuver.lambert Maneuver.chord Maneuver.semiPerimeter Maneuver.lambertAngle
    rw [H.ha]
    simp only [bind, Option.bind, pure]
    have hq : 0 ≤ S.rp ^ 2 + r ^ 2 - 2 * S.rp * r * cos δ := by
      by_contra hc
      push Not at hc
      rw [sqrt_eq_zero_of_nonpos hc.le] at hC
      linarith
    rw [npSqrt_some hq]
    simp only []
    have e1 : (0.5:ℝ) * (S.rp + r + sqrt (S.rp ^ 2 + r ^ 2 - 2 * S.rp * r * cos δ)) = s := by rw [hs, hC]; norm_num
    rw [e1, habs, ← hC, npDiv_some (by positivity)]
    simp only []
    rw [npSqrt_some (by positivity)]
    simp only []
    rw [npDiv_some (by positivity)]
    simp only []
    rw [npSqrt_some (by positivity)]
  have hPs : Maneuver.pSpace (-S.P.GM / V ^ 2) S.rp r C s al be = some P := by
    unfold Maneuver.pSpace
    rw [npDiv_some (by positivity), habs]
    simp only [bind, Option.bind, pure, Option.some.injEq]
    have e1 : (0.5:ℝ) * (al + be) = 1 / 2 * (al + be) := by norm_num
    rw [e1]
  have hfs : Maneuver.fCoef S.rp P δ = some f := by
    unfold Maneuver.fCoef
    rw [npDiv_some hP0.ne', hf]
    rfl
  have hgs : Maneuver.gCoef S.P.GM r S.rp P δ = some g := by
    unfold Maneuver.gCoef
    rw [npSqrt_some (by positivity)]
    simp only [bind, Option.bind, pure]
    rw [npDiv_some (sqrt_pos.mpr (by positivity)).ne', hgg]
  have htu : Maneuver.timeUnit S = some (sqrt (a ^ 3 / S.P.GM)) := by
    unfold Maneuver.timeUnit
    rw [H.ha]
    simp only [bind, Option.bind]
    rw [npDiv_some hg.ne', habs]
    simp only []
    rw [npSqrt_some (by positivity)]
  have ht0 : 0 < sqrt (a ^ 3 / S.P.GM) := sqrt_pos.mpr (by positivity)
  refine ⟨δ, P, C, s, al, be, f, g, sqrt (a ^ 3 / S.P.GM) * ((sinh al - al) - (sinh be - be)) / 86400, hdel, hd0, hdpi,
    by rw [hux, hcos], hlam, hPs, hfs, hgs, hg0, ?_, ?_, ?_, by positivity,
    ⟨Rt, Ut, m1, m2, m3, ?_, f, g, ?_⟩, hC, hs, hal, hbe, hP⟩
  · unfold Maneuver.vSpace
    rw [hdel, H.ha]
    simp only [bind, Option.bind]
    rw [hlam]
    simp only []
    rw [hPs]
    simp only []
    rw [hfs, hgs, LegCore.rpVec H]
    simp only []
    unfold Maneuver.vecDv
    rw [if_neg hg0]
  · rw [hen, ha]; field_simp; ring
  · unfold Maneuver.tofSpace
    rw [hdel]
    simp only [bind, Option.bind]
    rw [hlam, htu]
    simp only []
    rw [npDiv_some (by norm_num)]
  · rw [div_mul_cancel₀ _ (by norm_num), m4]
  · obtain ⟨fd, gd, m5, m6⟩ := m5
    refine ⟨fd, gd, ?_, by rw [div_mul_cancel₀ _ (by norm_num), m5], m6⟩
    rw [div_mul_cancel₀ _ (by norm_num), m4]
    ext <;> simp only [V3.add_x, V3.add_y, V3.add_z, V3.sub_x, V3.sub_y, V3.sub_z, V3.smul_x, V3.smul_y, V3.smul_z] <;>
      field_simp <;> ring

/-- On its own hyperbola the spacecraft leg recovers the velocity of that hyperbola. -/
theorem LegCore.vSpace_own {A : Approach} {V e b h r a n k δ : ℝ} {d u w : V3} (L : LegCore A e h r a n k δ)
    (H : ApproachCore A V e b h d u w) :
    V3.cross (cPos (h ^ 2 / A.P.GM) e u (V3.cross w u) (-δ)) (A.rp • u) ≠ 0 ∧
    Maneuver.vSpace A r (cPos (h ^ 2 / A.P.GM) e u (V3.cross w u) (-δ))
      ((1 / r) • cPos (h ^ 2 / A.P.GM) e u (V3.cross w u) (-δ)) = some (cVel (A.P.GM / h) e u (V3.cross w u) (-δ)) := by
  have hrn := L.rnorm H
  have l7 := (Props.Core.laws H L.den').2.2.2.2.2.2
  have hrad : h ^ 2 / A.P.GM / (1 + e * cos (-δ)) = r := by rw [L.semi, cos_neg, ← L.hr]
  rw [hrad, cos_neg] at l7
  have hown := L.vProbe_own H
  rw [L.vProbe_at H] at hown
  have hr0 := L.rpos
  have hrp := H.rp
  have hsd : 0 < sin δ := sin_pos_of_pos_of_lt_pi L.d0 L.dpi
  set R1 := cPos (h ^ 2 / A.P.GM) e u (V3.cross w u) (-δ) with hR1
  have hnc : V3.cross R1 (A.rp • u) ≠ 0 := by
    intro h0
    have h1 := V3.dot_cross_self R1 (A.rp • u)
    rw [h0] at h1
    have h2 : V3.dot (0 : V3) 0 = 0 := by simp [V3.dot]
    rw [h2, ← V3.norm_sq R1, hrn, V3.dot_smul_right, V3.dot_smul_left, V3.dot_smul_right, H.uu, l7] at h1
    have h3 : (r * A.rp * sin δ) ^ 2 = 0 := by
      have sc := sin_sq_add_cos_sq δ
      linear_combination (r * A.rp) ^ 2 * sc - h1
    have : 0 < r * A.rp * sin δ := by positivity
    nlinarith
  refine ⟨hnc, ?_⟩
  obtain ⟨δ', P, C, s, al, be, f, g, T, q1, q2, q3, q4, q5, q6, q7, q8, q9, q10, q11, q12, q13, m,
    e1, e2, e3, e4, e5⟩ := space_leg H hr0 hrn hnc
  have hδ : δ' = δ := by
    apply injOn_cos ⟨q2.le, q3.le⟩ ⟨L.d0.le, L.dpi.le⟩
    rw [V3.dot_comm, l7] at q4
    exact (mul_left_cancel₀ hr0.ne' q4).symm
  subst hδ
  obtain ⟨x, -, hx0, hcx, hsx⟩ := L.anomaly H
  have ha := L.a0; have he := H.e1; have hden := L.den
  have haV : A.P.GM / V ^ 2 = a := by
    have h1 := H.ha
    rw [L.ha] at h1
    have : -a = -A.P.GM / V ^ 2 := Option.some.inj h1
    rw [neg_div] at this
    linarith
  rw [haV] at e3 e4 e5
  have hrx : r = a * (e * cosh x - 1) := by rw [L.hr, hcx, L.k2]; field_simp; ring
  have hex : 0 < e * cosh x - 1 := by have := one_le_cosh x; nlinarith
  have hcd : cos δ' = (e - cosh x) / (e * cosh x - 1) := by
    rw [hcx]
    have : e * ((e + cos δ') / (1 + e * cos δ')) - 1 = (e ^ 2 - 1) / (1 + e * cos δ') := by field_simp; ring
    have hnz : e ^ 2 - 1 ≠ 0 := by nlinarith
    have num : e - (e + cos δ') / (1 + e * cos δ') = cos δ' * (e ^ 2 - 1) / (1 + e * cos δ') := by field_simp; ring
    rw [this, num, div_div_div_cancel_right₀ hden.ne', mul_div_cancel_right₀ _ hnz]
  have hPP : P = a * k ^ 2 := by
    rw [L.k2]
    exact lambert_own ha he hx0 q2 q3 hrx L.rp hcd e1 e2 e3 e4 e5
  rw [hPP] at q7 q8
  rw [(L.coefs H).1] at q7
  rw [(L.coefs H).2] at q8
  rw [q10, ← Option.some.inj q7, ← Option.some.inj q8, hown]

end AMAT
