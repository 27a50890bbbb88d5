import Verif.Props.AfterExit
import Verif.Lemmas.ApseMotion

/-
Property C147: the velocity changes reported for the periapsis raise and the apoapsis raise take the vehicle from the orbit
reported at exit to the target orbit.
-/

noncomputable section

open Real

namespace AMAT.Spec

/-- Velocity after an impulse of `d` m/s along the velocity (against it if `d` is negative). -/
def impulse (d : ℝ) (U : V3) : V3 := U + (d / V3.norm U) • U

/-- `R`, `U` is a two-body motion that begins at position `R0` with velocity `U0`. -/
def StartsAt (GM : ℝ) (R0 U0 : V3) (R U : ℝ → V3) : Prop := TwoBodyMotion GM R U ∧ R 0 = R0 ∧ U 0 = U0

/-- The motion stays between the distances `x` and `y` (in either order) at all times. -/
def StaysBetween (x y : ℝ) (R : ℝ → V3) : Prop := ∀ t, min x y ≤ V3.norm (R t) ∧ V3.norm (R t) ≤ max x y

end AMAT.Spec

namespace AMAT.Props

open Real AMAT AMAT.Spec AMAT.Lits

/-- An impulse of the difference of the two apse speeds turns the one apse into the other. -/
theorem impulse_apse {GM r x y : ℝ} (hGM : 0 < GM) (hr : 0 < r) (hx : 0 < x) (hy : 0 < y) {R0 U0 : V3} (h : IsApse GM r x R0 U0)
    {d : ℝ} (hd : d = visViva GM r y r - visViva GM r x r) : IsApse GM r y R0 (impulse d U0) := by
  obtain ⟨h1, h2, h3⟩ := h
  have hv := visViva_apse_pos hGM hr hx
  have hw := visViva_apse_pos hGM hr hy
  have e : impulse d U0 = (visViva GM r y r / visViva GM r x r) • U0 := by
    unfold impulse
    rw [h3, hd]
    ext <;> simp only [V3.add_x, V3.add_y, V3.add_z, V3.smul_x, V3.smul_y, V3.smul_z] <;> field_simp <;> ring
  refine ⟨h1, ?_, ?_⟩
  · rw [e, V3.dot_smul_right, h2, mul_zero]
  · rw [e, V3.norm_smul, h3, abs_of_pos (by positivity)]; field_simp

/-- C147 for one manoeuvre: at an apse of an orbit with the apses `r` and `x`, the impulse of the difference of the apse
speeds puts the vehicle on the orbit with the apses `r` and `y`. -/
theorem trim_step {GM r x y : ℝ} (hGM : 0 < GM) (hr : 0 < r) (hx : 0 < x) (hy : 0 < y) {R0 U0 : V3} (h : IsApse GM r x R0 U0)
    {d : ℝ} (hd : d = visViva GM r y r - visViva GM r x r) :
    (∃ R U, StartsAt GM R0 (impulse d U0) R U) ∧ ∀ R U, StartsAt GM R0 (impulse d U0) R U → StaysBetween r y R ∧
      IsApse GM y r (R (halfPeriod GM r y)) (U (halfPeriod GM r y)) ∧
      R (2 * halfPeriod GM r y) = R0 ∧ U (2 * halfPeriod GM r y) = impulse d U0 ∧
      ∀ t, 0 < t → t < 2 * halfPeriod GM r y → R t ≠ R0 := by
  obtain ⟨h1, h2⟩ := apse_motion hGM hr hy (impulse_apse hGM hr hx hy h hd)
  exact ⟨h1, fun R U hRU => h2 R U hRU.1 hRU.2.1 hRU.2.2⟩

/-- The apoapsis reached after a bound exit is an apse of the reported orbit. -/
theorem exit_apse (name : String) (P : Planet) (hP : Planet.init name = .ok P) (s : Terminal) (hr : 0 < s.r)
    (hE : exitEnergy P s < 0) (hh : 0 < exitAngMom P s) (hc : 0 < s.v * sin s.g) (R U : ℝ → V3) (h : CoastsFrom P s R U) :
    ∃ A B tA, s.apoapsisAltitudeKm P = some A ∧ s.periapsisAltitudeKm P = some B ∧ 0 < P.RP + 1000 * B ∧
      0 < P.RP + 1000 * A ∧ 0 < tA ∧ StrictMonoOn (fun t => V3.norm (R t)) (Set.Icc 0 tA) ∧
      IsApse P.GM (P.RP + 1000 * A) (P.RP + 1000 * B) (R tA) (U tA) := by
  obtain ⟨_, _, hGM, _⟩ := C01_planet_consistent name P hP
  obtain ⟨A, B, k1, k2, hB, hEn, k3, k4⟩ := C146_bound_stays name P hP s hr hE hh R U h
  obtain ⟨t, t0, -, t1, t2, t3⟩ := k4 hc
  have hpos : ∀ x, 0 ≤ x → 0 < V3.norm (R x) := fun x hx => lt_of_lt_of_le hB (k3 x hx).1
  have hA : 0 < P.RP + 1000 * A := t1 ▸ hpos t t0.le
  refine ⟨A, B, t, k1, k2, hB, hA, t0, t3, t1, t2, ?_⟩
  have he := coast_energy h.1 (T := t) (fun x hx => hpos x hx.1) t ⟨t0.le, le_rfl⟩
  have hE0 : energy P.GM (R 0) (U 0) = exitEnergy P s := by rw [h.2.1, h.2.2]; rfl
  rw [hE0, hEn, ← C45_visViva_energy P.GM _ _ hGM hA hB.le, energy, t1] at he
  have hsq : V3.norm (U t) ^ 2 = visViva P.GM (P.RP + 1000 * A) (P.RP + 1000 * B) (P.RP + 1000 * A) ^ 2 := by linarith
  exact (sq_eq_sq₀ (V3.norm_nonneg _) (sqrt_nonneg _)).mp hsq

/-- C147: a bound, climbing vehicle coasts to the apoapsis `A` reported at exit.  An impulse there of the velocity change
reported for the periapsis raise puts it on an orbit between `A` and the target periapsis `p`, where it arrives after half a
period of that orbit; an impulse there of the velocity change reported for the apoapsis raise puts it on an orbit between `p`
and the target apoapsis `a`, where it arrives after half a period of that orbit, and it is back at `p` after a whole one. -/
theorem C147_target_orbit (name : String) (P : Planet) (hP : Planet.init name = .ok P) (s : Terminal) (hr : 0 < s.r)
    (hE : exitEnergy P s < 0) (hh : 0 < exitAngMom P s) (hc : 0 < s.v * sin s.g) (R U : ℝ → V3) (h : CoastsFrom P s R U)
    (p a : ℝ) (hp : 0 < P.RP + 1000 * p) (ha : 0 < P.RP + 1000 * a) :
    ∃ A B tA d1 d2, s.apoapsisAltitudeKm P = some A ∧ s.periapsisAltitudeKm P = some B ∧
      P.periapsisRaiseDV B A p = some d1 ∧ P.apoapsisRaiseDV p A a = some d2 ∧
      0 < tA ∧ StrictMonoOn (fun t => V3.norm (R t)) (Set.Icc 0 tA) ∧ V3.norm (R tA) = P.RP + 1000 * A ∧
      (∃ R1 U1, StartsAt P.GM (R tA) (impulse d1 (U tA)) R1 U1) ∧
      ∀ R1 U1, StartsAt P.GM (R tA) (impulse d1 (U tA)) R1 U1 →
        let T1 := halfPeriod P.GM (P.RP + 1000 * A) (P.RP + 1000 * p)
        StaysBetween (P.RP + 1000 * A) (P.RP + 1000 * p) R1 ∧ V3.norm (R1 T1) = P.RP + 1000 * p ∧
        (∃ R2 U2, StartsAt P.GM (R1 T1) (impulse d2 (U1 T1)) R2 U2) ∧
        ∀ R2 U2, StartsAt P.GM (R1 T1) (impulse d2 (U1 T1)) R2 U2 →
          let T2 := halfPeriod P.GM (P.RP + 1000 * p) (P.RP + 1000 * a)
          StaysBetween (P.RP + 1000 * p) (P.RP + 1000 * a) R2 ∧ V3.norm (R2 T2) = P.RP + 1000 * a ∧
          R2 (2 * T2) = R1 T1 ∧ ∀ t, 0 < t → t < 2 * T2 → R2 t ≠ R1 T1 := by
  obtain ⟨_, _, hGM, _⟩ := C01_planet_consistent name P hP
  obtain ⟨A, B, tA, k1, k2, hB, hA, t0, tm, hapse⟩ := exit_apse name P hP s hr hE hh hc R U h
  obtain ⟨d1, e1, v1, -⟩ := C45_periapsis_raise name P hP B A p hA hB.le hp.le
  obtain ⟨d2, e2, v2, -⟩ := C45_apoapsis_raise name P hP p A a hp hA.le ha.le
  rw [visViva_symm P.GM _ _ (P.RP + 1000 * a), visViva_symm P.GM _ _ (P.RP + 1000 * A)] at v2
  obtain ⟨x1, x2⟩ := trim_step hGM hA hB hp hapse v1
  refine ⟨A, B, tA, d1, d2, k1, k2, e1, e2, t0, tm, hapse.1, x1, fun R1 U1 h1 => ?_⟩
  obtain ⟨y1, y2, -⟩ := x2 R1 U1 h1
  obtain ⟨z1, z2⟩ := trim_step hGM hp hA ha y2 v2
  refine ⟨y1, y2.1, z1, fun R2 U2 h2 => ?_⟩
  obtain ⟨w1, w2, w3, -, w4⟩ := z2 R2 U2 h2
  exact ⟨w1, w2.1, w3, w4⟩

/-- A motion that starts at an apse and has no negative energy does not stay within any distance. -/
theorem unbound_apse {GM : ℝ} (hGM : 0 < GM) {R U : ℝ → V3} (h : TwoBodyMotion GM R U) (hE : 0 ≤ energy GM (R 0) (U 0))
    (hc : V3.dot (R 0) (U 0) = 0) {m M : ℝ} (hm : 0 < m) (hb : ∀ t, m ≤ V3.norm (R t) ∧ V3.norm (R t) ≤ M) : False := by
  have hpos : ∀ t, 0 < V3.norm (R t) := fun t => lt_of_lt_of_le hm (hb t).1
  have hM : 0 < M := lt_of_lt_of_le (hpos 0) (hb 0).2
  set k := GM / M with hk
  have hk0 : 0 < k := by positivity
  have hrate : ∀ t, 0 ≤ t → k ≤ 2 * energy GM (R t) (U t) + GM / V3.norm (R t) := by
    intro t ht
    rw [coast_energy h (T := t) (fun x _ => hpos x) t ⟨ht, le_rfl⟩]
    have : GM / M ≤ GM / V3.norm (R t) := div_le_div_of_nonneg_left hGM.le (hpos t) (hb t).2
    linarith
  have hf : ∀ t, 0 ≤ t → k * t ≤ V3.dot (R t) (U t) := by
    have hmono : MonotoneOn (fun t => V3.dot (R t) (U t) - k * t) (Set.Ici 0) := by
      have hd : ∀ t, HasDerivAt (fun t => V3.dot (R t) (U t) - k * t)
          (2 * energy GM (R t) (U t) + GM / V3.norm (R t) - k) t := fun t => by
        have := (climb_rate h (hpos t)).fun_sub ((hasDerivAt_id t).const_mul k)
        simpa using this
      refine monotoneOn_of_deriv_nonneg (convex_Ici 0)
        (fun t _ => (hd t).continuousAt.continuousWithinAt) (fun t _ => (hd t).differentiableAt.differentiableWithinAt) ?_
      intro t ht
      rw [interior_Ici] at ht
      rw [(hd t).deriv]
      linarith [hrate t (le_of_lt ht)]
    intro t ht
    have := hmono (Set.self_mem_Ici) (show t ∈ Set.Ici 0 from ht) ht
    simp only [hc] at this
    linarith
  have hg : ∀ t, 0 ≤ t → k * t ^ 2 ≤ V3.dot (R t) (R t) := by
    have hmono : MonotoneOn (fun t => V3.dot (R t) (R t) - k * t ^ 2) (Set.Ici 0) := by
      have hd : ∀ t, HasDerivAt (fun t => V3.dot (R t) (R t) - k * t ^ 2) (2 * V3.dot (R t) (U t) - 2 * k * t) t := fun t => by
        obtain ⟨⟨x1, x2, x3⟩, -⟩ := h t
        have := (((x1.fun_mul x1).fun_add (x2.fun_mul x2)).fun_add (x3.fun_mul x3)).fun_sub ((hasDerivAt_pow 2 t).const_mul k)
        refine this.congr_deriv ?_
        simp only [V3.dot]; push_cast; ring
      refine monotoneOn_of_deriv_nonneg (convex_Ici 0)
        (fun t _ => (hd t).continuousAt.continuousWithinAt) (fun t _ => (hd t).differentiableAt.differentiableWithinAt) ?_
      intro t ht
      rw [interior_Ici] at ht
      rw [(hd t).deriv]
      linarith [hf t (le_of_lt ht)]
    intro t ht
    have := hmono (Set.self_mem_Ici) (show t ∈ Set.Ici 0 from ht) ht
    have h0 := V3.dot_self_nonneg (R 0)
    simp only at this
    nlinarith
  have h1 := hg (M ^ 2 / k + 1) (by positivity)
  rw [← V3.norm_sq] at h1
  have h2 : V3.norm (R (M ^ 2 / k + 1)) ^ 2 ≤ M ^ 2 := pow_le_pow_left₀ (V3.norm_nonneg _) (hb _).2 2
  have h3 : k * (M ^ 2 / k + 1) ^ 2 = M ^ 4 / k + 2 * M ^ 2 + k := by field_simp; ring
  have h4 : 0 < M ^ 4 / k := by positivity
  nlinarith

/-- C147: no other impulse along the velocity would do: if a vehicle at an apse of the orbit with the apses `r` and `x` moves
between `r` and `y` and reaches `y` after an impulse that does not reverse it, the impulse is the difference of the apse
speeds, the amount the two functions report. -/
theorem C147_impulse_needed (GM : ℝ) (hGM : 0 < GM) (r x y : ℝ) (hr : 0 < r) (hx : 0 < x) (hy : 0 < y) (R0 U0 : V3)
    (h0 : V3.norm R0 = r) (h1 : V3.dot R0 U0 = 0) (h2 : V3.norm U0 = visViva GM r x r) (d : ℝ) (hd : -V3.norm U0 < d)
    (R U : ℝ → V3) (h : StartsAt GM R0 (impulse d U0) R U) (hb : StaysBetween r y R) (ht : ∃ t, V3.norm (R t) = y) :
    d = visViva GM r y r - visViva GM r x r := by
  have hv := visViva_apse_pos hGM hr hx
  set w := visViva GM r x r + d with hw
  have hw0 : 0 < w := by rw [hw]; linarith
  have e : impulse d U0 = (w / visViva GM r x r) • U0 := by
    unfold impulse
    rw [h2, hw]
    ext <;> simp only [V3.add_x, V3.add_y, V3.add_z, V3.smul_x, V3.smul_y, V3.smul_z] <;> field_simp
  have hn : V3.norm (impulse d U0) = w := by
    rw [e, V3.norm_smul, h2, abs_of_pos (by positivity)]; field_simp
  have hdot : V3.dot R0 (impulse d U0) = 0 := by rw [e, V3.dot_smul_right, h1, mul_zero]
  rcases le_or_gt (2 * GM / r) (w ^ 2) with hu | hu
  · exfalso
    refine unbound_apse hGM h.1 ?_ (by rw [h.2.1, h.2.2, hdot]) (lt_min hr hy) hb
    rw [h.2.1, h.2.2, energy, hn, h0]
    have : 2 * GM / r = 2 * (GM / r) := by ring
    linarith
  · -- the other apse of the orbit after the impulse
    have hden : 0 < 2 * GM / r - w ^ 2 := by linarith
    set z := 2 * GM / (2 * GM / r - w ^ 2) - r with hz
    have hz0 : 0 < z := by
      rw [hz, sub_pos, lt_div_iff₀ hden]
      have : r * (2 * GM / r - w ^ 2) = 2 * GM - r * w ^ 2 := by field_simp
      rw [this]
      have : 0 < r * w ^ 2 := by positivity
      linarith
    have hwz : w = visViva GM r z r := by
      unfold visViva
      symm
      rw [sqrt_eq_iff_mul_self_eq (visViva_radicand hGM hr hz0.le) hw0.le, show z + r = 2 * GM / (2 * GM / r - w ^ 2) by rw [hz]; ring]
      have := hden.ne'
      rw [div_div_eq_mul_div, mul_sub, mul_div_assoc', ← mul_div_assoc, mul_comm GM 2]
      have e3 : GM * (2 * (2 * GM / r - w ^ 2) / (2 * GM)) = 2 * GM / r - w ^ 2 := by
        generalize 2 * GM / r - w ^ 2 = q
        field_simp
      rw [← mul_div_assoc] at e3
      rw [e3]; ring
    obtain ⟨k1, k2, -⟩ := (apse_motion hGM hr hz0 (R0 := R0) (U0 := impulse d U0) ⟨h0, hdot, hn.trans hwz⟩).2 R U h.1 h.2.1 h.2.2
    obtain ⟨t, ht⟩ := ht
    have a1 := k1 t
    have a2 := hb (halfPeriod GM r z)
    rw [k2.1] at a2
    rw [ht] at a1
    have hyz : y = z := by
      rcases le_total r y with b | b <;> rcases le_total r z with c | c <;>
        simp only [b, c, min_eq_left, min_eq_right, max_eq_left, max_eq_right] at a1 a2 <;> linarith [a1.1, a1.2, a2.1, a2.2]
    rw [hyz, ← hwz, hw]; ring

/-- Case for `C147_impulse_needed`: a circular orbit of radius 2 around a centre with parameter 1, from which the other apse is
moved to 6. -/
example : ∃ (R0 U0 : V3) (d : ℝ) (R U : ℝ → V3), V3.norm R0 = 2 ∧ V3.dot R0 U0 = 0 ∧ V3.norm U0 = visViva 1 2 2 2 ∧
    0 < d ∧ StartsAt 1 R0 (impulse d U0) R U ∧ StaysBetween 2 6 R ∧ (∃ t, V3.norm (R t) = 6) ∧
    d = visViva 1 2 6 2 - visViva 1 2 2 2 := by
  have hv := visViva_apse_pos (GM := 1) (r := 2) (x := 2) one_pos two_pos two_pos
  have hR : V3.norm ⟨2, 0, 0⟩ = 2 := V3.norm_eq_of_sq (by norm_num) (by simp only [V3.dot]; norm_num)
  have hU : V3.norm ⟨0, visViva 1 2 2 2, 0⟩ = visViva 1 2 2 2 := V3.norm_eq_of_sq hv.le (by simp only [V3.dot]; ring)
  have hap : IsApse 1 2 2 ⟨2, 0, 0⟩ ⟨0, visViva 1 2 2 2, 0⟩ := ⟨hR, by simp [V3.dot], hU⟩
  obtain ⟨⟨R, U, h⟩, k⟩ := trim_step one_pos two_pos two_pos (show (0:ℝ) < 6 by norm_num) hap
    (d := visViva 1 2 6 2 - visViva 1 2 2 2) rfl
  obtain ⟨k1, k2, -⟩ := k R U h
  have hd : 0 < visViva 1 2 6 2 - visViva 1 2 2 2 := by
    rw [sub_pos]
    unfold visViva
    exact sqrt_lt_sqrt (by norm_num) (by norm_num)
  exact ⟨_, _, _, R, U, hR, hap.2.1, hU, hd, h, k1, ⟨_, k2.1⟩,
    C147_impulse_needed 1 one_pos 2 2 6 two_pos two_pos (by norm_num) _ _ hR hap.2.1 hU _ (by rw [hU]; linarith) R U h k1 ⟨_, k2.1⟩⟩

/-- Case for `C147_target_orbit`: the vehicle of `bound_exit` at Mars, with the target orbit 400 km by 2000 km. -/
example : ∃ (P : Planet) (s : Terminal) (R U : ℝ → V3) (A B tA d1 d2 : ℝ), Planet.init "MARS" = .ok P ∧
    s.r - P.RP = 100000 ∧ CoastsFrom P s R U ∧ s.apoapsisAltitudeKm P = some A ∧ s.periapsisAltitudeKm P = some B ∧
    P.periapsisRaiseDV B A 400 = some d1 ∧ P.apoapsisRaiseDV 400 A 2000 = some d2 ∧
    ∃ R1 U1 R2 U2 : ℝ → V3, StartsAt P.GM (R tA) (impulse d1 (U tA)) R1 U1 ∧
      ∃ T1 T2, StartsAt P.GM (R1 T1) (impulse d2 (U1 T1)) R2 U2 ∧ V3.norm (R1 T1) = P.RP + 400000 ∧
        StaysBetween (P.RP + 400000) (P.RP + 2000000) R2 ∧ V3.norm (R2 T2) = P.RP + 2000000 := by
  obtain ⟨P, s, R, U, hP, hs, hr, hco, hE, hh, hc⟩ := bound_exit
  obtain ⟨_, hRP, _⟩ := C01_planet_consistent "MARS" P hP
  obtain ⟨A, B, tA, d1, d2, k1, k2, e1, e2, -, -, -, ⟨R1, U1, h1⟩, k⟩ :=
    C147_target_orbit "MARS" P hP s hr hE hh hc R U hco 400 2000 (by linarith) (by linarith)
  obtain ⟨-, m1, ⟨R2, U2, h2⟩, m2⟩ := k R1 U1 h1
  obtain ⟨n1, n2, -⟩ := m2 R2 U2 h2
  have c1 : (1000:ℝ) * 400 = 400000 := by norm_num
  have c2 : (1000:ℝ) * 2000 = 2000000 := by norm_num
  simp only [c1, c2] at m1 n1 n2 h2
  exact ⟨P, s, R, U, A, B, tA, d1, d2, hP, hs, hco, k1, k2, e1, e2, R1, U1, R2, U2, h1, _, _, h2, m1, n1, n2⟩

end AMAT.Props
