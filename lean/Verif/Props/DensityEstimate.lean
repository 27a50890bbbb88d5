import Verif.Props.GuidedTermination
import Verif.Props.Tables

/-
Property C60: on-board density estimate.
-/

noncomputable section

open Classical

namespace AMAT.Props

open Real

/-- The last entries of the drag, altitude and speed histories of a segment belong to the same point. -/
theorem segment_drag_last {V : Vehicle} {mode : ScipyMode} {S : List (ℝ × FState)} {delta hi : ℝ} {out : PropOut}
    (h : V.postProcess mode (TrajArrays.ofSamples S) delta hi = .ok out) {ad : ℝ} (had : out.accDragG.getLast? = some ad) :
    ∃ r v, ad = V.accDrag delta r v ∧ (Hist.ofOut out).h.getLast? = some ((r - V.planet.RP) * 1E-3) ∧
      (Hist.ofOut out).v.getLast? = some (v * 1E-3) := by
  obtain ⟨idx, flag, qc, qr, heat, hc, hq, hq2, hh, rfl⟩ := postProcess_inv h
  simp only [Hist.ofOut] at *
  have e : List.zipWith (V.accDrag delta) ((V.planet.dimensionalizeArr (TrajArrays.ofSamples S)).r.take idx)
      ((V.planet.dimensionalizeArr (TrajArrays.ofSamples S)).v.take idx) =
      (S.take idx).map (fun p => V.accDrag delta (p.2.r * V.planet.RP) (p.2.v * V.planet.Vref)) := by
    simp only [Planet.dimensionalizeArr, TrajArrays.ofSamples, List.map_map, Function.comp_def, ← List.map_take,
      List.zipWith_map, List.zipWith_self]
  rw [e, List.getLast?_map] at had
  obtain ⟨p, hp, rfl⟩ := Option.map_eq_some_iff.mp had
  refine ⟨_, _, rfl, ?_, ?_⟩
  · simp [TrajArrays.truncate, Planet.toPlotUnits, Planet.dimensionalizeArr, TrajArrays.ofSamples, ← List.map_take, hp]
  · simp [TrajArrays.truncate, Planet.toPlotUnits, Planet.dimensionalizeArr, TrajArrays.ofSamples, ← List.map_take, hp]

/-- Drag acceleration of a vehicle with constant drag coefficient. -/
theorem accDrag_eq (V : Vehicle) (hm : 0 < V.mass) (hCD : 0 < V.CD) (hA : 0 < V.A) (hu : V.userDefinedCDMach = false)
    (delta r v : ℝ) (hrho : 0 ≤ V.atm.densityInt (r - V.planet.RP)) :
    V.accDrag delta r v = V.atm.densityInt (r - V.planet.RP) * v ^ 2 * V.A * V.CD / (2 * V.mass) / V.planet.EARTHG := by
  unfold Vehicle.accDrag Vehicle.a_svec Vehicle.Dvec Planet.rhoVec
  simp only [Lits.l00, Lits.l05, hu, Bool.false_eq_true, if_false, zero_mul, add_zero, zero_sub]
  rw [sqrt_sq_eq_abs, abs_neg, abs_of_nonneg (by positivity)]
  congr 1
  field_simp

/-- C60: in every guidance cycle of all four entry phases, the appended density value `ρm` satisfies the drag law with
the mean speed of the cycle, `ρm·v_mean² = ρ(h_end)·v_end²`, where `h_end`, `v_end` are altitude and speed at the end of
the cycle; it is non-negative; if the speed was constant it is the true density at the end of the cycle.  (For a vehicle
with constant drag coefficient and positive mass, area, drag coefficient, in an atmosphere without negative densities.)
The altitude recorded with it is the altitude at the *start* of the cycle. -/
theorem C60_density_estimate (name : String) (G : GuideParams) (mode : ScipyMode) (I I' : Integrator) (F : EntryPhase)
    (hF : F ∈ [Vehicle.glide1 G mode I, Vehicle.glide2 G mode I I', Vehicle.drag1 G mode I, Vehicle.drag2 G mode I'])
    (ts dt maxTime : ℝ) (s s' : EntryState) (b : Bool) (hP : Planet.init name = .ok s.V.planet)
    (hm : 0 < s.V.mass) (hCD : 0 < s.V.CD) (hA : 0 < s.V.A) (hu : s.V.userDefinedCDMach = false)
    (hrho : ∀ h, 0 ≤ s.V.atm.densityInt h)
    (hc : entryCycle G F mode ts dt maxTime s = .ok (s', b)) :
    ∃ h0 v0 h1 v1, s.hist.h.getLast? = some h0 ∧ s.hist.v.getLast? = some v0 ∧ s'.hist.h.getLast? = some h1 ∧
      s'.hist.v.getLast? = some v1 ∧ s'.hStep = s.hStep ++ [h0] ∧
      (v0 + v1 ≠ 0 → ∃ ρm, s'.densityMes = s.densityMes ++ [some ρm] ∧ 0 ≤ ρm ∧
        ρm * ((v0 + v1) / 2) ^ 2 = s.V.atm.densityInt (h1 * 1000) * v1 ^ 2 ∧
        (v0 = v1 → ρm = s.V.atm.densityInt (h1 * 1000))) := by
  have hprop : ∀ W t δ out, F.prop W t dt δ = .ok out → ∃ S d hi, W.postProcess mode (TrajArrays.ofSamples S) d hi = .ok out := by
    intro W t δ out h
    simp only [List.mem_cons, List.not_mem_nil, or_false] at hF
    rcases hF with rfl | rfl | rfl | rfl <;> exact ⟨_, _, _, h⟩
  obtain ⟨J, x, delta, qref, out, tEnd, J', y, hd, tOld, an, ad, fn, apo, -, hx, -, hp, -, -, -, -, had, -, hy, -, -, rfl, -⟩ :=
    entryCycle_inv hc
  obtain ⟨S, d, hi, hpp⟩ := hprop _ _ _ _ hp
  obtain ⟨r, v, rfl, hh, hv⟩ := segment_drag_last hpp had
  have hE : (0:ℝ) < s.V.planet.EARTHG := by
    unfold Planet.init at hP
    split_ifs at hP <;> (injection hP with hP; rw [← hP]; norm_num [Planet.withScales])
  have l6 : (1e-3:ℝ) = 1 / 1000 := by norm_num
  have l4 : (1.000e3:ℝ) = 1000 := by norm_num
  have l5 : (1e3:ℝ) = 1000 := by norm_num
  obtain ⟨x1, _, _, x4, _⟩ := last_ok.mp hx
  obtain ⟨y1, _, _, y4, _⟩ := last_ok.mp hy
  have yh : y.h0Km = (r - s.V.planet.RP) * (1 / 1000) := by
    simp only [Hist.extend, List.getLast?_append, hh, Option.some_or, Option.some.injEq] at y1
    rw [← y1, l6]; rfl
  have yv : y.v0Kms = v * (1 / 1000) := by
    simp only [Hist.extend, List.getLast?_append, hv, Option.some_or, Option.some.injEq] at y4
    rw [← y4, l6]
  refine ⟨x.h0Km, x.v0Kms, y.h0Km, y.v0Kms, x1, x4, y1, y4, rfl, ?_⟩
  intro hne
  have eh : y.h0Km * 1000 = r - s.V.planet.RP := by rw [yh]; ring
  have ev : y.v0Kms * 1000 = v := by rw [yv]; ring
  have hacc := accDrag_eq (s.V.setInitialState x) hm hCD hA hu d r v (hrho _)
  have hacc' : (s.V.setInitialState x).accDrag d r v =
    s.V.atm.densityInt (y.h0Km * 1000) * (y.v0Kms * 1000) ^ 2 * s.V.A * s.V.CD / (2 * s.V.mass) / s.V.planet.EARTHG := by
    rw [eh, ev]; exact hacc
  have hden : s.V.CD * s.V.A * (0.5 * (x.v0Kms * 1.000E3 + y.v0Kms * 1E3)) ^ 2 ≠ 0 := by
    rw [l4, l5, Lits.l05]
    have : (1 / 2 * (x.v0Kms * 1000 + y.v0Kms * 1000) : ℝ) ≠ 0 := by
      intro h0; apply hne; linarith
    positivity
  have hval : npDiv (2 * s.V.mass * (s.V.setInitialState x).accDrag d r v * s.V.planet.EARTHG)
      (s.V.CD * s.V.A * (0.5 * (x.v0Kms * 1.000E3 + y.v0Kms * 1E3)) ^ 2) =
      some (s.V.atm.densityInt (y.h0Km * 1000) * y.v0Kms ^ 2 / ((x.v0Kms + y.v0Kms) / 2) ^ 2) := by
    unfold npDiv
    rw [if_neg hden, hacc', l4, l5, Lits.l05]
    congr 1
    field_simp
  refine ⟨s.V.atm.densityInt (y.h0Km * 1000) * y.v0Kms ^ 2 / ((x.v0Kms + y.v0Kms) / 2) ^ 2, ?_, ?_, ?_, ?_⟩
  · simp only [hval]
  · exact div_nonneg (mul_nonneg (hrho _) (sq_nonneg _)) (sq_nonneg _)
  · field_simp
  · intro he
    rw [he] at hne ⊢
    have : y.v0Kms ≠ 0 := by intro h0; apply hne; rw [h0]; norm_num
    field_simp; ring

/-- Example for `C60_density_estimate`: a cycle in which the speed falls from 2 to 1 km/s in an atmosphere of density 1;
the estimate is 4/9. -/
example : ∃ (G : GuideParams) (I : Integrator) (s s' : EntryState),
    entryCycle G (Vehicle.glide1 G .strict I) .strict 1 0.1 600 s = .ok (s', false) ∧
    s'.densityMes = s.densityMes ++ [some (4 / 9)] := by
  obtain ⟨V, G, I, s, s', hP, hI, ⟨q1, q2, q3, q4, q5, rfl, q7⟩, -, hc, hv, -⟩ := C41_loop_continues_below_switch_speed
  obtain ⟨h0, v0, h1, v1, -, e2, -, e4, -, key⟩ := C60_density_estimate "MARS" G .strict I I _ (by simp) 1 0.1 600 s s' false hP
    q1 q2 q3 q4 (fun h => by rw [q5]; norm_num) hc
  rw [q7] at e2
  rw [hv] at e4
  simp only [Option.some.injEq] at e2 e4
  subst e2 e4
  obtain ⟨ρm, k1, -, k3, -⟩ := key (by norm_num)
  rw [q5] at k3
  refine ⟨G, I, s, s', hc, ?_⟩
  rw [k1, show ρm = 4 / 9 by linarith]

/-- C60 (finding): while the vehicle decelerates, the estimate is strictly below the density at the end of the cycle;
and the pair stored for the measured-density function — altitude `h0` at the start, value `ρm` — is a point of the true
profile only if `ρ(h0)·v_mean² = ρ(h_end)·v_end²`. -/
theorem C60_estimate_biased (ρ : ℝ → ℝ) (h0 h1 v0 v1 ρm : ℝ) (hv : 0 < v1 ∧ v1 < v0) (hpos : 0 < ρ (h1 * 1000))
    (hlaw : ρm * ((v0 + v1) / 2) ^ 2 = ρ (h1 * 1000) * v1 ^ 2) :
    ρm < ρ (h1 * 1000) ∧ (ρm = ρ (h0 * 1000) ↔ ρ (h0 * 1000) * ((v0 + v1) / 2) ^ 2 = ρ (h1 * 1000) * v1 ^ 2) := by
  have hm : v1 < (v0 + v1) / 2 := by linarith [hv.2]
  have h2 : v1 ^ 2 < ((v0 + v1) / 2) ^ 2 := by nlinarith [hv.1]
  have hp2 : 0 < ((v0 + v1) / 2) ^ 2 := lt_of_le_of_lt (sq_nonneg _) h2
  constructor
  · have : ρm * ((v0 + v1) / 2) ^ 2 < ρ (h1 * 1000) * ((v0 + v1) / 2) ^ 2 := by rw [hlaw]; gcongr
    exact lt_of_mul_lt_mul_right this hp2.le
  · constructor
    · intro h; rw [← h]; exact hlaw
    · intro h; rw [← h] at hlaw; exact mul_right_cancel₀ hp2.ne' hlaw

/-- Case for `C60_estimate_biased`: speeds 2 and 1 in a density of 1. -/
example : (4 / 9 : ℝ) < 1 ∧ ((4 / 9 : ℝ) = 1 ↔ (1:ℝ) * ((2 + 1) / 2) ^ 2 = 1 * 1 ^ 2) :=
  C60_estimate_biased (fun _ => 1) 120 100 2 1 (4 / 9) (by norm_num) one_pos (by norm_num)

/-! ### The measured-density function -/

theorem linspace_desc {a b : ℝ} (hab : b < a) (n : ℕ) :
    (linspace a b n).Pairwise (· ≠ ·) ∧ ∀ x ∈ linspace a b n, x ≤ a := by
  unfold linspace
  rcases Nat.lt_or_ge n 2 with hn | hn
  · have : n = 0 ∨ n = 1 := by omega
    rcases this with rfl | rfl <;> simp
  · have h1 : (0:ℝ) < (n:ℝ) - 1 := by
      have : (2:ℝ) ≤ n := by exact_mod_cast hn
      linarith
    have hs : (b - a) / ((n:ℝ) - 1) < 0 := div_neg_of_neg_of_pos (by linarith) h1
    constructor
    · rw [List.pairwise_map]
      refine List.Pairwise.imp ?_ List.pairwise_lt_range
      intro i j hij
      have : (i:ℝ) < j := by exact_mod_cast hij
      intro h
      nlinarith
    · intro x hx
      obtain ⟨i, _, rfl⟩ := List.mem_map.mp hx
      have : (0:ℝ) ≤ i := by positivity
      nlinarith

/-- C60: whenever the measured-density function is built (from the stored altitudes `hs` and estimates `ds`, both with
their dummy first entry), the altitudes are distinct and the extrapolation goes downwards, it reproduces every stored
estimate at its altitude; if no estimate is negative, no value anywhere is negative.  At the points below the lowest
estimate it continues exponentially, with the scale height `H` that the planet model returns at the lowest altitude (see
C80 for whose scale height that is).

Partial: missing are estimates at a repeated altitude, which no function can all reproduce, and limits `lowAltKm` less
than one kilometre below the lowest estimate. -/
theorem C60_measured_function_partial (P : Planet) (atm : Atmosphere) (mode : ScipyMode) (h00 d00 : ℝ) (hs ds : List ℝ)
    (lowAltKm : ℝ) (n : ℕ) (f : ℝ → ℝ) (minAlt : ℝ)
    (hok : createDensityMeasuredFunction P atm mode (h00 :: hs) (d00 :: ds) lowAltKm n = .ok (f, minAlt))
    (hdist : hs.Pairwise (· ≠ ·)) (hlow : ∀ h ∈ hs, lowAltKm < h - 1) :
    (∀ i (hi : i < hs.length) (hi' : i < ds.length), f (hs[i] * 1000) = ds[i]) ∧
    (∃ h ∈ hs, minAlt = h * 1000) ∧ (∀ h ∈ hs, minAlt ≤ h * 1000) ∧
    ((∀ d ∈ ds, 0 ≤ d) → hs.length = ds.length → ∀ x, 0 ≤ f x) ∧
    (hs.length = ds.length → ∃ (H : ℝ) (d : ℝ → ℝ), P.scaleHeight atm mode minAlt d = .ok (some H) ∧
      ∀ x ∈ linspace (minAlt - 1000) (lowAltKm * 1000) n, f x = f minAlt * exp ((minAlt - x) / H)) := by
  have l3 : (1e3:ℝ) = 1000 := by norm_num
  have l4 : (1000.0:ℝ) = 1000 := by norm_num
  unfold createDensityMeasuredFunction at hok
  simp only [List.drop_succ_cons, List.drop_zero, except_bind_ok, liftPy_ok, finite_ok] at hok
  obtain ⟨hMin, e1, dMax, e2, dMin, e3, upper, e4, Ho, e5, H, rfl, hok⟩ := hok
  by_cases hH : H = 0
  · rw [if_pos hH] at hok
    simp [bind, Except.bind] at hok
  rw [if_neg hH] at hok
  simp only [pure, Except.pure, bind, Except.bind] at hok
  change (liftPy (pyMax _) >>= fun aMax => liftPy (pyMin _) >>= fun aMin => liftPy (interp1d _ aMax aMin) >>= fun f => Except.ok (f, hMin * 1E3)) = _ at hok
  simp only [except_bind_ok, liftPy_ok] at hok
  obtain ⟨aMax, e6, aMin, e7, f', e8, hf⟩ := hok
  simp only [Except.ok.injEq, Prod.mk.injEq] at hf
  obtain ⟨rfl, rfl⟩ := hf
  have hsne : hs ≠ [] := by rintro rfl; simp [pyMin] at e1
  obtain ⟨m, hm, hmem, hlb⟩ := pyMin_spec hsne
  rw [e1] at hm
  obtain rfl : hMin = m := by simpa using hm
  simp only [l3, l4] at e8 ⊢
  set hLow := linspace (hMin * 1000 - 1000) (lowAltKm * 1000) n with hhLow
  have hdesc : lowAltKm * 1000 < hMin * 1000 - 1000 := by have := hlow hMin hmem; linarith
  obtain ⟨hp, hle⟩ := linspace_desc hdesc n
  set dLow := hLow.map (fun x => upper (hMin * 1000) * exp ((hMin * 1000 - x) / H)) with hdLow
  -- all abscissae are distinct
  have habs : (hs.map (· * 1000) ++ hLow).Pairwise (· ≠ ·) := by
    rw [List.pairwise_append]
    refine ⟨?_, hp, ?_⟩
    · rw [List.pairwise_map]
      exact hdist.imp (fun h h' => h (by linarith))
    · intro a ha b hb
      obtain ⟨c, hc, rfl⟩ := List.mem_map.mp ha
      have := hle b hb
      have := hlb c hc
      intro h; linarith
  have hzip : ∀ (l : List ℝ) (k : List ℝ), l.Pairwise (· ≠ ·) → (List.zip l k).Pairwise (fun p q => p.1 ≠ q.1) := by
    intro l k hl
    induction l generalizing k with
    | nil => simp
    | cons a l ih =>
      cases k with
      | nil => simp
      | cons c k =>
        rw [List.pairwise_cons] at hl
        rw [List.zip_cons_cons, List.pairwise_cons]
        exact ⟨fun p hp => hl.1 _ (List.of_mem_zip hp).1, ih k hl.2⟩
  have hpair := hzip (hs.map (· * 1000) ++ hLow) (ds ++ dLow) habs
  have hnode : ∀ i (hi : i < hs.length) (hi' : i < ds.length), f' (hs[i] * 1000) = ds[i] := by
    intro i hi hi'
    have hin : (hs[i] * 1000, ds[i]) ∈ List.zip (hs.map (· * 1000) ++ hLow) (ds ++ dLow) := by
      rw [List.mem_iff_getElem]
      refine ⟨i, by simp; omega, ?_⟩
      simp [hi, hi']
    exact C05_table_nodes _ _ _ _ e8 hpair _ hin
  refine ⟨hnode, ⟨hMin, hmem, rfl⟩, ?_, ?_, ?_⟩
  · intro h hh
    have := hlb h hh
    linarith
  · intro hd hlen x
    -- the extrapolated values are non-negative
    have hup : 0 ≤ upper (hMin * 1000) := by
      obtain ⟨i, hi, hie⟩ := List.mem_iff_getElem.mp hmem
      have hi' : i < ds.length := by omega
      have hin : (hMin * 1000, ds[i]) ∈ List.zip (hs.map (· * 1000)) ds := by
        rw [List.mem_iff_getElem]
        refine ⟨i, by simp; omega, ?_⟩
        simp [hie]
      simp only [l4] at e4
      rw [C05_table_nodes _ _ _ _ e4 (hzip _ _ (by rw [List.pairwise_map]; exact hdist.imp (fun h h' => h (by linarith)))) _ hin]
      exact hd _ (List.getElem_mem hi')
    have hall : ∀ d ∈ ds ++ dLow, 0 ≤ d := by
      intro d hdm
      rcases List.mem_append.mp hdm with h | h
      · exact hd d h
      · obtain ⟨z, _, rfl⟩ := List.mem_map.mp h
        positivity
    have hane : ds ++ dLow ≠ [] := by
      intro h
      have hh := congrArg List.length h
      simp only [List.length_append, List.length_nil] at hh
      have := List.length_pos_iff.mpr hsne
      omega
    have hMax0 : 0 ≤ aMax := by
      obtain ⟨M, hM, hMm, _⟩ := pyMax_spec hane
      simp only [l3, l4] at e6
      rw [e6] at hM
      obtain rfl : aMax = M := by simpa using hM
      exact hall _ hMm
    have hMin0 : 0 ≤ aMin := by
      obtain ⟨M, hM, hMm, _⟩ := pyMin_spec hane
      simp only [l3, l4] at e7
      rw [e7] at hM
      obtain rfl : aMin = M := by simpa using hM
      exact hall _ hMm
    have hvals : ∀ p ∈ List.zip (hs.map (· * 1000) ++ hLow) (ds ++ dLow), 0 ≤ p.2 := by
      intro p hp
      exact hall _ (List.of_mem_zip hp).2
    have hzne : ∃ p, p ∈ List.zip (hs.map (· * 1000) ++ hLow) (ds ++ dLow) := by
      obtain ⟨hlen2, _⟩ := (interp1d_ok_iff _ _ _ _).mp e8
      exact List.exists_mem_of_length_pos (by omega)
    obtain ⟨o1, o2⟩ := C05_table_outside _ _ _ _ e8 x
    by_cases c1 : ∀ p ∈ List.zip (hs.map (· * 1000) ++ hLow) (ds ++ dLow), x < p.1
    · rw [o1 c1]; exact hMax0
    by_cases c2 : ∀ p ∈ List.zip (hs.map (· * 1000) ++ hLow) (ds ++ dLow), p.1 < x
    · rw [o2 c2]; exact hMin0
    push Not at c1 c2
    obtain ⟨M, hM⟩ : ∃ M, ∀ p ∈ List.zip (hs.map (· * 1000) ++ hLow) (ds ++ dLow), p.2 ≤ M := by
      obtain ⟨q, hq, hqM⟩ := list_exists_max (fun p : ℝ × ℝ => p.2) _ (List.ne_nil_of_mem hzne.choose_spec)
      exact ⟨q.2, hqM⟩
    exact (C05_table_bounds _ _ _ _ e8 hpair 0 M (fun p hp => ⟨hvals p hp, hM p hp⟩) x c1 c2).1
  · intro hlen
    rw [l3] at e5
    refine ⟨H, upper, e5, fun x hx => ?_⟩
    have hup : upper (hMin * 1000) = f' (hMin * 1000) := by
      obtain ⟨i, hi, hie⟩ := List.mem_iff_getElem.mp hmem
      have hi' : i < ds.length := by omega
      have hin : (hMin * 1000, ds[i]) ∈ List.zip (hs.map (· * 1000)) ds := by
        rw [List.mem_iff_getElem]
        refine ⟨i, by simp; omega, ?_⟩
        simp [hie]
      simp only [l4] at e4
      rw [C05_table_nodes _ _ _ _ e4 (hzip _ _ (by rw [List.pairwise_map]; exact hdist.imp (fun h h' => h (by linarith)))) _ hin,
        ← hnode i hi hi', hie]
    have hin : (x, upper (hMin * 1000) * exp ((hMin * 1000 - x) / H)) ∈
        List.zip (hs.map (· * 1000) ++ hLow) (ds ++ dLow) := by
      rw [List.zip_append (by simpa using hlen), List.mem_append]
      right
      rw [hdLow, List.zip_map_right, List.mem_map]
      refine ⟨(x, x), ?_, rfl⟩
      obtain ⟨i, hi, rfl⟩ := List.mem_iff_getElem.mp hx
      rw [List.mem_iff_getElem]
      exact ⟨i, by simpa using hi, by simp⟩
    rw [← hup]
    exact C05_table_nodes _ _ _ _ e8 hpair _ hin

/-- Example for `C60_measured_function_partial`: two estimates at 119 km and 118.5 km above Mars. -/
example : ∃ (P : Planet) (atm : Atmosphere) (f : ℝ → ℝ) (m : ℝ), Planet.init "MARS" = .ok P ∧
    createDensityMeasuredFunction P atm .strict [0, 119, 118.5] [0, 2, 3] 50 10 = .ok (f, m) ∧
    f 119000 = 2 ∧ f 118500 = 3 ∧ m = 118500 ∧ ∀ x, 0 ≤ f x := by
  obtain ⟨P, hP⟩ := (C01_planet_names "MARS").1.mpr (by simp [Spec.bodies])
  have hS : P.hSkip = 120e3 := by simp [Planet.init] at hP; subst hP; rfl
  have hTh : P.hThres = 120e3 := by simp [Planet.init] at hP; subst hP; rfl
  let atm : Atmosphere := ⟨fun x => 121000 - x, fun _ => 1, fun _ => 1, fun _ => 1⟩
  have hok : ∃ r, createDensityMeasuredFunction P atm .strict [0, 119, 118.5] [0, 2, 3] 50 10 = .ok r := by
    unfold createDensityMeasuredFunction
    have m1 : pyMin ([119, 118.5] : List ℝ) = .ok 118.5 := by norm_num [pyMin]
    have m2 : pyMin ([2, 3] : List ℝ) = .ok 2 := by norm_num [pyMin]
    have m3 : pyMax ([2, 3] : List ℝ) = .ok 3 := by norm_num [pyMax]
    have i1 : ∀ (a b : ℝ), ∃ f, interp1d (List.zip (List.map (· * 1000.0) [119, 118.5]) ([2, 3] : List ℝ)) a b = .ok f :=
      fun a b => ⟨_, (interp1d_ok_iff _ _ _ _).mpr ⟨by simp, rfl⟩⟩
    obtain ⟨up, hup⟩ := i1 3 2
    have fl : ⌊(120e3:ℝ) / 1000⌋₊ = 120 := by
      rw [show (120e3:ℝ) / 1000 = ((120:ℕ):ℝ) by norm_num, Nat.floor_natCast]
    have fl2 : ⌊(118.5 * 1E3 : ℝ) / 1000⌋₊ = 118 := by
      rw [Nat.floor_eq_iff (by norm_num)]; norm_num
    have hg : (P.scaleHeightGrid).drop 118 = [118 * (120e3 / 119), 119 * (120e3 / 119)] := by
      unfold Planet.scaleHeightGrid linspace0
      rw [hS, fl, ← List.map_drop, show (List.range 120).drop 118 = [118, 119] by decide]
      norm_num
    have hH : ∃ H : ℝ, H ≠ 0 ∧ P.scaleHeight atm .strict (118.5 * 1E3) up = .ok (some H) := by
      have e : P.scaleHeight atm .strict (118.5 * 1E3) up = .ok (some
          (((119 * (120e3 / 119) - 118 * (120e3 / 119)) * ((121000 - 118 * (120e3 / 119)) + (121000 - 119 * (120e3 / 119))) / 2) / 1500)) := by
        unfold Planet.scaleHeight
        rw [fl2, hg]
        have hd : P.density atm (118.5 * 1E3) - P.density atm P.hSkip = 1500 := by
          simp only [Planet.density, hTh, hS, atm]; norm_num
        rw [hd]
        simp [cumTrapz, trapzFrom, bind, Except.bind, pure, Except.pure, atm]
      exact ⟨_, by norm_num, e⟩
    obtain ⟨H, hH0, hH⟩ := hH
    simp only [List.drop_succ_cons, List.drop_zero, m1, m2, m3, hup, liftPy, bind, Except.bind, hH, finite, if_neg hH0, pure,
      Except.pure]
    obtain ⟨M, hM, -⟩ := pyMax_spec (l := [2, 3] ++ List.map (fun x => up (118.5 * 1E3) * exp ((118.5 * 1E3 - x) / H))
      (linspace (118.5 * 1E3 - 1000.0) (50 * 1E3) 10)) (by simp)
    obtain ⟨m, hm, -⟩ := pyMin_spec (l := [2, 3] ++ List.map (fun x => up (118.5 * 1E3) * exp ((118.5 * 1E3 - x) / H))
      (linspace (118.5 * 1E3 - 1000.0) (50 * 1E3) 10)) (by simp)
    obtain ⟨f, hf⟩ : ∃ f, interp1d (List.zip (List.map (· * 1000.0) [119, 118.5] ++ linspace (118.5 * 1E3 - 1000.0) (50 * 1E3) 10)
      ([2, 3] ++ List.map (fun x => up (118.5 * 1E3) * exp ((118.5 * 1E3 - x) / H))
      (linspace (118.5 * 1E3 - 1000.0) (50 * 1E3) 10))) M m = .ok f :=
      ⟨_, (interp1d_ok_iff _ _ _ _).mpr ⟨by simp, rfl⟩⟩
    exact ⟨(f, 118.5 * 1E3), by simp only [hM, hm, hf]⟩
  obtain ⟨⟨f, m⟩, hok⟩ := hok
  obtain ⟨k1, ⟨h, hh, k2⟩, k3, k4, -⟩ := C60_measured_function_partial P atm .strict 0 0 [119, 118.5] [2, 3] 50 10 f m hok
    (by norm_num) (by intro h hh; simp at hh; rcases hh with rfl | rfl <;> norm_num)
  refine ⟨P, atm, f, m, hP, hok, ?_, ?_, ?_, k4 (by simp) (by simp)⟩
  · have := k1 0 (by simp) (by simp); norm_num at this; exact this
  · have := k1 1 (by simp) (by simp); norm_num at this; exact this
  · have := k3 118.5 (by simp)
    simp at hh
    rcases hh with rfl | rfl
    · norm_num at this k2 ⊢; linarith
    · rw [k2]; norm_num

end AMAT.Props
