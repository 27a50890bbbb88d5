import Verif.Props.GuidanceProps
import Verif.Props.TrajectoryProps

/-
Properties C42 (termination) and C43 (histories) of guided entries.
-/

noncomputable section

namespace AMAT.Props

open Real

/-! ### C43 -/

/-- Specification: one point of a recorded trajectory, in plot units. -/
@[ext] structure Spec.Pt where
  t : ℝ
  h : ℝ
  theta : ℝ
  phi : ℝ
  v : ℝ
  psi : ℝ
  gamma : ℝ
  drange : ℝ

/-- Specification: the arrays of a history describe the points `pts`, one entry per point in every array. -/
structure Spec.Records (H : Hist) (pts : List Spec.Pt) : Prop where
  t : H.t = pts.map (·.t)
  h : H.h = pts.map (·.h)
  theta : H.theta = pts.map (·.theta)
  phi : H.phi = pts.map (·.phi)
  v : H.v = pts.map (·.v)
  psi : H.psi = pts.map (·.psi)
  gamma : H.gamma = pts.map (·.gamma)
  drange : H.drange = pts.map (·.drange)
  accNetG : H.accNetG.length = pts.length
  dynPresAtm : H.dynPresAtm.length = pts.length
  stagPresAtm : H.stagPresAtm.length = pts.length
  qStagTotal : H.qStagTotal.length = pts.length
  heatload : H.heatload.length = pts.length

/-- Specification: a point with time `t` and the state of `x`. -/
def Spec.ptOf (t : ℝ) (x : InitState) : Spec.Pt :=
  { t := t, h := x.h0Km, theta := x.theta0Deg, phi := x.phi0Deg, v := x.v0Kms, psi := x.psi0Deg, gamma := x.gamma0Deg,
    drange := x.drange0Km }

/-- Specification: a continuous history: it starts at time zero with the state `x`, and from each point to the next
either time advances, or the point is repeated unchanged (where two segments meet). -/
def Spec.Continuous (x : InitState) (pts : List Spec.Pt) : Prop :=
  pts.head? = some (Spec.ptOf 0 x) ∧ pts.IsChain (fun a b => a.t < b.t ∨ a = b)

/-- The output grid is strictly increasing. -/
theorem tGrid_sorted (P : Planet) (htau : 0 < P.tau) (tSec dt : ℝ) (hdt : 0 < dt) :
    (Vehicle.tGrid P tSec dt).Pairwise (· < ·) := by
  unfold Vehicle.tGrid arange0
  rw [List.pairwise_map]
  refine List.Pairwise.imp ?_ List.pairwise_lt_range
  intro a b hab
  have : (a : ℝ) < b := by exact_mod_cast hab
  have h2 : 0 < dt / P.tau := by positivity
  nlinarith

/-- One sample in plot units. -/
def samplePt (P : Planet) (p : ℝ × FState) : Spec.Pt :=
  { t := P.tau * p.1 / 60.0, h := (p.2.r * P.RP - P.RP) * 1E-3, theta := p.2.theta * 180 / π, phi := p.2.phi * 180 / π,
    v := p.2.v * P.Vref * 1E-3, psi := p.2.psi * 180 / π, gamma := p.2.gamma * 180 / π,
    drange := p.2.drange * P.RP * 1.0E-3 }

theorem postProcess_records {V : Vehicle} {mode : ScipyMode} {S : List (ℝ × FState)} {delta hi : ℝ} {out : PropOut}
    (h : V.postProcess mode (TrajArrays.ofSamples S) delta hi = .ok out) :
    1 ≤ out.index ∧ out.index ≤ S.length ∧
    Spec.Records (Hist.ofOut out) ((S.take out.index).map (samplePt V.planet)) := by
  obtain ⟨a1, a2, _, _, _, _, _, _, _, _, a3, a4⟩ := postProcess_aligned h
  obtain ⟨idx, flag, qc, qr, heat, hc, hq, hq2, hh, rfl⟩ := postProcess_inv h
  refine ⟨a1, a2, ?_⟩
  simp only [List.mem_cons, List.not_mem_nil, or_false, forall_eq_or_imp, forall_eq] at a3
  have len : ((S.take idx).map (samplePt V.planet)).length = idx := by simpa using a2
  constructor <;>
    first
    | (simp only [Hist.ofOut, len]; first | exact a4 | tauto)
    | simp [Hist.ofOut, TrajArrays.truncate, Planet.toPlotUnits, Planet.dimensionalizeArr, TrajArrays.ofSamples,
        Function.comp_def, List.map_take, samplePt]

/-- One propagated segment is a continuous history from the initial state of the vehicle. -/
theorem segment_continuous (name : String) (V : Vehicle) (hP : Planet.init name = .ok V.planet) (mode : ScipyMode)
    (I : Integrator) (hI : SolveIvpLike I) (tSec dt deltaDeg : ℝ) (hdt : 0 < dt) (out : PropOut)
    (h : V.propogateEntry mode I tSec dt deltaDeg = .ok out ∨ V.propogateEntry2 mode I tSec dt deltaDeg = .ok out) :
    ∃ pts, Spec.Records (Hist.ofOut out) pts ∧ Spec.Continuous V.init pts := by
  obtain ⟨hi, h⟩ : ∃ hi, V.postProcess mode (TrajArrays.ofSamples (samples V I tSec dt deltaDeg))
      (deltaDeg * π / 180.0) hi = .ok out := by
    rcases h with h | h
    · exact ⟨_, h⟩
    · exact ⟨_, h⟩
  obtain ⟨_, hR, _, _, _, _, _, _, hV, htau, _⟩ := C01_planet_consistent name _ hP
  obtain ⟨h1, h2, hrec⟩ := postProcess_records h
  obtain ⟨g1, g2, g3⟩ := hI (fun t y => V.EOM y t (deltaDeg * π / 180.0))
    (V.planet.nonDimState (Vehicle.entryState V.planet V.init)) (Vehicle.tGrid V.planet tSec dt)
  change (samples V I tSec dt deltaDeg).map Prod.fst <+: _ at g1
  change ∀ p, (samples V I tSec dt deltaDeg).head? = some p → _ at g3
  refine ⟨_, hrec, ?_, ?_⟩
  · cases hS : samples V I tSec dt deltaDeg with
    | nil => rw [hS] at h2; simp at h2; omega
    | cons p S =>
      have hp := g3 p (by rw [hS]; rfl)
      have hp1 : p.1 = 0 := by
        rw [hS] at g1
        obtain ⟨t, ht⟩ := g1
        have h0 := congrArg List.head? ht
        simp only [List.map_cons, List.cons_append, List.head?_cons, Vehicle.tGrid, arange0] at h0
        cases hn : ⌈((tSec + dt) / V.planet.tau) / (dt / V.planet.tau)⌉₊ with
        | zero => rw [hn] at h0; simp at h0
        | succ n => rw [hn, List.range_succ_eq_map] at h0; simpa using h0
      obtain ⟨n, hn⟩ : ∃ n, out.index = n + 1 := ⟨out.index - 1, by omega⟩
      have l60 : (180.0:ℝ) = 180 := by norm_num
      have l3 : (1.0e3:ℝ) = 1000 := by norm_num
      have l4 : (1.000e3:ℝ) = 1000 := by norm_num
      have l5 : (1e3:ℝ) = 1000 := by norm_num
      have l6 : (1e-3:ℝ) = 1 / 1000 := by norm_num
      have l7 : (1.0e-3:ℝ) = 1 / 1000 := by norm_num
      have hpi := pi_ne_zero
      rw [hn, List.take_succ_cons, List.map_cons, List.head?_cons]
      congr 1
      simp only [samplePt, Spec.ptOf, hp, hp1, Planet.nonDimState, Vehicle.entryState, Planet.computeR, l60, l3, l4, l5,
        l6, l7, div_mul_cancel₀ _ hR.ne', div_mul_cancel₀ _ hV.ne', mul_zero, zero_div]
      ext <;> simp only <;> field_simp; ring
  · have hs : ((samples V I tSec dt deltaDeg).map Prod.fst).Pairwise (· < ·) :=
      List.Pairwise.sublist g1.sublist (tGrid_sorted V.planet htau tSec dt hdt)
    rw [List.pairwise_map] at hs
    have hs2 := List.Pairwise.sublist (List.take_sublist out.index _) hs
    apply List.Pairwise.isChain
    rw [List.pairwise_map]
    refine hs2.imp ?_
    intro a b hab
    left
    have l60 : (60.0:ℝ) = 60 := by norm_num
    simp only [samplePt, l60]
    have := mul_lt_mul_of_pos_left hab htau
    linarith

/-- Joining a further segment; the earlier points stay in front. -/
theorem joined_extend_prefix {a b : Hist} {pa pb : List Spec.Pt} {x y : InitState} {J tEnd : ℝ}
    (ha : Spec.Records a pa) (ca : Spec.Continuous x pa) (hb : Spec.Records b pb) (cb : Spec.Continuous y pb)
    (hl : a.last J = .ok y) (ht : a.t.getLast? = some tEnd) :
    ∃ pts, pa <+: pts ∧ Spec.Records (a.extend b tEnd) pts ∧ Spec.Continuous x pts := by
  refine ⟨pa ++ pb.map (fun p => { p with t := p.t + tEnd }), List.prefix_append _ _, ?_, ?_, ?_⟩
  · constructor <;> simp [Hist.extend, ha.t, ha.h, ha.theta, ha.phi, ha.v, ha.psi, ha.gamma, ha.drange, ha.accNetG,
      ha.dynPresAtm, ha.stagPresAtm, ha.qStagTotal, ha.heatload, hb.t, hb.h, hb.theta, hb.phi, hb.v, hb.psi, hb.gamma,
      hb.drange, hb.accNetG, hb.dynPresAtm, hb.stagPresAtm, hb.qStagTotal, hb.heatload, Function.comp_def]
  · rw [List.head?_append, ca.1]; rfl
  · rw [List.isChain_append]
    refine ⟨ca.2, ?_, ?_⟩
    · rw [List.isChain_map]
      refine List.IsChain.imp ?_ cb.2
      rintro p q (h | rfl)
      · left; simpa using h
      · right; rfl
    · intro p hp q hq
      right
      rw [Option.mem_def] at hp hq
      rw [List.head?_map, cb.1] at hq
      simp only [Option.map_some, Option.some.injEq, Spec.ptOf, zero_add] at hq
      obtain ⟨l1, l2, l3, l4, l5, l6, l7, -⟩ := last_ok.mp hl
      rw [ha.h, List.getLast?_map, hp] at l1
      rw [ha.theta, List.getLast?_map, hp] at l2
      rw [ha.phi, List.getLast?_map, hp] at l3
      rw [ha.v, List.getLast?_map, hp] at l4
      rw [ha.psi, List.getLast?_map, hp] at l5
      rw [ha.gamma, List.getLast?_map, hp] at l6
      rw [ha.drange, List.getLast?_map, hp] at l7
      rw [ha.t, List.getLast?_map, hp] at ht
      simp only [Option.map_some, Option.some.injEq] at l1 l2 l3 l4 l5 l6 l7 ht
      rw [← hq, ← l1, ← l2, ← l3, ← l4, ← l5, ← l6, ← l7, ← ht]

/-- Joining a further segment. -/
theorem joined_extend {a b : Hist} {pa pb : List Spec.Pt} {x y : InitState} {J tEnd : ℝ}
    (ha : Spec.Records a pa) (ca : Spec.Continuous x pa) (hb : Spec.Records b pb) (cb : Spec.Continuous y pb)
    (hl : a.last J = .ok y) (ht : a.t.getLast? = some tEnd) :
    ∃ pts, Spec.Records (a.extend b tEnd) pts ∧ Spec.Continuous x pts := by
  obtain ⟨pts, -, h⟩ := joined_extend_prefix ha ca hb cb hl ht
  exact ⟨pts, h⟩

/-- C43 for the general shape of a guided entry. -/
theorem guided_histories (G : GuideParams) (FE : EntryPhase) (FX : ExitPhase) (mode : ScipyMode)
    (fuel : ℕ) (V : Vehicle) (hdotref : Option (List (Option ℝ)))
    (prep : Vehicle → Vehicle) (hprep : ∀ W, (prep W).planet = W.planet) (tsE tsX dt maxTime : ℝ)
    (goodE : ∀ W t δ out, W.planet = V.planet → FE.prop W t dt δ = .ok out →
      ∃ pts, Spec.Records (Hist.ofOut out) pts ∧ Spec.Continuous W.init pts)
    (goodX : ∀ W t δ out, W.planet = V.planet → FX.prop W t dt δ = .ok out →
      ∃ pts, Spec.Records (Hist.ofOut out) pts ∧ Spec.Continuous W.init pts)
    (o : GuidedOut) (ho : Vehicle.guided G FE FX mode fuel V hdotref prep tsE tsX dt maxTime = some (.ok o)) :
    ∃ pts, Spec.Records o.fin.hist pts ∧ Spec.Continuous V.init pts := by
  obtain ⟨s0, s, e, J, hr, h1, h2, h3, h4, h5⟩ := guided_inv ho
  obtain ⟨out, v, hout, _, rfl⟩ := entryStart_inv h1
  have a := entryLoop_invariant (fun s => s.V.planet = V.planet ∧
      ∃ pts, Spec.Records s.hist pts ∧ Spec.Continuous V.init pts) (by
    rintro s s' b ⟨hs1, pts, hr, hc⟩ hcy
    obtain ⟨J, x, delta, qref, out, tEnd, J', y, hd, tOld, an, ad, fn, apo, -, hx, -, hprop, htE, -, -, -, -, -, -, -, -, rfl, -⟩ :=
      entryCycle_inv hcy
    refine ⟨hs1, ?_⟩
    obtain ⟨pb, hrb, hcb⟩ := goodE _ _ _ _ (show (s.V.setInitialState x).planet = V.planet from hs1) hprop
    exact joined_extend hr hc hrb hcb hx htE) fuel _ s ⟨rfl, goodE _ _ _ _ rfl hout⟩ h2
  obtain ⟨hk, p, _, hp, _, _, rfl⟩ := exitStart_inv h3
  have b := exitLoop_invariant (fun s => s.V.planet = V.planet ∧
      ∃ pts, Spec.Records s.hist pts ∧ Spec.Continuous V.init pts) (by
    rintro s s' b ⟨hs1, pts, hr, hc⟩ hcy
    obtain ⟨x, out, tEnd, y, hd, tOld, hx, hprop, htE, -, -, -, rfl, -⟩ := exitCycle_inv hcy
    refine ⟨hs1, ?_⟩
    obtain ⟨pb, hrb, hcb⟩ := goodX _ _ _ _ (show (s.V.setInitialState x).planet = V.planet from hs1) hprop
    exact joined_extend hr hc hrb hcb hx htE) fuel _ o.fin ⟨by rw [hprep]; exact a.1, a.2⟩ h4
  exact b.2

/-- C43: in every guided entry (all four public functions, every vehicle, planet, parameters and integrators meeting
the documented contracts) that delivers a result, the thirteen accumulated trajectory arrays have equal length and
describe one continuous trajectory: it starts at time zero in the entry state; from each entry to the next either the
time increases or the whole state is repeated, so times never decrease and segments join without a jump. -/
theorem C43_histories_continuous (name : String) (G : GuideParams) (mode : ScipyMode) (I I' : Integrator)
    (hI : SolveIvpLike I) (hI' : SolveIvpLike I') (fuel : ℕ) (V : Vehicle) (hP : Planet.init name = .ok V.planet)
    (hdotref : Option (List (Option ℝ))) (ts tsX dt maxTime : ℝ) (hdt : 0 < dt) (o : GuidedOut)
    (ho : Vehicle.propogateGuidedEntry G mode I fuel V hdotref ts dt maxTime = some (.ok o) ∨
      Vehicle.propogateGuidedEntry2 G mode I I' fuel V hdotref ts dt maxTime = some (.ok o) ∨
      Vehicle.propogateGuidedEntryD G mode I fuel V hdotref ts tsX dt maxTime = some (.ok o) ∨
      Vehicle.propogateGuidedEntryD2 G mode I' fuel V hdotref ts tsX dt maxTime = some (.ok o)) :
    ∃ pts, Spec.Records o.fin.hist pts ∧ Spec.Continuous V.init pts := by
  rcases ho with ho | ho | ho | ho
  · refine guided_histories G _ _ mode fuel V hdotref _ (fun _ => rfl) _ _ dt maxTime ?_ ?_ o ho <;>
    · intro W t δ out hW h
      exact segment_continuous name W (by rw [hW]; exact hP) mode I hI _ _ _ hdt out (Or.inl h)
  · refine guided_histories G _ _ mode fuel V hdotref _ (fun _ => rfl) _ _ dt maxTime ?_ ?_ o ho <;>
    · intro W t δ out hW h
      exact segment_continuous name W (by rw [hW]; exact hP) mode I' hI' _ _ _ hdt out (Or.inr h)
  · refine guided_histories G _ _ mode fuel (V.setBeta G.beta1) hdotref
      (fun W => W.setBeta (G.beta1 * G.betaRatio)) (fun _ => rfl) _ _ dt maxTime ?_ ?_ o ho <;>
    · intro W t δ out hW h
      exact segment_continuous name W (by rw [hW]; exact hP) mode I hI _ _ _ hdt out (Or.inl h)
  · refine guided_histories G _ _ mode fuel (V.setBeta G.beta1) hdotref
      (fun W => W.setBeta (G.beta1 * G.betaRatio)) (fun _ => rfl) _ _ dt maxTime ?_ ?_ o ho <;>
    · intro W t δ out hW h
      exact segment_continuous name W (by rw [hW]; exact hP) mode I' hI' _ _ _ hdt out (Or.inr h)

/-- C43, per-cycle histories of the entry phases: all have one entry per cycle plus the initial one — except the
acceleration history (finding), which is appended to twice per cycle and so has `2n+1` entries for `n` cycles. -/
theorem C43_step_histories (G : GuideParams) (F : EntryPhase) (mode : ScipyMode) (fuel : ℕ) (V : Vehicle)
    (hdotref : Option (List (Option ℝ))) (ts dt maxTime : ℝ) (s : EntryState)
    (h : entryPhase G F mode fuel V hdotref ts dt maxTime = some (.ok s)) :
    ∃ n, s.tStep.length = n + 1 ∧ s.deltaDeg.length = n + 1 ∧ s.hdot.length = n + 1 ∧ s.hddot.length = n + 1 ∧
      s.q.length = n + 1 ∧ s.hStep.length = n + 1 ∧ s.accDragStep.length = n + 1 ∧ s.densityMes.length = n + 1 ∧
      s.accStep.length = 2 * n + 1 ∧ (n ≠ 0 → ∃ l, s.hdotref = some l ∧ l.length = n + 1) := by
  unfold entryPhase at h
  split at h
  · cases h
  · next s0 hs0 =>
    obtain ⟨out, v, _, _, rfl⟩ := entryStart_inv hs0
    refine entryLoop_invariant (fun s => ∃ n, s.tStep.length = n + 1 ∧ s.deltaDeg.length = n + 1 ∧ s.hdot.length = n + 1 ∧
      s.hddot.length = n + 1 ∧ s.q.length = n + 1 ∧ s.hStep.length = n + 1 ∧ s.accDragStep.length = n + 1 ∧
      s.densityMes.length = n + 1 ∧
      s.accStep.length = 2 * n + 1 ∧ (n ≠ 0 → ∃ l, s.hdotref = some l ∧ l.length = n + 1)) ?_ fuel _ s
      ⟨0, by simp⟩ h
    rintro s s' b ⟨n, e1, e2, e3, e4, e5, e6, e7, e8, e9, _⟩ hcy
    obtain ⟨J, x, delta, qref, out, tEnd, J', y, hd, tOld, an, ad, fn, apo, -, hx, -, hprop, htE, -, -, -, -, -, -, -, -, rfl, -⟩ :=
      entryCycle_inv hcy
    refine ⟨n + 1, ?_⟩
    simp only [List.length_append, List.length_cons, List.length_nil, e1, e2, e3, e4, e5, e6, e7, e8, e9,
      true_and]
    refine ⟨by ring, fun _ => ⟨_, rfl, by simp⟩⟩

end AMAT.Props
