import Verif.Props.GuidedHistory
import Verif.Props.SwitchedFlight
import Verif.Spec.Near

/-
Property C111: the histories of a guided entry are points of one flight, in which the recorded bank angles are flown in turn.
-/

noncomputable section

namespace AMAT.Props

open Real AMAT AMAT.Spec AMAT.Piecewise

/-! ### Specification -/

/-- Specification: the recorded trajectory passes through the state `x`. -/
def StartsIn (H : Hist) (x : InitState) : Prop :=
  ∃ i : ℕ, H.h[i]? = some x.h0Km ∧ H.theta[i]? = some x.theta0Deg ∧ H.phi[i]? = some x.phi0Deg ∧
    H.v[i]? = some x.v0Kms ∧ H.psi[i]? = some x.psi0Deg ∧ H.gamma[i]? = some x.gamma0Deg ∧
    H.drange[i]? = some x.drange0Km

/-- Specification: started in the initial state of `W`, the solver returns points of a curve through states in `R` that
follows the equations of motion of `W`, at the bank angle `δ` (degrees), with defect at most `ε`. -/
def FollowsFlight (R : FState → Prop) (ε : ℝ) (W : Vehicle) (I : Integrator) (tSec dt δ : ℝ) : Prop :=
  ∃ (z : ℝ → FState) (T : ℝ) (S : Finset ℝ), samplePt W.planet (0, z 0) = Spec.ptOf 0 W.init ∧
    NearFlight (fun t s => W.EOM s t (δ * π / 180)) z 0 T S ε ∧ (∀ t ∈ Set.Icc 0 T, R (z t)) ∧
    ∀ p ∈ samples W I tSec dt δ, p.1 ∈ Set.Icc 0 T ∧ p.2 = z p.1

/-- Specification: the history `H` consists of points of the one curve `y` over `[0, T]` (in units of the planet) that starts
in the state `x`; between the recorded times (minutes) of the guidance cycles `k` and `k + 1` – up to the end for the last
one – the curve follows the equations of motion of the vehicle `veh k` at the `k`-th recorded bank angle (degrees). -/
structure GuidedFlight (R : FState → Prop) (ε : ℝ) (P : Planet) (x : InitState) (H : Hist) (tStep deltaDeg : List ℝ)
    (veh : ℕ → Vehicle) (y : ℝ → FState) (T : ℝ) : Prop where
  start : samplePt P (0, y 0) = Spec.ptOf 0 x
  within : ∀ t ∈ Set.Icc 0 T, R (y t)
  records : ∃ times : List ℝ, times.IsChain (· ≤ ·) ∧ times.head? = some 0 ∧ times.getLast? = some T ∧
    Spec.Records H (times.map fun t => samplePt P (t, y t))
  first : tStep.head? = some 0
  cycles : deltaDeg.length = tStep.length
  flight : ∀ (k : ℕ) (a b δ : ℝ), (tStep ++ [P.tau * T / 60])[k]? = some a →
    (tStep ++ [P.tau * T / 60])[k + 1]? = some b → deltaDeg[k]? = some δ →
    0 ≤ a ∧ a ≤ b ∧ b ≤ P.tau * T / 60 ∧
      ∃ S : Finset ℝ, NearFlight (fun t s => (veh k).EOM s t (δ * π / 180)) y (a * 60 / P.tau) (b * 60 / P.tau) S ε

/-! ### Curves -/

theorem nearFlight_mono {F : ℝ → FState → FState} {y : ℝ → FState} {a b a' b' ε : ℝ} {S : Finset ℝ}
    (hy : NearFlight F y a b S ε) (ha : a ≤ a') (hb : b' ≤ b) : NearFlight F y a' b' S ε := by
  have hs := Set.Icc_subset_Icc ha hb
  exact ⟨hy.r.mono hs, hy.theta.mono hs, hy.phi.mono hs, hy.v.mono hs, hy.psi.mono hs, hy.gamma.mono hs,
    hy.drange.mono hs, fun t ht => hy.rates t ⟨ha.trans_lt ht.1, ht.2.trans_le hb⟩⟩

theorem solvesAt_eventually {F : FState → FState} {y y' : ℝ → FState} {t : ℝ} (h : y' =ᶠ[nhds t] y) (hy : SolvesAt F y t) :
    SolvesAt F y' t := by
  have e := h.self_of_nhds
  have k : ∀ g : FState → ℝ, (fun s => g (y' s)) =ᶠ[nhds t] fun s => g (y s) := fun g => h.mono fun s hs => by
    simp only [hs]
  constructor
  · rw [e]; exact hy.r.congr_of_eventuallyEq (k (·.r))
  · rw [e]; exact hy.theta.congr_of_eventuallyEq (k (·.theta))
  · rw [e]; exact hy.phi.congr_of_eventuallyEq (k (·.phi))
  · rw [e]; exact hy.v.congr_of_eventuallyEq (k (·.v))
  · rw [e]; exact hy.psi.congr_of_eventuallyEq (k (·.psi))
  · rw [e]; exact hy.gamma.congr_of_eventuallyEq (k (·.gamma))
  · rw [e]; exact hy.drange.congr_of_eventuallyEq (k (·.drange))

theorem nearFlight_congr {F : ℝ → FState → FState} {y y' : ℝ → FState} {a b ε : ℝ} {S : Finset ℝ}
    (hy : NearFlight F y a b S ε) (h : ∀ t ∈ Set.Icc a b, y' t = y t) : NearFlight F y' a b S ε := by
  have k : ∀ g : FState → ℝ, Set.EqOn (fun s => g (y' s)) (fun s => g (y s)) (Set.Icc a b) := fun g t ht => by
    simp only [h t ht]
  refine ⟨hy.r.congr (k (·.r)), hy.theta.congr (k (·.theta)), hy.phi.congr (k (·.phi)), hy.v.congr (k (·.v)),
    hy.psi.congr (k (·.psi)), hy.gamma.congr (k (·.gamma)), hy.drange.congr (k (·.drange)), fun t ht hS => ?_⟩
  obtain ⟨w, h1, h2⟩ := hy.rates t ht hS
  refine ⟨w, solvesAt_eventually ?_ h1, by rw [h t (Set.Ioo_subset_Icc_self ht)]; exact h2⟩
  filter_upwards [Ioo_mem_nhds ht.1 ht.2] with s hs using h s (Set.Ioo_subset_Icc_self hs)

theorem nearFlight_shift {G : FState → FState} {z : ℝ → FState} {b ε : ℝ} {S : Finset ℝ} (T : ℝ)
    (hz : NearFlight (fun _ => G) z 0 b S ε) :
    NearFlight (fun _ => G) (fun t => z (t - T)) T (T + b) (S.image (· + T)) ε := by
  have hm : Set.MapsTo (fun t => t - T) (Set.Icc T (T + b)) (Set.Icc 0 b) := fun t ht =>
    ⟨by linarith [ht.1], by linarith [ht.2]⟩
  have hc : ContinuousOn (fun t : ℝ => t - T) (Set.Icc T (T + b)) := by fun_prop
  refine ⟨hz.r.comp hc hm, hz.theta.comp hc hm, hz.phi.comp hc hm, hz.v.comp hc hm, hz.psi.comp hc hm,
    hz.gamma.comp hc hm, hz.drange.comp hc hm, fun t ht hS => ?_⟩
  obtain ⟨w, h1, h2⟩ := hz.rates (t - T) ⟨by linarith [ht.1], by linarith [ht.2]⟩ fun hh => hS (by
    rw [Finset.mem_image]; exact ⟨t - T, hh, by ring⟩)
  exact ⟨w, ⟨h1.r.comp_sub_const t T, h1.theta.comp_sub_const t T, h1.phi.comp_sub_const t T, h1.v.comp_sub_const t T,
    h1.psi.comp_sub_const t T, h1.gamma.comp_sub_const t T, h1.drange.comp_sub_const t T⟩, h2⟩

/-- The conversion to plot units loses nothing. -/
theorem samplePt_inj {P : Planet} (hR : 0 < P.RP) (hV : 0 < P.Vref) {t t' : ℝ} {s s' : FState}
    (h : { samplePt P (t, s) with t := 0 } = { samplePt P (t', s') with t := 0 }) : s = s' := by
  have l6 : (1e-3:ℝ) = 1 / 1000 := by norm_num
  have l7 : (1.0e-3:ℝ) = 1 / 1000 := by norm_num
  have hpi := pi_pos
  simp only [samplePt, Spec.Pt.mk.injEq, l6, l7, true_and] at h
  obtain ⟨h1, h2, h3, h4, h5, h6, h7⟩ := h
  have a : ∀ x x' : ℝ, x * 180 / π = x' * 180 / π → x = x' := fun x x' e => by
    have := (div_left_inj' hpi.ne').mp e
    linarith
  have b : ∀ x x' c : ℝ, 0 < c → x * c * (1 / 1000) = x' * c * (1 / 1000) → x = x' := fun x x' c hc e =>
    mul_right_cancel₀ hc.ne' (by linarith)
  ext
  · exact b _ _ _ hR (by linarith)
  · exact a _ _ h2
  · exact a _ _ h3
  · exact b _ _ _ hV h4
  · exact a _ _ h5
  · exact a _ _ h6
  · exact b _ _ _ hR h7

/-! ### Segments -/

/-- One propagated segment, when the solver follows a flight. -/
theorem segment_flight (name : String) (W : Vehicle) (hP : Planet.init name = .ok W.planet) (mode : ScipyMode)
    (I : Integrator) (hI : SolveIvpLike I) (tSec dt δ : ℝ) (hdt : 0 < dt) (out : PropOut) (R : FState → Prop) (ε : ℝ)
    (h : W.propogateEntry mode I tSec dt δ = .ok out ∨ W.propogateEntry2 mode I tSec dt δ = .ok out)
    (hf : FollowsFlight R ε W I tSec dt δ) :
    ∃ (z : ℝ → FState) (T : ℝ) (S : Finset ℝ) (times : List ℝ), 0 ≤ T ∧
      samplePt W.planet (0, z 0) = Spec.ptOf 0 W.init ∧
      NearFlight (fun _ s => W.EOM s 0 (δ * π / 180)) z 0 T S ε ∧ (∀ t ∈ Set.Icc 0 T, R (z t)) ∧
      times.IsChain (· ≤ ·) ∧ times.head? = some 0 ∧ times.getLast? = some T ∧
      Spec.Records (Hist.ofOut out) (times.map fun t => samplePt W.planet (t, z t)) := by
  obtain ⟨hi, h'⟩ : ∃ hi, W.postProcess mode (TrajArrays.ofSamples (samples W I tSec dt δ))
      (δ * π / 180.0) hi = .ok out := by
    rcases h with h | h
    · exact ⟨_, h⟩
    · exact ⟨_, h⟩
  obtain ⟨_, hR, _, _, _, _, _, _, hV, htau, _⟩ := C01_planet_consistent name _ hP
  obtain ⟨h1, h2, hrec⟩ := postProcess_records h'
  obtain ⟨z, T, S, z0, hz, hRz, hs⟩ := hf
  obtain ⟨g1, -, -⟩ := hI (fun t y => W.EOM y t (δ * π / 180.0))
    (W.planet.nonDimState (Vehicle.entryState W.planet W.init)) (Vehicle.tGrid W.planet tSec dt)
  change (samples W I tSec dt δ).map Prod.fst <+: _ at g1
  have hsort : ((samples W I tSec dt δ).map Prod.fst).Pairwise (· < ·) :=
    List.Pairwise.sublist g1.sublist (tGrid_sorted W.planet htau tSec dt hdt)
  set L := (samples W I tSec dt δ).take out.index with hL
  have hLs : ∀ p ∈ L, p.1 ∈ Set.Icc 0 T ∧ p.2 = z p.1 := fun p hp => hs p (List.mem_of_mem_take hp)
  have hLl : L.length = out.index := by rw [hL, List.length_take]; omega
  set times := L.map Prod.fst with htimes
  have hmap : L.map (samplePt W.planet) = times.map fun t => samplePt W.planet (t, z t) := by
    rw [htimes, List.map_map]
    refine List.map_congr_left fun p hp => ?_
    obtain ⟨-, e⟩ := hLs p hp
    rw [Function.comp_apply, ← e]
  have hhead : times.head? = some 0 := by
    cases hS : samples W I tSec dt δ with
    | nil => rw [hS] at h2; simp at h2; omega
    | cons p S' =>
      have hp1 : p.1 = 0 := by
        rw [hS] at g1
        obtain ⟨t, ht⟩ := g1
        have h0 := congrArg List.head? ht
        simp only [List.map_cons, List.cons_append, List.head?_cons, Vehicle.tGrid, arange0] at h0
        cases hn : ⌈((tSec + dt) / W.planet.tau) / (dt / W.planet.tau)⌉₊ with
        | zero => rw [hn] at h0; simp at h0
        | succ n => rw [hn, List.range_succ_eq_map] at h0; simpa using h0
      obtain ⟨n, hn⟩ : ∃ n, out.index = n + 1 := ⟨out.index - 1, by omega⟩
      rw [htimes, hL, hS, hn, List.take_succ_cons, List.map_cons, List.head?_cons, hp1]
  obtain ⟨Tl, hTl⟩ : ∃ Tl, times.getLast? = some Tl := by
    cases e : times.getLast? with
    | none => rw [List.getLast?_eq_none_iff] at e; rw [e] at hhead; simp at hhead
    | some x => exact ⟨x, rfl⟩
  have hTm : Tl ∈ Set.Icc 0 T := by
    obtain ⟨p, hp, rfl⟩ := List.mem_map.mp (List.mem_of_getLast? hTl)
    exact (hLs p hp).1
  refine ⟨z, Tl, S, times, hTm.1, z0, nearFlight_mono hz le_rfl hTm.2,
    fun t ht => hRz t ⟨ht.1, ht.2.trans hTm.2⟩, ?_, hhead, hTl, ?_⟩
  · apply List.Pairwise.isChain
    have : times = ((samples W I tSec dt δ).map Prod.fst).take out.index := by rw [htimes, hL, List.map_take]
    rw [this]
    exact (List.Pairwise.sublist (List.take_sublist _ _) hsort).imp fun h => h.le
  · rw [← hmap]; exact hrec

/-- The first segment of a guided entry. -/
theorem guidedFlight_start {R : FState → Prop} {ε : ℝ} {P : Planet} (htau : 0 < P.tau) {x : InitState} {H : Hist}
    {W : Vehicle} {z : ℝ → FState} {T : ℝ} {S : Finset ℝ} {times : List ℝ} (veh : ℕ → Vehicle) (hv : veh 0 = W)
    (hT : 0 ≤ T) (z0 : samplePt P (0, z 0) = Spec.ptOf 0 x)
    (hz : NearFlight (fun _ s => W.EOM s 0 (0.0 * π / 180)) z 0 T S ε) (hR : ∀ t ∈ Set.Icc 0 T, R (z t))
    (hch : times.IsChain (· ≤ ·)) (hh : times.head? = some 0) (hl : times.getLast? = some T)
    (hrec : Spec.Records H (times.map fun t => samplePt P (t, z t))) :
    GuidedFlight R ε P x H [0.0] [0.0] veh z T := by
  have e0 : (0.0:ℝ) = 0 := by norm_num
  refine ⟨z0, hR, ⟨times, hch, hh, hl, hrec⟩, by simp [e0], rfl, ?_⟩
  intro k a b δ ha hb hδ
  obtain rfl : k = 0 := by
    by_contra hk
    obtain ⟨k, rfl⟩ := Nat.exists_eq_succ_of_ne_zero hk
    simp at hδ
  simp only [List.cons_append, List.nil_append, List.getElem?_cons_zero, Option.some.injEq, zero_add,
    List.getElem?_cons_succ] at ha hb hδ
  subst ha hb hδ
  have h60 : P.tau * T / 60 * 60 / P.tau = T := by field_simp
  rw [h60, hv, e0]
  refine ⟨le_rfl, by positivity, le_rfl, S, ?_⟩
  rw [e0] at hz
  have hz' : NearFlight (fun t s => W.EOM s t (0 * π / 180)) z 0 T S ε := hz
  simpa using hz'

/-- A further segment of a guided entry. -/
theorem guidedFlight_extend {R : FState → Prop} {ε : ℝ} {P : Planet} (hRP : 0 < P.RP) (hVr : 0 < P.Vref)
    (htau : 0 < P.tau) {x x' : InitState} {H H' : Hist} {tStep deltaDeg : List ℝ} {veh : ℕ → Vehicle} {y : ℝ → FState} {T : ℝ}
    (hg : GuidedFlight R ε P x H tStep deltaDeg veh y T) {J tEnd : ℝ} (hlast : H.last J = .ok x')
    (htE : H.t.getLast? = some tEnd) {W : Vehicle} (hv : (veh tStep.length).EOM = W.EOM) {δ : ℝ}
    {z : ℝ → FState} {T' : ℝ} {S : Finset ℝ} {times : List ℝ}
    (hT : 0 ≤ T') (z0 : samplePt P (0, z 0) = Spec.ptOf 0 x')
    (hz : NearFlight (fun _ s => W.EOM s 0 (δ * π / 180)) z 0 T' S ε) (hR : ∀ t ∈ Set.Icc 0 T', R (z t))
    (hch : times.IsChain (· ≤ ·)) (hh : times.head? = some 0) (hl : times.getLast? = some T')
    (hrec : Spec.Records H' (times.map fun t => samplePt P (t, z t))) :
    ∃ y', GuidedFlight R ε P x (H.extend H' tEnd) (tStep ++ [tEnd]) (deltaDeg ++ [δ]) veh y' (T + T') := by
  obtain ⟨times₀, c1, c2, c3, c4⟩ := hg.records
  have l60 : (60.0:ℝ) = 60 := by norm_num
  have hT0 : 0 ≤ T := by
    have : List.Pairwise (· ≤ ·) times₀ := List.isChain_iff_pairwise.mp c1
    cases times₀ with
    | nil => simp at c2
    | cons a l =>
      simp only [List.head?_cons, Option.some.injEq] at c2
      subst c2
      rcases List.mem_cons.mp (List.mem_of_getLast? c3) with h | h
      · exact h.ge
      · exact (List.pairwise_cons.mp this).1 _ h
  -- the junction
  have htE' : tEnd = P.tau * T / 60 := by
    rw [c4.t, List.map_map, List.getLast?_map, c3] at htE
    simp only [Option.map_some, Option.some.injEq, Function.comp_apply, samplePt, l60] at htE
    exact htE.symm
  have hjoin : z 0 = y T := by
    refine samplePt_inj hRP hVr (t := 0) (t' := T) ?_
    rw [z0]
    obtain ⟨l1, l2, l3, l4, l5, l6, l7, -⟩ := last_ok.mp hlast
    rw [c4.h, List.map_map, List.getLast?_map, c3] at l1
    rw [c4.theta, List.map_map, List.getLast?_map, c3] at l2
    rw [c4.phi, List.map_map, List.getLast?_map, c3] at l3
    rw [c4.v, List.map_map, List.getLast?_map, c3] at l4
    rw [c4.psi, List.map_map, List.getLast?_map, c3] at l5
    rw [c4.gamma, List.map_map, List.getLast?_map, c3] at l6
    rw [c4.drange, List.map_map, List.getLast?_map, c3] at l7
    simp only [Option.map_some, Option.some.injEq, Function.comp_apply] at l1 l2 l3 l4 l5 l6 l7
    simp only [Spec.ptOf, ← l1, ← l2, ← l3, ← l4, ← l5, ← l6, ← l7]
  set y' : ℝ → FState := fun t => if t ≤ T then y t else z (t - T) with hy'
  have e1 : ∀ t, t ≤ T → y' t = y t := fun t ht => by rw [hy']; simp only [ht, if_true]
  have e2 : ∀ t, T ≤ t → y' t = z (t - T) := fun t ht => by
    rcases ht.eq_or_lt with rfl | h
    · rw [e1 T le_rfl, sub_self, hjoin]
    · rw [hy']; simp only [not_le.mpr h, if_false]
  have htm₀ : ∀ t ∈ times₀, t ≤ T := by
    intro t ht
    have : List.Pairwise (· ≤ ·) times₀ := List.isChain_iff_pairwise.mp c1
    obtain ⟨i, hi, rfl⟩ := List.mem_iff_getElem.mp ht
    rw [List.getLast?_eq_getElem?, List.getElem?_eq_some_iff] at c3
    obtain ⟨hj, e⟩ := c3
    rw [← e]
    rcases Nat.lt_or_ge i (times₀.length - 1) with h | h
    · exact List.pairwise_iff_getElem.mp this _ _ _ _ h
    · have : i = times₀.length - 1 := by omega
      simp only [this, le_refl]
  have htm : ∀ t ∈ times, 0 ≤ t := by
    intro t ht
    have : List.Pairwise (· ≤ ·) times := List.isChain_iff_pairwise.mp hch
    cases times with
    | nil => simp at hh
    | cons a l =>
      simp only [List.head?_cons, Option.some.injEq] at hh
      subst hh
      rcases List.mem_cons.mp ht with h | h
      · exact h.ge
      · exact (List.pairwise_cons.mp this).1 _ h
  have htEn : P.tau * (T + T') / 60 = tEnd + P.tau * T' / 60 := by rw [htE']; ring
  have htT' : 0 ≤ P.tau * T' / 60 := by positivity
  refine ⟨y', ?_, ?_, ?_, ?_, ?_, ?_⟩
  · rw [e1 0 hT0]; exact hg.start
  · intro t ht
    rcases le_total t T with h | h
    · rw [e1 t h]; exact hg.within t ⟨ht.1, h⟩
    · rw [e2 t h]; exact hR _ ⟨by linarith, by linarith [ht.2]⟩
  · refine ⟨times₀ ++ times.map (T + ·), ?_, ?_, ?_, ?_⟩
    · rw [List.isChain_append]
      refine ⟨c1, ?_, ?_⟩
      · rw [List.isChain_map]
        exact List.IsChain.imp (fun a b h => by linarith) hch
      · intro p hp q hq
        rw [Option.mem_def, List.head?_map, hh] at hq
        rw [Option.mem_def, c3] at hp
        simp only [Option.map_some, Option.some.injEq, add_zero] at hp hq
        rw [← hp, ← hq]
    · rw [List.head?_append, c2]; rfl
    · rw [List.getLast?_append, List.getLast?_map, hl]; rfl
    · have k1 : ((times₀ ++ times.map (T + ·)).map fun t => samplePt P (t, y' t)) =
          (times₀.map fun t => samplePt P (t, y t)) ++
            (times.map fun t => samplePt P (t, z t)).map fun p => { p with t := p.t + tEnd } := by
        rw [List.map_append, List.map_map, List.map_map]
        congr 1
        · exact List.map_congr_left fun t ht => by rw [e1 t (htm₀ t ht)]
        · refine List.map_congr_left fun t ht => ?_
          simp only [Function.comp_apply]
          rw [e2 (T + t) (by linarith [htm t ht]), add_sub_cancel_left, htE']
          simp only [samplePt, l60, Spec.Pt.mk.injEq, and_true]
          ring
      rw [k1]
      constructor <;> simp [Hist.extend, c4.t, c4.h, c4.theta, c4.phi, c4.v, c4.psi, c4.gamma, c4.drange, c4.accNetG,
        c4.dynPresAtm, c4.stagPresAtm, c4.qStagTotal, c4.heatload, hrec.t, hrec.h, hrec.theta, hrec.phi, hrec.v, hrec.psi,
        hrec.gamma, hrec.drange, hrec.accNetG, hrec.dynPresAtm, hrec.stagPresAtm, hrec.qStagTotal, hrec.heatload,
        Function.comp_def]
  · rw [List.head?_append, hg.first]; rfl
  · simp [hg.cycles]
  · intro k a b δ' ha hb hδ
    rw [htEn]
    have hlen := hg.cycles
    rcases Nat.lt_or_ge k tStep.length with hk | hk
    · have ha' : (tStep ++ [P.tau * T / 60])[k]? = some a := by
        rw [← ha, List.getElem?_append_left (l₁ := tStep ++ [tEnd]) (by simp; omega), ← htE']
      have hb' : (tStep ++ [P.tau * T / 60])[k + 1]? = some b := by
        rw [← hb, List.getElem?_append_left (l₁ := tStep ++ [tEnd]) (by simp; omega), ← htE']
      have hδ' : deltaDeg[k]? = some δ' := by
        rw [← hδ, List.getElem?_append_left (by omega)]
      obtain ⟨a1, a2, a3, S', a4⟩ := hg.flight k a b δ' ha' hb' hδ'
      refine ⟨a1, a2, by rw [← htE'] at a3; linarith, S', nearFlight_congr a4 fun t ht => e1 t (ht.2.trans ?_)⟩
      rw [div_le_iff₀ htau]
      linarith
    · obtain rfl : k = tStep.length := by
        have := (List.getElem?_eq_some_iff.mp hδ).1
        rw [List.length_append, hlen, List.length_singleton] at this
        omega
      have ea : tEnd = a := by
        rw [List.getElem?_append_left (by simp), List.getElem?_append_right le_rfl] at ha
        simpa using ha
      have eb : P.tau * (T + T') / 60 = b := by
        rw [List.getElem?_append_right (by simp)] at hb
        simpa using hb
      have ed : δ = δ' := by
        rw [List.getElem?_append_right (by omega), hlen] at hδ
        simpa using hδ
      subst ea eb ed
      have hta : tEnd * 60 / P.tau = T := by rw [htE']; field_simp
      have htb : P.tau * (T + T') / 60 * 60 / P.tau = T + T' := by field_simp
      refine ⟨by rw [htE']; positivity, by rw [htEn]; linarith, htEn.le, S.image (· + T), ?_⟩
      rw [hta, htb]
      refine nearFlight_congr (y := fun t => z (t - T)) ?_ fun t ht => e2 t ht.1
      have := nearFlight_shift T hz
      rw [hv]
      exact this

/-- Only the vehicles of the recorded cycles matter. -/
theorem guidedFlight_veh {R : FState → Prop} {ε : ℝ} {P : Planet} {x : InitState} {H : Hist} {tStep deltaDeg : List ℝ}
    {veh veh' : ℕ → Vehicle} {y : ℝ → FState} {T : ℝ} (hg : GuidedFlight R ε P x H tStep deltaDeg veh y T)
    (h : ∀ k < tStep.length, (veh' k).EOM = (veh k).EOM) : GuidedFlight R ε P x H tStep deltaDeg veh' y T := by
  refine ⟨hg.start, hg.within, hg.records, hg.first, hg.cycles, fun k a b δ ha hb hδ => ?_⟩
  obtain ⟨a1, a2, a3, S, a4⟩ := hg.flight k a b δ ha hb hδ
  have hk := (List.getElem?_eq_some_iff.mp hδ).1
  rw [hg.cycles] at hk
  refine ⟨a1, a2, a3, S, ?_⟩
  rw [h k hk]
  exact a4

/-! ### Guided entries -/

theorem getElem?_append_some {α : Type} {l l' : List α} {i : ℕ} {a : α} (h : l[i]? = some a) : (l ++ l')[i]? = some a := by
  rw [List.getElem?_append_left (List.getElem?_eq_some_iff.mp h).1, h]

theorem startsIn_extend {a b : Hist} {tEnd : ℝ} {x : InitState} (h : StartsIn a x) : StartsIn (a.extend b tEnd) x := by
  obtain ⟨i, h1, h2, h3, h4, h5, h6, h7⟩ := h
  exact ⟨i, getElem?_append_some h1, getElem?_append_some h2, getElem?_append_some h3, getElem?_append_some h4,
    getElem?_append_some h5, getElem?_append_some h6, getElem?_append_some h7⟩

/-- The last recorded state is a recorded state. -/
theorem startsIn_last {H : Hist} {pts : List Spec.Pt} (hr : Spec.Records H pts) {J : ℝ} {x : InitState}
    (h : H.last J = .ok x) : StartsIn H x := by
  obtain ⟨l1, l2, l3, l4, l5, l6, l7, -⟩ := last_ok.mp h
  rw [List.getLast?_eq_getElem?] at l1 l2 l3 l4 l5 l6 l7
  have n1 : H.h.length = pts.length := by rw [hr.h, List.length_map]
  have n2 : H.theta.length = pts.length := by rw [hr.theta, List.length_map]
  have n3 : H.phi.length = pts.length := by rw [hr.phi, List.length_map]
  have n4 : H.v.length = pts.length := by rw [hr.v, List.length_map]
  have n5 : H.psi.length = pts.length := by rw [hr.psi, List.length_map]
  have n6 : H.gamma.length = pts.length := by rw [hr.gamma, List.length_map]
  have n7 : H.drange.length = pts.length := by rw [hr.drange, List.length_map]
  rw [n1] at l1; rw [n2] at l2; rw [n3] at l3; rw [n4] at l4; rw [n5] at l5; rw [n6] at l6; rw [n7] at l7
  exact ⟨pts.length - 1, l1, l2, l3, l4, l5, l6, l7⟩

/-- Whether the solver follows a flight depends on the vehicle only through its motion and its initial state. -/
theorem followsFlight_congr {R : FState → Prop} {ε : ℝ} {W W' : Vehicle} {I : Integrator} {tSec dt δ : ℝ}
    (h1 : W.EOM = W'.EOM) (h2 : W.planet = W'.planet) (h3 : W.init = W'.init) (h : FollowsFlight R ε W I tSec dt δ) :
    FollowsFlight R ε W' I tSec dt δ := by
  unfold FollowsFlight samples at h ⊢
  rw [h1, h2, h3] at h
  exact h

/-- C111 for the general shape of a guided entry. -/
theorem guided_flight (name : String) (P : Planet) (hP : Planet.init name = .ok P) (G : GuideParams) (FE : EntryPhase)
    (FX : ExitPhase) (mode : ScipyMode) (I : Integrator) (hI : SolveIvpLike I) (fuel : ℕ) (V B : Vehicle) (hV : V.planet = P)
    (hB : B.planet = P) (hdotref : Option (List (Option ℝ))) (prep : Vehicle → Vehicle)
    (hprep : ∀ W, W.EOM = V.EOM → W.planet = P → (∃ x, W = V.setInitialState x ∨ W = V) →
      (prep W).EOM = B.EOM ∧ (prep W).planet = P)
    (tsE tsX dt maxTime : ℝ) (hdt : 0 < dt) (R : FState → Prop) (ε : ℝ)
    (hFE : ∀ W t δ, FE.prop W t dt δ = W.propogateEntry mode I t dt δ ∨ FE.prop W t dt δ = W.propogateEntry2 mode I t dt δ)
    (hFX : ∀ W t δ, FX.prop W t dt δ = W.propogateEntry mode I t dt δ ∨ FX.prop W t dt δ = W.propogateEntry2 mode I t dt δ)
    (o : GuidedOut) (ho : Vehicle.guided G FE FX mode fuel V hdotref prep tsE tsX dt maxTime = some (.ok o))
    (hfly : ∀ x, StartsIn o.fin.hist x → ∀ δ ∈ o.fin.deltaDeg,
      FollowsFlight R ε (V.setInitialState x) I 1 dt δ ∧ FollowsFlight R ε (V.setInitialState x) I tsE dt δ ∧
      FollowsFlight R ε (B.setInitialState x) I tsX dt δ) :
    ∃ (y : ℝ → FState) (T : ℝ) (n : ℕ), 1 ≤ n ∧ n ≤ o.fin.tStep.length ∧
      GuidedFlight R ε P V.init o.fin.hist o.fin.tStep o.fin.deltaDeg (fun k => if k < n then V else B) y T := by
  obtain ⟨_, hRP, _, _, _, _, _, _, hVr, htau, _⟩ := C01_planet_consistent name P hP
  obtain ⟨s0, s, e, J, hr, h1, h2, h3, h4, h5⟩ := guided_inv ho
  obtain ⟨out, v, hout, _, rfl⟩ := entryStart_inv h1
  have e1 : (1.0:ℝ) = 1 := by norm_num
  rw [e1] at hout
  -- what is needed of the solver, for the history and the bank angles so far
  set Good : Hist → List ℝ → Prop := fun H D => ∀ x, StartsIn H x → ∀ δ ∈ D,
      FollowsFlight R ε (V.setInitialState x) I 1 dt δ ∧ FollowsFlight R ε (V.setInitialState x) I tsE dt δ ∧
      FollowsFlight R ε (B.setInitialState x) I tsX dt δ with hGood
  have prop_or : ∀ {F : Vehicle → ℝ → ℝ → ℝ → Py PropOut} {W : Vehicle} {t δ : ℝ} {out : PropOut},
      (F W t dt δ = W.propogateEntry mode I t dt δ ∨ F W t dt δ = W.propogateEntry2 mode I t dt δ) →
      F W t dt δ = .ok out → W.propogateEntry mode I t dt δ = .ok out ∨ W.propogateEntry2 mode I t dt δ = .ok out := by
    intro F W t δ out h h'
    rcases h with h | h
    · left; rw [← h, h']
    · right; rw [← h, h']
  have a := entryLoop_invariant (fun s => (s.V.EOM = V.EOM ∧ s.V.planet = P ∧ (∃ x, s.V = V.setInitialState x ∨ s.V = V)) ∧
      1 ≤ s.tStep.length ∧ (∃ pts, Spec.Records s.hist pts) ∧ (Good s.hist s.deltaDeg → ∃ (y : ℝ → FState) (T : ℝ),
        GuidedFlight R ε P V.init s.hist s.tStep s.deltaDeg (fun _ => V) y T)) (by
    rintro s s' b ⟨⟨hs1, hs2, x₀, hs3⟩, hlen, ⟨pts, hpts⟩, hs4⟩ hcy
    obtain ⟨J, x, delta, qref, out, tEnd, J', y, hd, tOld, an, ad, fn, apo, -, hx, -, hprop, htE, -, -, -, -, -, -, -, -, rfl, -⟩ :=
      entryCycle_inv hcy
    have hinit : Planet.init name = .ok (s.V.setInitialState x).planet := by
      change Planet.init name = .ok s.V.planet
      rw [hs2]; exact hP
    have hpe := prop_or (hFE _ _ _) hprop
    obtain ⟨pb, hrb, -⟩ := segment_continuous name _ hinit mode I hI _ _ _ hdt out hpe
    refine ⟨⟨hs1, hs2, x, Or.inl ?_⟩, by simp, ⟨pts ++ pb.map (fun p => { p with t := p.t + tEnd }), ?_⟩, fun hgood => ?_⟩
    · rcases hs3 with h | h <;> simp only [h, Vehicle.setInitialState]
    · constructor <;> simp [Hist.extend, hpts.t, hpts.h, hpts.theta, hpts.phi, hpts.v, hpts.psi, hpts.gamma, hpts.drange,
        hpts.accNetG, hpts.dynPresAtm, hpts.stagPresAtm, hpts.qStagTotal, hpts.heatload, hrb.t, hrb.h, hrb.theta, hrb.phi,
        hrb.v, hrb.psi, hrb.gamma, hrb.drange, hrb.accNetG, hrb.dynPresAtm, hrb.stagPresAtm, hrb.qStagTotal, hrb.heatload,
        Function.comp_def]
    · obtain ⟨yc, T, hg⟩ := hs4 fun x hx δ hδ => hgood x (startsIn_extend hx) δ (List.mem_append_left _ hδ)
      have hff := (hgood x (startsIn_extend (startsIn_last hpts hx)) delta (by simp)).2.1
      have hff' : FollowsFlight R ε (s.V.setInitialState x) I tsE dt delta :=
        followsFlight_congr (W := V.setInitialState x) (show V.EOM = s.V.EOM from hs1.symm) (show V.planet = s.V.planet by rw [hs2, hV]) rfl hff
      obtain ⟨z, T', S, times, z1, z2, z3, z4, z5, z6, z7, z8⟩ := segment_flight name _ hinit mode I hI _ _ _ hdt out R ε hpe hff'
      rw [show (s.V.setInitialState x).planet = P from hs2] at z2 z8
      obtain ⟨y', hy'⟩ := guidedFlight_extend hRP hVr htau hg hx htE (W := s.V.setInitialState x) (show V.EOM = s.V.EOM from hs1.symm)
        z1 z2 z3 z4 z5 z6 z7 z8
      exact ⟨y', _, hy'⟩) fuel _ s (by
    have hinit : Planet.init name = .ok V.planet := by rw [hV]; exact hP
    have hpe := prop_or (hFE _ _ _) hout
    obtain ⟨pb, hrb, cb⟩ := segment_continuous name _ hinit mode I hI _ _ _ hdt out hpe
    refine ⟨⟨rfl, hV, V.init, Or.inr rfl⟩, by simp, ⟨pb, hrb⟩, fun hgood => ?_⟩
    have hst : StartsIn (Hist.ofOut out) V.init := by
      have c0 := cb.1
      rw [List.head?_eq_getElem?] at c0
      refine ⟨0, ?_, ?_, ?_, ?_, ?_, ?_, ?_⟩
      · rw [hrb.h, List.getElem?_map, c0]; rfl
      · rw [hrb.theta, List.getElem?_map, c0]; rfl
      · rw [hrb.phi, List.getElem?_map, c0]; rfl
      · rw [hrb.v, List.getElem?_map, c0]; rfl
      · rw [hrb.psi, List.getElem?_map, c0]; rfl
      · rw [hrb.gamma, List.getElem?_map, c0]; rfl
      · rw [hrb.drange, List.getElem?_map, c0]; rfl
    have hff := (hgood V.init hst 0.0 (by simp)).1
    have hff' : FollowsFlight R ε V I 1 dt 0.0 := followsFlight_congr rfl rfl rfl hff
    obtain ⟨z, T', S, times, z1, z2, z3, z4, z5, z6, z7, z8⟩ := segment_flight name _ hinit mode I hI _ _ _ hdt out R ε hpe hff'
    rw [hV] at z2 z8
    exact ⟨z, T', guidedFlight_start htau (fun _ => V) rfl z1 z2 z3 z4 z5 z6 z7 z8⟩) h2
  obtain ⟨⟨a1, a2, a3⟩, a4, ⟨pts, a5⟩, a6⟩ := a
  obtain ⟨hk, p, _, hp, _, _, rfl⟩ := exitStart_inv h3
  obtain ⟨hp1, hp2⟩ := hprep s.V a1 a2 a3
  set n := s.tStep.length with hn
  have b := exitLoop_invariant (fun s => (s.V.EOM = B.EOM ∧ s.V.planet = P) ∧ n ≤ s.tStep.length ∧
      (∃ pts, Spec.Records s.hist pts) ∧ (Good s.hist s.deltaDeg → ∃ (y : ℝ → FState) (T : ℝ),
        GuidedFlight R ε P V.init s.hist s.tStep s.deltaDeg (fun k => if k < n then V else B) y T)) (by
    rintro s s' b ⟨⟨hs1, hs2⟩, hlen, ⟨pts, hpts⟩, hs4⟩ hcy
    obtain ⟨x, out, tEnd, y, hd, tOld, hx, hprop, htE, -, -, -, rfl, -⟩ := exitCycle_inv hcy
    have hinit : Planet.init name = .ok (s.V.setInitialState x).planet := by
      change Planet.init name = .ok s.V.planet
      rw [hs2]; exact hP
    have hpe := prop_or (hFX _ _ _) hprop
    obtain ⟨pb, hrb, -⟩ := segment_continuous name _ hinit mode I hI _ _ _ hdt out hpe
    refine ⟨⟨hs1, hs2⟩, by simp; omega, ⟨pts ++ pb.map (fun p => { p with t := p.t + tEnd }), ?_⟩, fun hgood => ?_⟩
    · constructor <;> simp [Hist.extend, hpts.t, hpts.h, hpts.theta, hpts.phi, hpts.v, hpts.psi, hpts.gamma, hpts.drange,
        hpts.accNetG, hpts.dynPresAtm, hpts.stagPresAtm, hpts.qStagTotal, hpts.heatload, hrb.t, hrb.h, hrb.theta, hrb.phi,
        hrb.v, hrb.psi, hrb.gamma, hrb.drange, hrb.accNetG, hrb.dynPresAtm, hrb.stagPresAtm, hrb.qStagTotal, hrb.heatload,
        Function.comp_def]
    · obtain ⟨yc, T, hg⟩ := hs4 fun x hx δ hδ => hgood x (startsIn_extend hx) δ (List.mem_append_left _ hδ)
      have hff := (hgood x (startsIn_extend (startsIn_last hpts hx)) (FX.command s.deltaIni tsX) (by simp)).2.2
      have hff' : FollowsFlight R ε (s.V.setInitialState x) I tsX dt (FX.command s.deltaIni tsX) :=
        followsFlight_congr (W := B.setInitialState x) (show B.EOM = s.V.EOM from hs1.symm) (show B.planet = s.V.planet by rw [hs2, hB]) rfl hff
      obtain ⟨z, T', S, times, z1, z2, z3, z4, z5, z6, z7, z8⟩ := segment_flight name _ hinit mode I hI _ _ _ hdt out R ε hpe hff'
      rw [show (s.V.setInitialState x).planet = P from hs2] at z2 z8
      obtain ⟨y', hy'⟩ := guidedFlight_extend hRP hVr htau hg hx htE (W := s.V.setInitialState x)
        (show (if s.tStep.length < n then V else B).EOM = s.V.EOM by rw [if_neg (by omega), hs1])
        z1 z2 z3 z4 z5 z6 z7 z8
      exact ⟨y', _, hy'⟩) fuel _ o.fin (by
    refine ⟨⟨hp1, hp2⟩, le_rfl, ⟨pts, a5⟩, fun hgood => ?_⟩
    obtain ⟨y, T, hg⟩ := a6 hgood
    exact ⟨y, T, guidedFlight_veh hg fun k hk => by rw [if_pos hk]⟩) h4
  obtain ⟨-, b2, -, b4⟩ := b
  obtain ⟨y, T, hy⟩ := b4 hfly
  exact ⟨y, T, n, a4, b2, hy⟩

/-- C111: a guided entry with lift (either function; the solver `I` flies the segments) is one flight.  Suppose the solver,
started in any state of the recorded trajectory at any of the recorded bank angles, returns points of a curve that follows the
equations of motion with a defect of at most `ε` (zero for an exact solver).  Then all recorded points lie on one continuous
curve from the entry state, which between the recorded times of successive guidance cycles follows the equations of motion at
the recorded bank angle, with the same defect. -/
theorem C111_lift_one_flight (name : String) (G : GuideParams) (mode : ScipyMode) (I : Integrator) (hI : SolveIvpLike I)
    (fuel : ℕ) (V : Vehicle) (hP : Planet.init name = .ok V.planet) (hdotref : Option (List (Option ℝ)))
    (ts dt maxTime : ℝ) (hdt : 0 < dt) (R : FState → Prop) (ε : ℝ) (o : GuidedOut)
    (ho : Vehicle.propogateGuidedEntry G mode I fuel V hdotref ts dt maxTime = some (.ok o) ∨
      ∃ I₀, Vehicle.propogateGuidedEntry2 G mode I₀ I fuel V hdotref ts dt maxTime = some (.ok o))
    (hfly : ∀ x, StartsIn o.fin.hist x → ∀ δ ∈ o.fin.deltaDeg,
      FollowsFlight R ε (V.setInitialState x) I 1 dt δ ∧ FollowsFlight R ε (V.setInitialState x) I ts dt δ) :
    ∃ (y : ℝ → FState) (T : ℝ), GuidedFlight R ε V.planet V.init o.fin.hist o.fin.tStep o.fin.deltaDeg (fun _ => V) y T := by
  have key : ∀ {FE FX}, (∀ W t δ, FE.prop W t dt δ = W.propogateEntry mode I t dt δ ∨
        FE.prop W t dt δ = W.propogateEntry2 mode I t dt δ) →
      (∀ W t δ, FX.prop W t dt δ = W.propogateEntry mode I t dt δ ∨ FX.prop W t dt δ = W.propogateEntry2 mode I t dt δ) →
      Vehicle.guided G FE FX mode fuel V hdotref (fun W => W) ts ts dt maxTime = some (.ok o) →
      ∃ (y : ℝ → FState) (T : ℝ), GuidedFlight R ε V.planet V.init o.fin.hist o.fin.tStep o.fin.deltaDeg (fun _ => V) y T := by
    intro FE FX h1 h2 h
    obtain ⟨y, T, n, -, -, hy⟩ := guided_flight name V.planet hP G FE FX mode I hI fuel V V rfl rfl hdotref _
      (fun W h h' _ => ⟨h, h'⟩) ts ts dt maxTime hdt R ε h1 h2 o h
      (fun x hx δ hδ => ⟨(hfly x hx δ hδ).1, (hfly x hx δ hδ).2, (hfly x hx δ hδ).2⟩)
    exact ⟨y, T, guidedFlight_veh hy fun k _ => by simp⟩
  rcases ho with ho | ⟨I₀, ho⟩
  · exact key (fun _ _ _ => Or.inl rfl) (fun _ _ _ => Or.inl rfl) ho
  · exact key (fun _ _ _ => Or.inr rfl) (fun _ _ _ => Or.inr rfl) ho

/-- C111: a drag-modulated guided entry is one flight: as `C111_lift_one_flight`, the first cycles with the ballistic
coefficient `beta1`, the others, after jettison, with `beta1 · betaRatio`. -/
theorem C111_drag_one_flight (name : String) (G : GuideParams) (mode : ScipyMode) (I : Integrator) (hI : SolveIvpLike I)
    (fuel : ℕ) (V : Vehicle) (hP : Planet.init name = .ok V.planet) (hdotref : Option (List (Option ℝ)))
    (tsE tsX dt maxTime : ℝ) (hdt : 0 < dt) (R : FState → Prop) (ε : ℝ) (o : GuidedOut)
    (ho : Vehicle.propogateGuidedEntryD G mode I fuel V hdotref tsE tsX dt maxTime = some (.ok o) ∨
      Vehicle.propogateGuidedEntryD2 G mode I fuel V hdotref tsE tsX dt maxTime = some (.ok o))
    (hfly : ∀ x, StartsIn o.fin.hist x → ∀ δ ∈ o.fin.deltaDeg,
      FollowsFlight R ε ((V.setBeta G.beta1).setInitialState x) I 1 dt δ ∧
      FollowsFlight R ε ((V.setBeta G.beta1).setInitialState x) I tsE dt δ ∧
      FollowsFlight R ε ((V.setBeta (G.beta1 * G.betaRatio)).setInitialState x) I tsX dt δ) :
    ∃ (y : ℝ → FState) (T : ℝ) (n : ℕ), 1 ≤ n ∧ n ≤ o.fin.tStep.length ∧
      GuidedFlight R ε V.planet V.init o.fin.hist o.fin.tStep o.fin.deltaDeg
        (fun k => if k < n then V.setBeta G.beta1 else V.setBeta (G.beta1 * G.betaRatio)) y T := by
  have hprep : ∀ W : Vehicle, W.EOM = (V.setBeta G.beta1).EOM → W.planet = V.planet →
      (∃ x, W = (V.setBeta G.beta1).setInitialState x ∨ W = V.setBeta G.beta1) →
      (W.setBeta (G.beta1 * G.betaRatio)).EOM = (V.setBeta (G.beta1 * G.betaRatio)).EOM ∧
        (W.setBeta (G.beta1 * G.betaRatio)).planet = V.planet := by
    rintro W - h ⟨x, rfl | rfl⟩
    · exact ⟨rfl, rfl⟩
    · exact ⟨rfl, rfl⟩
  rcases ho with ho | ho
  · exact guided_flight name V.planet hP G _ _ mode I hI fuel (V.setBeta G.beta1) (V.setBeta (G.beta1 * G.betaRatio)) rfl rfl
      hdotref _ hprep tsE tsX dt maxTime hdt R ε (fun _ _ _ => Or.inl rfl) (fun _ _ _ => Or.inl rfl) o ho hfly
  · exact guided_flight name V.planet hP G _ _ mode I hI fuel (V.setBeta G.beta1) (V.setBeta (G.beta1 * G.betaRatio)) rfl rfl
      hdotref _ hprep tsE tsX dt maxTime hdt R ε (fun _ _ _ => Or.inr rfl) (fun _ _ _ => Or.inr rfl) o ho hfly

/-! ### Energy -/

theorem nearFlight_exact {F : ℝ → FState → FState} {y : ℝ → FState} {a b : ℝ} {S : Finset ℝ}
    (hy : NearFlight F y a b S 0) : SwitchedFlight F y a b S := by
  refine ⟨hy.r, hy.theta, hy.phi, hy.v, hy.psi, hy.gamma, hy.drange, fun t ht hS => ?_⟩
  obtain ⟨w, hw, n⟩ := hy.rates t ht hS
  have e : w = F t (y t) := by
    have k : ∀ p q : ℝ, |p - q| ≤ 0 → p = q := fun p q h => sub_eq_zero.mp (abs_nonpos_iff.mp h)
    ext
    · exact k _ _ n.r
    · exact k _ _ n.theta
    · exact k _ _ n.phi
    · exact k _ _ n.v
    · exact k _ _ n.psi
    · exact k _ _ n.gamma
    · exact k _ _ n.drange
  subst e
  exact ⟨hw.r, hw.theta, hw.phi, hw.v, hw.psi, hw.gamma, hw.drange⟩

/-- Specification: the Jacobi energy (in units of the planet) of a recorded point with altitude `h` (km), latitude `φ`
(degrees) and speed `v` (km/s). -/
def recordedEnergy (P : Planet) (h φ v : ℝ) : ℝ :=
  jacobi P.J2 P.J3 P.OMEGAbar (1 + h * 1000 / P.RP) (φ * π / 180) (v * 1000 / P.Vref)

/-- Specification: the energy never increases along a recorded trajectory. -/
def EnergyFalls (P : Planet) (H : Hist) : Prop :=
  ∀ (i j : ℕ) (h φ v h' φ' v' : ℝ), i ≤ j → H.h[i]? = some h → H.phi[i]? = some φ → H.v[i]? = some v →
    H.h[j]? = some h' → H.phi[j]? = some φ' → H.v[j]? = some v' →
    recordedEnergy P h' φ' v' ≤ recordedEnergy P h φ v

theorem recordedEnergy_sample {P : Planet} (hR : 0 < P.RP) (hV : 0 < P.Vref) (t : ℝ) (s : FState) :
    recordedEnergy P (samplePt P (t, s)).h (samplePt P (t, s)).phi (samplePt P (t, s)).v =
      jacobi P.J2 P.J3 P.OMEGAbar s.r s.phi s.v := by
  have l6 : (1e-3:ℝ) = 1 / 1000 := by norm_num
  have l7 : (1.0e-3:ℝ) = 1 / 1000 := by norm_num
  have hpi := pi_pos
  simp only [recordedEnergy, samplePt, l6, l7]
  congr 1
  · field_simp; ring
  · field_simp
  · field_simp

/-- With a density, a drag coefficient and an area that are not negative, drag does not accelerate. -/
theorem a_sbar_nonpos (name : String) (W : Vehicle) (hP : Planet.init name = .ok W.planet)
    (hatm : ∀ h, 0 ≤ h → h ≤ W.planet.hThres → 0 ≤ W.atm.densityInt h) (hm : 0 < W.mbar) (hA : 0 ≤ W.Abar)
    (hCD : 0 ≤ W.CD) (hf : ∀ M, 0 ≤ W.CDMach M) (r theta phi v delta : ℝ) : W.a_sbar r theta phi v delta ≤ 0 := by
  obtain ⟨_, _, _, hrho, _⟩ := C01_planet_consistent name _ hP
  have h1 := (C03_density_nonneg name W.planet hP W.atm hatm (r * W.planet.RP) theta phi).1
  have hb : 0 ≤ W.planet.rhobar W.atm r theta phi := div_nonneg h1 hrho.le
  have hD : 0 ≤ W.Dbar r theta phi v := by
    unfold Vehicle.Dbar
    have h2 : 0 ≤ (if W.userDefinedCDMach then W.CDMach (W.machScalar (r * W.planet.RP) (v * W.planet.Vref)) else W.CD) := by
      split_ifs
      · exact hf _
      · exact hCD
    have h3 : (0:ℝ) ≤ 0.5 := by norm_num
    positivity
  unfold Vehicle.a_sbar
  refine div_nonpos_of_nonpos_of_nonneg ?_ hm.le
  rw [show (0.0:ℝ) = 0 by norm_num, zero_mul]
  linarith

/-- What never increases during any of the cycles never increases during the whole guided flight. -/
theorem guidedFlight_pieces {R : FState → Prop} {ε : ℝ} {P : Planet} (htau : 0 < P.tau) {x : InitState}
    {H : Hist} {tStep deltaDeg : List ℝ} {veh : ℕ → Vehicle} {y : ℝ → FState} {T : ℝ}
    (hg : GuidedFlight R ε P x H tStep deltaDeg veh y T) (E : ℝ → ℝ)
    (hE : ∀ (k : ℕ) (a b δ : ℝ) (S : Finset ℝ), 0 ≤ a → a ≤ b → b ≤ T → (∀ t ∈ Set.Icc a b, R (y t)) →
      NearFlight (fun t s => (veh k).EOM s t (δ * π / 180)) y a b S ε → AntitoneOn E (Set.Icc a b)) :
    AntitoneOn E (Set.Icc 0 T) := by
  have hlen := hg.cycles
  have pieces : ∀ (k : ℕ) (b : ℝ), (tStep ++ [P.tau * T / 60])[k]? = some b → AntitoneOn E (Set.Icc 0 (b * 60 / P.tau)) := by
    intro k
    induction k with
    | zero =>
      intro b hb
      have : b = 0 := by
        have h0 := hg.first
        rw [List.head?_eq_getElem?] at h0
        rw [getElem?_append_some h0] at hb
        exact (Option.some.inj hb).symm
      subst this
      intro s hs t ht _
      simp only [zero_mul, zero_div, Set.Icc_self, Set.mem_singleton_iff] at hs ht
      rw [hs, ht]
    | succ k ih =>
      intro b hb
      have hk := (List.getElem?_eq_some_iff.mp hb).1
      simp only [List.length_append, List.length_cons, List.length_nil] at hk
      obtain ⟨a, ha'⟩ : ∃ a, (tStep ++ [P.tau * T / 60])[k]? = some a :=
        ⟨_, List.getElem?_eq_getElem (by simp; omega)⟩
      obtain ⟨δ, hδ⟩ : ∃ δ, deltaDeg[k]? = some δ := ⟨_, List.getElem?_eq_getElem (by omega)⟩
      obtain ⟨a1, a2, a3, S, a4⟩ := hg.flight k a b δ ha' hb hδ
      have hab : a * 60 / P.tau ≤ b * 60 / P.tau := by gcongr
      have h0a : 0 ≤ a * 60 / P.tau := by positivity
      have hbT : b * 60 / P.tau ≤ T := by rw [div_le_iff₀ htau]; linarith
      have piece := hE k _ _ δ S h0a hab hbT (fun t ht => hg.within t ⟨h0a.trans ht.1, ht.2.trans hbT⟩) a4
      have := (ih a ha').union_right piece (isGreatest_Icc h0a) (isLeast_Icc hab)
      rwa [Set.Icc_union_Icc_eq_Icc h0a hab] at this
  have := pieces tStep.length (P.tau * T / 60) (by simp)
  rwa [show P.tau * T / 60 * 60 / P.tau = T by field_simp] at this

/-- The recorded entries are points of the flight, in order of time. -/
theorem guidedFlight_entries {R : FState → Prop} {ε : ℝ} {P : Planet} {x : InitState}
    {H : Hist} {tStep deltaDeg : List ℝ} {veh : ℕ → Vehicle} {y : ℝ → FState} {T : ℝ}
    (hg : GuidedFlight R ε P x H tStep deltaDeg veh y T) (i j : ℕ) (h φ v h' φ' v' : ℝ) (hij : i ≤ j)
    (e1 : H.h[i]? = some h) (e2 : H.phi[i]? = some φ) (e3 : H.v[i]? = some v)
    (f1 : H.h[j]? = some h') (f2 : H.phi[j]? = some φ') (f3 : H.v[j]? = some v') :
    ∃ t ∈ Set.Icc 0 T, ∃ t' ∈ Set.Icc 0 T, t ≤ t' ∧
      H.t[i]? = some (samplePt P (t, y t)).t ∧ H.t[j]? = some (samplePt P (t', y t')).t ∧
      (h = (samplePt P (t, y t)).h ∧ φ = (samplePt P (t, y t)).phi ∧ v = (samplePt P (t, y t)).v) ∧
      h' = (samplePt P (t', y t')).h ∧ φ' = (samplePt P (t', y t')).phi ∧ v' = (samplePt P (t', y t')).v := by
  obtain ⟨times, hch, hh, hl, hrec⟩ := hg.records
  have hpw : times.Pairwise (· ≤ ·) := List.isChain_iff_pairwise.mp hch
  have point : ∀ (i : ℕ) (h φ v : ℝ), H.h[i]? = some h → H.phi[i]? = some φ → H.v[i]? = some v →
      ∃ t, times[i]? = some t ∧ H.t[i]? = some (samplePt P (t, y t)).t ∧
        h = (samplePt P (t, y t)).h ∧ φ = (samplePt P (t, y t)).phi ∧ v = (samplePt P (t, y t)).v := by
    intro i h φ v e1 e2 e3
    rw [hrec.h, List.getElem?_map, List.getElem?_map] at e1
    rw [hrec.phi, List.getElem?_map, List.getElem?_map] at e2
    rw [hrec.v, List.getElem?_map, List.getElem?_map] at e3
    cases ht : times[i]? with
    | none => rw [ht] at e1; simp at e1
    | some t =>
      rw [ht] at e1 e2 e3
      simp only [Option.map_some, Option.some.injEq] at e1 e2 e3
      refine ⟨t, rfl, ?_, e1.symm, e2.symm, e3.symm⟩
      rw [hrec.t, List.getElem?_map, List.getElem?_map, ht]
      rfl
  obtain ⟨t, ht, tt, et⟩ := point i h φ v e1 e2 e3
  obtain ⟨t', ht', tt', et'⟩ := point j h' φ' v' f1 f2 f3
  obtain ⟨hi, ei⟩ := List.getElem?_eq_some_iff.mp ht
  obtain ⟨hj, ej⟩ := List.getElem?_eq_some_iff.mp ht'
  have hle : t ≤ t' := by
    rcases hij.eq_or_lt with rfl | hlt
    · rw [ht] at ht'; exact (Option.some.inj ht').le
    · rw [← ei, ← ej]; exact List.pairwise_iff_getElem.mp hpw i j hi hj hlt
  have hmem : ∀ s ∈ times, s ∈ Set.Icc 0 T := by
    intro s hs
    obtain ⟨n, hn, rfl⟩ := List.getElem_of_mem hs
    have h0 : times[0]'(by omega) = 0 := by
      rw [List.head?_eq_getElem?] at hh
      exact (List.getElem?_eq_some_iff.mp hh).2
    have hT : times[times.length - 1]'(by omega) = T := by
      rw [List.getLast?_eq_getElem?] at hl
      exact (List.getElem?_eq_some_iff.mp hl).2
    constructor
    · rcases Nat.eq_zero_or_pos n with rfl | hp
      · rw [h0]
      · have := List.pairwise_iff_getElem.mp hpw 0 n (by omega) hn hp
        rwa [h0] at this
    · rcases Nat.lt_or_ge n (times.length - 1) with hp | hp
      · have := List.pairwise_iff_getElem.mp hpw n (times.length - 1) hn (by omega) hp
        rwa [hT] at this
      · have : n = times.length - 1 := by omega
        subst this
        rw [hT]
  exact ⟨t, hmem t (List.mem_of_getElem? ht), t', hmem t' (List.mem_of_getElem? ht'), hle, tt, tt', et, et'⟩

/-- The recorded points of a guided flight are points of the curve, in the order of time. -/
theorem guidedFlight_points {R : FState → Prop} {ε : ℝ} {P : Planet} (hRP : 0 < P.RP) (hVr : 0 < P.Vref) {x : InitState}
    {H : Hist} {tStep deltaDeg : List ℝ} {veh : ℕ → Vehicle} {y : ℝ → FState} {T : ℝ}
    (hg : GuidedFlight R ε P x H tStep deltaDeg veh y T) (i j : ℕ) (h φ v h' φ' v' : ℝ) (hij : i ≤ j)
    (e1 : H.h[i]? = some h) (e2 : H.phi[i]? = some φ) (e3 : H.v[i]? = some v)
    (f1 : H.h[j]? = some h') (f2 : H.phi[j]? = some φ') (f3 : H.v[j]? = some v') :
    ∃ t ∈ Set.Icc 0 T, ∃ t' ∈ Set.Icc 0 T, t ≤ t' ∧
      H.t[i]? = some (samplePt P (t, y t)).t ∧ H.t[j]? = some (samplePt P (t', y t')).t ∧
      recordedEnergy P h φ v = jacobi P.J2 P.J3 P.OMEGAbar (y t).r (y t).phi (y t).v ∧
      recordedEnergy P h' φ' v' = jacobi P.J2 P.J3 P.OMEGAbar (y t').r (y t').phi (y t').v := by
  obtain ⟨t, ht, t', ht', hle, tt, tt', ⟨rfl, rfl, rfl⟩, rfl, rfl, rfl⟩ :=
    guidedFlight_entries hg i j h φ v h' φ' v' hij e1 e2 e3 f1 f2 f3
  exact ⟨t, ht, t', ht', hle, tt, tt', recordedEnergy_sample hRP hVr _ _, recordedEnergy_sample hRP hVr _ _⟩

/-- The energy never increases along a guided flight of vehicles that drag does not accelerate. -/
theorem guidedFlight_energy (name : String) (P : Planet) (hP : Planet.init name = .ok P) {R : FState → Prop} {x : InitState}
    {H : Hist} {tStep deltaDeg : List ℝ} {veh : ℕ → Vehicle} {y : ℝ → FState} {T : ℝ}
    (hg : GuidedFlight R 0 P x H tStep deltaDeg veh y T) (hRr : ∀ s, R s → s.r ≠ 0 ∧ 0 ≤ s.v)
    (hveh : ∀ k, (veh k).planet = P) (ha : ∀ k r theta phi v delta, (veh k).a_sbar r theta phi v delta ≤ 0) :
    AntitoneOn (fun t => jacobi P.J2 P.J3 P.OMEGAbar (y t).r (y t).phi (y t).v) (Set.Icc 0 T) ∧ EnergyFalls P H := by
  obtain ⟨_, hRP, _, _, _, _, _, _, hVr, htau, _⟩ := C01_planet_consistent name P hP
  have hanti : AntitoneOn (fun t => jacobi P.J2 P.J3 P.OMEGAbar (y t).r (y t).phi (y t).v) (Set.Icc 0 T) := by
    refine guidedFlight_pieces htau hg _ fun k a b δ S _ _ _ hin a4 => ?_
    have hin : ∀ t ∈ Set.Icc a b, (y t).r ≠ 0 ∧ 0 ≤ (y t).v := fun t ht => hRr _ (hin t ht)
    have hs := nearFlight_exact a4
    refine antitoneOn_off _ S _ _ (jacobi_continuousOn P hs fun t ht => (hin t ht).1) fun t ht hS => ?_
    have ht' := Set.Ioo_subset_Icc_self ht
    have := C18_jacobi_rate (veh k) (δ * π / 180) y t (hs.solves t ht hS) (hin t ht').1
    rw [hveh k] at this
    exact ⟨_, mul_nonpos_of_nonneg_of_nonpos (hin t ht').2 (ha k _ _ _ _ _), this⟩
  refine ⟨hanti, ?_⟩
  intro i j h φ v h' φ' v' hij e1 e2 e3 f1 f2 f3
  obtain ⟨t, ht, t', ht', hle, -, -, et, et'⟩ := guidedFlight_points hRP hVr hg i j h φ v h' φ' v' hij e1 e2 e3 f1 f2 f3
  rw [et, et']
  exact hanti ht ht' hle

/-- C111: along a guided entry with lift flown by an exact solver, the recorded energy never increases, whatever the guidance
commands, in an atmosphere of non-negative density; provided the flights stay off the centre with speeds that are not
negative. -/
theorem C111_lift_energy_falls (name : String) (P : Planet) (hP : Planet.init name = .ok P) (m beta LD A alpha RN : ℝ)
    (atm : Atmosphere) (u : Bool) (f : ℝ → ℝ) (st : InitState) (hm : 0 < m) (hb : 0 < beta) (hA : 0 < A) (hf : ∀ M, 0 ≤ f M)
    (hatm : ∀ h, 0 ≤ h → h ≤ P.hThres → 0 ≤ atm.densityInt h)
    (G : GuideParams) (mode : ScipyMode) (I : Integrator) (hI : SolveIvpLike I) (fuel : ℕ)
    (hdotref : Option (List (Option ℝ))) (ts dt maxTime : ℝ) (hdt : 0 < dt) (o : GuidedOut) (V : Vehicle)
    (hV : V = Vehicle.mk' m beta LD A alpha RN P atm u f st)
    (ho : Vehicle.propogateGuidedEntry G mode I fuel V hdotref ts dt maxTime = some (.ok o) ∨
      ∃ I₀, Vehicle.propogateGuidedEntry2 G mode I₀ I fuel V hdotref ts dt maxTime = some (.ok o))
    (hfly : ∀ x, StartsIn o.fin.hist x → ∀ δ ∈ o.fin.deltaDeg,
      FollowsFlight (fun s => s.r ≠ 0 ∧ 0 ≤ s.v) 0 (V.setInitialState x) I 1 dt δ ∧
      FollowsFlight (fun s => s.r ≠ 0 ∧ 0 ≤ s.v) 0 (V.setInitialState x) I ts dt δ) :
    EnergyFalls P o.fin.hist := by
  subst hV
  obtain ⟨_, hRP, _, hrho, _⟩ := C01_planet_consistent name P hP
  obtain ⟨y, T, hg⟩ := C111_lift_one_flight name G mode I hI fuel _ hP hdotref ts dt maxTime hdt _ 0 o ho hfly
  refine (guidedFlight_energy name P hP hg (fun _ h => h) (fun _ => rfl) fun _ => ?_).2
  refine a_sbar_nonpos name _ hP hatm ?_ ?_ ?_ hf
  · simp only [Vehicle.mk']; positivity
  · simp only [Vehicle.mk']; positivity
  · simp only [Vehicle.mk']; positivity

/-- C111: likewise along a drag-modulated guided entry, jettison of the drag skirt included. -/
theorem C111_drag_energy_falls (name : String) (P : Planet) (hP : Planet.init name = .ok P) (m beta LD A alpha RN : ℝ)
    (atm : Atmosphere) (u : Bool) (f : ℝ → ℝ) (st : InitState) (hm : 0 < m) (hA : 0 < A) (hf : ∀ M, 0 ≤ f M)
    (hatm : ∀ h, 0 ≤ h → h ≤ P.hThres → 0 ≤ atm.densityInt h)
    (G : GuideParams) (hb : 0 < G.beta1) (hratio : 0 < G.betaRatio) (mode : ScipyMode) (I : Integrator) (hI : SolveIvpLike I)
    (fuel : ℕ) (hdotref : Option (List (Option ℝ))) (tsE tsX dt maxTime : ℝ) (hdt : 0 < dt) (o : GuidedOut) (V : Vehicle)
    (hV : V = Vehicle.mk' m beta LD A alpha RN P atm u f st)
    (ho : Vehicle.propogateGuidedEntryD G mode I fuel V hdotref tsE tsX dt maxTime = some (.ok o) ∨
      Vehicle.propogateGuidedEntryD2 G mode I fuel V hdotref tsE tsX dt maxTime = some (.ok o))
    (hfly : ∀ x, StartsIn o.fin.hist x → ∀ δ ∈ o.fin.deltaDeg,
      FollowsFlight (fun s => s.r ≠ 0 ∧ 0 ≤ s.v) 0 ((V.setBeta G.beta1).setInitialState x) I 1 dt δ ∧
      FollowsFlight (fun s => s.r ≠ 0 ∧ 0 ≤ s.v) 0 ((V.setBeta G.beta1).setInitialState x) I tsE dt δ ∧
      FollowsFlight (fun s => s.r ≠ 0 ∧ 0 ≤ s.v) 0 ((V.setBeta (G.beta1 * G.betaRatio)).setInitialState x) I tsX dt δ) :
    EnergyFalls P o.fin.hist := by
  subst hV
  obtain ⟨_, hRP, _, hrho, _⟩ := C01_planet_consistent name P hP
  obtain ⟨y, T, n, -, -, hg⟩ := C111_drag_one_flight name G mode I hI fuel _ hP hdotref tsE tsX dt maxTime hdt _ 0 o ho hfly
  have key : ∀ b, 0 < b → ∀ r theta phi v delta,
      ((Vehicle.mk' m beta LD A alpha RN P atm u f st).setBeta b).a_sbar r theta phi v delta ≤ 0 := by
    intro b hb
    refine a_sbar_nonpos name _ hP hatm ?_ ?_ ?_ hf
    · simp only [Vehicle.mk', Vehicle.setBeta]; positivity
    · simp only [Vehicle.mk', Vehicle.setBeta]; positivity
    · simp only [Vehicle.mk', Vehicle.setBeta]; positivity
  refine (guidedFlight_energy name P hP hg (fun _ h => h) (fun k => ?_) fun k => ?_).2
  · split_ifs <;> rfl
  · split_ifs
    · exact key _ hb
    · exact key _ (mul_pos hb hratio)

end AMAT.Props
