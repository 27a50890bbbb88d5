import Mathlib.Analysis.Normed.Module.HahnBanach
import Mathlib.Topology.Order.IntermediateValue
import Verif.Lemmas.Piecewise

/-
Curves that follow a vector field up to a defect stay close to each other, also where the field jumps across a surface
that the curves cross with non-zero speed.
-/

namespace AMAT.Piecewise

variable {E : Type*} [NormedAddCommGroup E] [NormedSpace ℝ E]

/-- Grönwall's inequality off finitely many points, in multiplicative form. -/
theorem gronwall_off (f f' : ℝ → E) (K δ : ℝ) (hK : 1 ≤ K) (hδ : 0 ≤ δ) (S : Finset ℝ) :
    ∀ (a b : ℝ), ContinuousOn f (Set.Icc a b) →
    (∀ t ∈ Set.Ioo a b, t ∉ S → HasDerivAt f (f' t) t ∧ ‖f' t‖ ≤ K * ‖f t‖ + δ) →
    ∀ t ∈ Set.Icc a b, ‖f t‖ + δ ≤ (‖f a‖ + δ) * Real.exp (K * (t - a)) := by
  have hK0 : K ≠ 0 := by linarith
  induction S using Finset.induction_on with
  | empty =>
    intro a b hc hd t ht
    rcases ht.1.eq_or_lt with rfl | hat
    · simp
    have key : ∀ c ∈ Set.Ioo a t, ‖f t‖ + δ ≤ (‖f c‖ + δ) * Real.exp (K * (t - c)) := by
      intro c hct
      have h0 : ‖f t‖ ≤ gronwallBound ‖f c‖ K δ (t - c) := by
        refine norm_le_gronwallBound_of_norm_deriv_right_le (f := f) (f' := f') (a := c) (b := t)
          (hc.mono (Set.Icc_subset_Icc hct.1.le ht.2)) ?_ le_rfl ?_ t ⟨hct.2.le, le_rfl⟩
        · intro x hx
          exact (hd x ⟨hct.1.trans_le hx.1, hx.2.trans_le ht.2⟩ (by simp)).1.hasDerivWithinAt
        · intro x hx
          exact (hd x ⟨hct.1.trans_le hx.1, hx.2.trans_le ht.2⟩ (by simp)).2
      rw [gronwallBound_of_K_ne_0 hK0] at h0
      simp only at h0
      have h1 : 1 ≤ Real.exp (K * (t - c)) := Real.one_le_exp (mul_nonneg (by linarith) (by linarith [hct.2]))
      have h2 : δ / K ≤ δ := div_le_self hδ hK
      have h3 : δ / K * (Real.exp (K * (t - c)) - 1) ≤ δ * (Real.exp (K * (t - c)) - 1) :=
        mul_le_mul_of_nonneg_right h2 (by linarith)
      linarith
    have hlim : Filter.Tendsto (fun c => (‖f c‖ + δ) * Real.exp (K * (t - c))) (nhdsWithin a (Set.Ioo a t))
        (nhds ((‖f a‖ + δ) * Real.exp (K * (t - a)))) := by
      have h1 : Filter.Tendsto f (nhdsWithin a (Set.Ioo a t)) (nhds (f a)) :=
        (hc a ⟨le_rfl, ht.1.trans ht.2⟩).mono_left
          (nhdsWithin_mono _ (Set.Ioo_subset_Icc_self.trans (Set.Icc_subset_Icc_right ht.2)))
      have h2 : Filter.Tendsto (fun c : ℝ => Real.exp (K * (t - c))) (nhdsWithin a (Set.Ioo a t))
          (nhds (Real.exp (K * (t - a)))) := by
        have : Continuous fun c : ℝ => Real.exp (K * (t - c)) := by fun_prop
        exact this.continuousWithinAt.tendsto
      exact (h1.norm.add_const δ).mul h2
    have hne : (nhdsWithin a (Set.Ioo a t)).NeBot := by
      rw [nhdsWithin_Ioo_eq_nhdsGT hat]; infer_instance
    refine ge_of_tendsto hlim ?_
    filter_upwards [self_mem_nhdsWithin] with c hct
    exact key c hct
  | insert c S hcS ih =>
    intro a b hc hd
    by_cases hm : c ∈ Set.Ioo a b
    · have h1 := ih a c (hc.mono (Set.Icc_subset_Icc_right hm.2.le)) fun t ht hs =>
        hd t ⟨ht.1, ht.2.trans hm.2⟩ (by simp [hs, ht.2.ne])
      have h2 := ih c b (hc.mono (Set.Icc_subset_Icc_left hm.1.le)) fun t ht hs =>
        hd t ⟨hm.1.trans ht.1, ht.2⟩ (by simp [hs, ht.1.ne'])
      intro t ht
      rcases le_total t c with h | h
      · exact h1 t ⟨ht.1, h⟩
      · refine (h2 t ⟨h, ht.2⟩).trans ?_
        refine (mul_le_mul_of_nonneg_right (h1 c ⟨hm.1.le, le_rfl⟩) (Real.exp_pos _).le).trans (le_of_eq ?_)
        rw [mul_assoc, ← Real.exp_add]
        congr 2
        ring
    · exact ih a b hc fun t ht hs => hd t ht (by
        simp only [Finset.mem_insert, not_or]
        exact ⟨fun h => hm (h ▸ ht), hs⟩)

/-- A curve whose speed is bounded off finitely many points. -/
theorem speed_off (z w : ℝ → E) (M : ℝ) (S : Finset ℝ) (a b : ℝ) (hc : ContinuousOn z (Set.Icc a b))
    (hd : ∀ t ∈ Set.Ioo a b, t ∉ S → HasDerivAt z (w t) t ∧ ‖w t‖ ≤ M) :
    ∀ x ∈ Set.Icc a b, ∀ y ∈ Set.Icc a b, x ≤ y → ‖z y - z x‖ ≤ M * (y - x) := by
  intro x hx y hy hxy
  obtain ⟨g, hg, hgv⟩ := exists_dual_vector'' ℝ (z y - z x)
  have h := antitoneOn_off (fun t => g (z t) - M * t) S a b ((g.continuous.comp_continuousOn hc).sub (by fun_prop))
    fun t ht hs => by
      obtain ⟨h1, h2⟩ := hd t ht hs
      have h3 : HasDerivAt (fun t => M * t) M t := by simpa using (hasDerivAt_id t).const_mul M
      have h4 : HasDerivAt (fun t => g (z t)) (g (w t)) t := g.hasFDerivAt.comp_hasDerivAt t h1
      refine ⟨g (w t) - M, ?_, h4.sub h3⟩
      have h5 : g (w t) ≤ ‖g‖ * ‖w t‖ := (le_abs_self _).trans (g.le_opNorm _)
      have h6 : ‖g‖ * ‖w t‖ ≤ 1 * ‖w t‖ := mul_le_mul_of_nonneg_right hg (norm_nonneg _)
      linarith
  have e := h hx hy hxy
  simp only at e
  have e2 : g (z y) - g (z x) = ‖z y - z x‖ := by rw [← map_sub, hgv]; rfl
  linarith

/-- `z` moves along the field `F` up to a defect `δ`, on `[a, b]`, except at finitely many times. -/
structure Follows (F : E → E) (z : ℝ → E) (a b δ : ℝ) : Prop where
  cont : ContinuousOn z (Set.Icc a b)
  moves : ∃ (S : Finset ℝ) (w : ℝ → E), ∀ t ∈ Set.Ioo a b, t ∉ S → HasDerivAt z (w t) t ∧ ‖w t - F (z t)‖ ≤ δ

theorem Follows.mono {F : E → E} {z : ℝ → E} {a b a' b' δ : ℝ} (h : Follows F z a b δ) (ha : a ≤ a') (hb : b' ≤ b) :
    Follows F z a' b' δ := by
  obtain ⟨S, w, hw⟩ := h.moves
  exact ⟨h.cont.mono (Set.Icc_subset_Icc ha hb), S, w, fun t ht => hw t ⟨ha.trans_lt ht.1, ht.2.trans_le hb⟩⟩

/-- A curve that is slow inside a ball and has little time stays in the ball. -/
theorem Follows.stay {F : E → E} {z : ℝ → E} {a b δ M R : ℝ} {x : E} (h : Follows F z a b δ) (hM : 0 ≤ M)
    (hF : ∀ x' ∈ Metric.ball x R, ‖F x'‖ + δ ≤ M) (hs : ‖z a - x‖ + M * (b - a) < R) :
    ∀ t ∈ Set.Icc a b, z t ∈ Metric.ball x R := by
  obtain ⟨S, w, hw⟩ := h.moves
  have hball : ∀ t ∈ Set.Icc a b, ‖z t - z a‖ ≤ M * (t - a) → z t ∈ Metric.ball x R := by
    intro t ht hz
    rw [Metric.mem_ball, dist_eq_norm]
    have h1 := norm_add_le (z t - z a) (z a - x)
    rw [sub_add_sub_cancel] at h1
    have := mul_le_mul_of_nonneg_left (sub_le_sub_right ht.2 a) hM
    linarith
  have hsub : Set.Icc a b ⊆ {t | ‖z t - z a‖ ≤ M * (t - a)} := by
    by_cases hab : a ≤ b
    swap
    · rw [Set.Icc_eq_empty hab]; exact Set.empty_subset _
    have hclosed : IsClosed ({t | ‖z t - z a‖ ≤ M * (t - a)} ∩ Set.Icc a b) := by
      have hcc : ContinuousOn (fun t => ‖z t - z a‖ - M * (t - a)) (Set.Icc a b) :=
        (h.cont.sub (continuousOn_const (c := z a))).norm.sub (by fun_prop)
      have := hcc.preimage_isClosed_of_isClosed isClosed_Icc (isClosed_Iic (a := (0:ℝ)))
      convert this using 1
      ext t
      simp only [Set.mem_inter_iff, Set.mem_ofPred_eq, Set.mem_preimage, Set.mem_Iic, sub_nonpos]
      exact and_comm
    refine hclosed.Icc_subset_of_forall_mem_nhdsWithin (by simp) ?_
    rintro t ⟨ht0, ht⟩
    have htI : t ∈ Set.Icc a b := Set.Ico_subset_Icc_self ht
    have hin := hball t htI ht0
    have hct : Filter.Tendsto z (nhdsWithin t (Set.Ioi t)) (nhds (z t)) :=
      (h.cont t htI).mono_left (by
        rw [← nhdsWithin_Ioc_eq_nhdsGT ht.2]
        exact nhdsWithin_mono _ fun s hs => ⟨ht.1.trans hs.1.le, hs.2⟩)
    have hev := hct.eventually (Metric.isOpen_ball.mem_nhds hin)
    have n3 : ∀ᶠ s in nhdsWithin t (Set.Ioi t), s ≤ b := by
      filter_upwards [Ioc_mem_nhdsGT ht.2] with s hs using hs.2
    obtain ⟨u, hu, hall⟩ := (mem_nhdsGT_iff_exists_Ioc_subset).mp (hev.and n3)
    have hu' : t < u := hu
    refine (mem_nhdsGT_iff_exists_Ioc_subset).mpr ⟨u, hu, fun s hs => ?_⟩
    have hub : u ≤ b := (hall ⟨hu, le_rfl⟩).2
    have hsp := speed_off z w M S t u (h.cont.mono (Set.Icc_subset_Icc ht.1 hub)) (fun r hr hrS => by
      obtain ⟨h1, h2⟩ := hw r ⟨ht.1.trans_lt hr.1, hr.2.trans_le hub⟩ hrS
      refine ⟨h1, ?_⟩
      have h3 := hF (z r) (hall ⟨hr.1, hr.2.le⟩).1
      have h4 := norm_add_le (w r - F (z r)) (F (z r))
      rw [sub_add_cancel] at h4
      linarith) t ⟨le_rfl, hu'.le⟩ s ⟨hs.1.le, hs.2⟩ hs.1.le
    have h1 := norm_add_le (z s - z t) (z t - z a)
    rw [sub_add_sub_cancel] at h1
    change ‖z s - z a‖ ≤ M * (s - a)
    have ht0' : ‖z t - z a‖ ≤ M * (t - a) := ht0
    linarith
  exact fun t ht => hball t ht (hsub ht)

/-- Two curves between which the field is Lipschitz. -/
theorem Follows.close {F : E → E} {y z : ℝ → E} {a b δ K : ℝ} (hy : Follows F y a b δ) (hz : Follows F z a b δ)
    (hK : 1 ≤ K) (hδ : 0 ≤ δ) (hF : ∀ t ∈ Set.Ioo a b, ‖F (z t) - F (y t)‖ ≤ K * ‖z t - y t‖) :
    ∀ t ∈ Set.Icc a b, ‖z t - y t‖ + 2 * δ ≤ (‖z a - y a‖ + 2 * δ) * Real.exp (K * (t - a)) := by
  obtain ⟨S, w, hw⟩ := hy.moves
  obtain ⟨S', w', hw'⟩ := hz.moves
  classical
  refine gronwall_off (fun t => z t - y t) (fun t => w' t - w t) K (2 * δ) hK (by linarith) (S ∪ S') a b
    (hz.cont.sub hy.cont) fun t ht hS => ?_
  rw [Finset.mem_union, not_or] at hS
  obtain ⟨h1, h2⟩ := hw t ht hS.1
  obtain ⟨h3, h4⟩ := hw' t ht hS.2
  refine ⟨h3.sub h1, ?_⟩
  have e : w' t - w t = (w' t - F (z t)) + (F (z t) - F (y t)) - (w t - F (y t)) := by abel
  rw [e]
  have h5 := norm_sub_le ((w' t - F (z t)) + (F (z t) - F (y t))) (w t - F (y t))
  have h6 := norm_add_le (w' t - F (z t)) (F (z t) - F (y t))
  have h7 := hF t ht
  linarith

/-- The time at which an increasing function changes sign. -/
theorem crossing_time {g : ℝ → ℝ} {a b c : ℝ} (hab : a ≤ b) (hc : 0 < c) (hg : ContinuousOn g (Set.Icc a b))
    (hm : ∀ s ∈ Set.Icc a b, ∀ t ∈ Set.Icc a b, s ≤ t → c * (t - s) ≤ g t - g s) :
    ∃ τ ∈ Set.Icc a b, (∀ t ∈ Set.Icc a b, t < τ → g t < 0) ∧ (∀ t ∈ Set.Icc a b, τ < t → 0 < g t) ∧
      (τ < b → 0 ≤ g τ) ∧ (a < τ → g τ ≤ 0) := by
  have ha : a ∈ Set.Icc a b := ⟨le_rfl, hab⟩
  have hb : b ∈ Set.Icc a b := ⟨hab, le_rfl⟩
  have lt : ∀ τ ∈ Set.Icc a b, g τ ≤ 0 → ∀ t ∈ Set.Icc a b, t < τ → g t < 0 := by
    intro τ hτ h0 t ht htτ
    have := hm t ht τ hτ htτ.le
    have := mul_pos hc (sub_pos.mpr htτ)
    linarith
  have gt : ∀ τ ∈ Set.Icc a b, 0 ≤ g τ → ∀ t ∈ Set.Icc a b, τ < t → 0 < g t := by
    intro τ hτ h0 t ht htτ
    have := hm τ hτ t ht htτ.le
    have := mul_pos hc (sub_pos.mpr htτ)
    linarith
  rcases le_total (g b) 0 with h | h
  · exact ⟨b, hb, lt b hb h, fun t ht hbt => absurd (ht.2.trans_lt hbt) (lt_irrefl _), fun h' => absurd h' (lt_irrefl _),
      fun _ => h⟩
  rcases le_total 0 (g a) with h' | h'
  · exact ⟨a, ha, fun t ht hat => absurd (ht.1.trans_lt hat) (lt_irrefl _), gt a ha h', fun _ => h',
      fun h'' => absurd h'' (lt_irrefl _)⟩
  obtain ⟨τ, hτ, h0⟩ := intermediate_value_Icc hab hg ⟨h', h⟩
  exact ⟨τ, hτ, lt τ hτ h0.le, gt τ hτ h0.ge, fun _ => h0.ge, fun _ => h0.le⟩

/-- Two curves that cross a surface on which the field jumps stay close. -/
theorem Follows.cross {F : E → E} {y z : ℝ → E} {a b δ K M c : ℝ} {g : E → ℝ} (hab : a ≤ b)
    (hy : Follows F y a b δ) (hz : Follows F z a b δ) (hK : 1 ≤ K) (hδ : 0 ≤ δ) (hc : 0 < c) (hM : 0 ≤ M)
    (hg : Continuous g) (hg1 : ∀ x x', g x - g x' ≤ ‖x - x'‖)
    (hB : ∀ t ∈ Set.Icc a b, ‖F (y t)‖ ≤ M ∧ ‖F (z t)‖ ≤ M)
    (hF : ∀ t ∈ Set.Icc a b, (g (y t) < 0 ∧ g (z t) < 0) ∨ (0 < g (y t) ∧ 0 < g (z t)) →
      ‖F (z t) - F (y t)‖ ≤ K * ‖z t - y t‖)
    (my : ∀ s ∈ Set.Icc a b, ∀ t ∈ Set.Icc a b, s ≤ t → c * (t - s) ≤ g (y t) - g (y s))
    (mz : ∀ s ∈ Set.Icc a b, ∀ t ∈ Set.Icc a b, s ≤ t → c * (t - s) ≤ g (z t) - g (z s)) :
    ∀ t ∈ Set.Icc a b, ‖z t - y t‖ + 2 * δ ≤ (‖z a - y a‖ + 2 * δ) *
      (Real.exp (K * (b - a)) * (1 + (2 * M + 2 * δ) / c) * Real.exp (K * (b - a))) := by
  obtain ⟨τ, hτ, y1, y2, y3, y4⟩ := crossing_time (g := fun t => g (y t)) hab hc (hg.comp_continuousOn hy.cont) my
  obtain ⟨σ, hσ, z1, z2, z3, z4⟩ := crossing_time (g := fun t => g (z t)) hab hc (hg.comp_continuousOn hz.cont) mz
  set X := Real.exp (K * (b - a)) with hX
  set Q := 1 + (2 * M + 2 * δ) / c with hQ
  have hX1 : 1 ≤ X := Real.one_le_exp (mul_nonneg (by linarith) (by linarith))
  have hQ1 : 1 ≤ Q := by
    have : 0 ≤ (2 * M + 2 * δ) / c := by positivity
    linarith
  set D := min τ σ with hD
  set G := max τ σ with hG
  have hDG : D ≤ G := min_le_max
  have hDI : D ∈ Set.Icc a b := ⟨le_min hτ.1 hσ.1, (min_le_left _ _).trans hτ.2⟩
  have hGI : G ∈ Set.Icc a b := ⟨hτ.1.trans (le_max_left _ _), max_le hτ.2 hσ.2⟩
  have exp_le : ∀ s t, a ≤ s → t ≤ b → Real.exp (K * (t - s)) ≤ X := fun s t hs ht =>
    Real.exp_le_exp.mpr (mul_le_mul_of_nonneg_left (by linarith) (by linarith))
  -- before the first crossing
  have p1 : ∀ t ∈ Set.Icc a D, ‖z t - y t‖ + 2 * δ ≤ (‖z a - y a‖ + 2 * δ) * X := by
    intro t ht
    have := (hy.mono le_rfl hDI.2).close (hz.mono le_rfl hDI.2) hK hδ (fun t ht => by
      have htI : t ∈ Set.Icc a b := ⟨ht.1.le, ht.2.le.trans hDI.2⟩
      exact hF t htI (Or.inl ⟨y1 t htI (ht.2.trans_le (min_le_left _ _)), z1 t htI (ht.2.trans_le (min_le_right _ _))⟩)) t ht
    refine this.trans (mul_le_mul_of_nonneg_left (exp_le a t le_rfl (ht.2.trans hDI.2)) ?_)
    have := norm_nonneg (z a - y a)
    linarith
  -- between the crossings
  have gap : c * (G - D) ≤ ‖z D - y D‖ := by
    rcases lt_trichotomy τ σ with h | h | h
    · have e1 : D = τ := min_eq_left h.le
      have e2 : G = σ := max_eq_right h.le
      rw [e1, e2]
      have h1 := mz τ hτ σ hσ h.le
      have h2 := y3 (h.trans_le hσ.2)
      have h3 := z4 (hτ.1.trans_lt h)
      have h4 := hg1 (y τ) (z τ)
      rw [norm_sub_rev] at h4
      linarith
    · rw [hD, hG, h, min_self, max_self, sub_self, mul_zero]; exact norm_nonneg _
    · have e1 : D = σ := min_eq_right h.le
      have e2 : G = τ := max_eq_left h.le
      rw [e1, e2]
      have h1 := my σ hσ τ hτ h.le
      have h2 := z3 (h.trans_le hτ.2)
      have h3 := y4 (hσ.1.trans_lt h)
      have h4 := hg1 (z σ) (y σ)
      linarith
  have p2 : ∀ t ∈ Set.Icc D G, ‖z t - y t‖ + 2 * δ ≤ (‖z D - y D‖ + 2 * δ) * Q := by
    intro t ht
    obtain ⟨S, w, hw⟩ := hy.moves
    obtain ⟨S', w', hw'⟩ := hz.moves
    classical
    have hsp := speed_off (fun t => z t - y t) (fun t => w' t - w t) (2 * M + 2 * δ) (S ∪ S') D G
      ((hz.cont.sub hy.cont).mono (Set.Icc_subset_Icc hDI.1 hGI.2)) (fun t ht hS => by
        have htI : t ∈ Set.Ioo a b := ⟨hDI.1.trans_lt ht.1, ht.2.trans_le hGI.2⟩
        rw [Finset.mem_union, not_or] at hS
        obtain ⟨h1, h2⟩ := hw t htI hS.1
        obtain ⟨h3, h4⟩ := hw' t htI hS.2
        refine ⟨h3.sub h1, ?_⟩
        obtain ⟨b1, b2⟩ := hB t (Set.Ioo_subset_Icc_self htI)
        have h5 := norm_sub_le (w' t) (w t)
        have h6 := norm_add_le (w' t - F (z t)) (F (z t))
        have h7 := norm_add_le (w t - F (y t)) (F (y t))
        rw [sub_add_cancel] at h6 h7
        linarith) D ⟨le_rfl, hDG⟩ t ht ht.1
    have h1 := norm_add_le ((z t - y t) - (z D - y D)) (z D - y D)
    rw [sub_add_cancel] at h1
    have h2 : t - D ≤ ‖z D - y D‖ / c := by
      rw [le_div_iff₀ hc]
      have := mul_le_mul_of_nonneg_left (sub_le_sub_right ht.2 D) hc.le
      linarith
    have h3 : (2 * M + 2 * δ) * (t - D) ≤ (2 * M + 2 * δ) * (‖z D - y D‖ / c) :=
      mul_le_mul_of_nonneg_left h2 (by linarith)
    have h4 : (2 * M + 2 * δ) * (‖z D - y D‖ / c) = ‖z D - y D‖ * ((2 * M + 2 * δ) / c) := by ring
    have h5 : 0 ≤ 2 * δ * ((2 * M + 2 * δ) / c) := by positivity
    have h6 : (‖z D - y D‖ + 2 * δ) * Q = ‖z D - y D‖ + 2 * δ + ‖z D - y D‖ * ((2 * M + 2 * δ) / c)
        + 2 * δ * ((2 * M + 2 * δ) / c) := by rw [hQ]; ring
    linarith
  -- after both crossings
  have p3 : ∀ t ∈ Set.Icc G b, ‖z t - y t‖ + 2 * δ ≤ (‖z G - y G‖ + 2 * δ) * X := by
    intro t ht
    have := (hy.mono hGI.1 le_rfl).close (hz.mono hGI.1 le_rfl) hK hδ (fun t ht => by
      have htI : t ∈ Set.Icc a b := ⟨hGI.1.trans ht.1.le, ht.2.le⟩
      exact hF t htI (Or.inr ⟨y2 t htI ((le_max_left _ _).trans_lt ht.1), z2 t htI ((le_max_right _ _).trans_lt ht.1)⟩)) t ht
    refine this.trans (mul_le_mul_of_nonneg_left (exp_le G t hGI.1 ht.2) ?_)
    have := norm_nonneg (z G - y G)
    linarith
  have n0 : 0 ≤ ‖z a - y a‖ + 2 * δ := by have := norm_nonneg (z a - y a); linarith
  have q1 := p1 D ⟨hDI.1, le_rfl⟩
  have q2 : ∀ t ∈ Set.Icc D G, ‖z t - y t‖ + 2 * δ ≤ (‖z a - y a‖ + 2 * δ) * X * Q := fun t ht =>
    (p2 t ht).trans (mul_le_mul_of_nonneg_right q1 (by linarith))
  have hXQ : 1 ≤ X * Q := one_le_mul_of_one_le_of_one_le hX1 hQ1
  have w1 : (‖z a - y a‖ + 2 * δ) * X ≤ (‖z a - y a‖ + 2 * δ) * (X * Q * X) := by
    refine mul_le_mul_of_nonneg_left ?_ n0
    exact le_mul_of_one_le_left (by linarith) hXQ
  have w2 : (‖z a - y a‖ + 2 * δ) * X * Q ≤ (‖z a - y a‖ + 2 * δ) * (X * Q * X) := by
    rw [mul_assoc]
    refine mul_le_mul_of_nonneg_left ?_ n0
    exact le_mul_of_one_le_right (by linarith) hX1
  intro t ht
  rcases le_total t D with h | h
  · exact (p1 t ⟨ht.1, h⟩).trans w1
  rcases le_total t G with h' | h'
  · exact (q2 t ⟨h, h'⟩).trans w2
  · refine (p3 t ⟨h', ht.2⟩).trans ?_
    refine (mul_le_mul_of_nonneg_right (q2 G ⟨hDG, le_rfl⟩) (by linarith)).trans (le_of_eq ?_)
    ring

/-- Closeness along a curve follows from closeness near each of its points. -/
theorem Follows.chain {F : E → E} {y : ℝ → E} {T : ℝ} (hT : 0 ≤ T)
    (hloc : ∀ t ∈ Set.Icc 0 T, ∃ η > 0, ∃ ρ > 0, ∃ C, 1 ≤ C ∧ ∀ s ∈ Set.Icc 0 T, ∀ s' ∈ Set.Icc 0 T, s ≤ s' →
      |s - t| < η → |s' - t| < η → ∀ (z : ℝ → E) (δ : ℝ), 0 ≤ δ → δ ≤ ρ → Follows F z s s' δ → ‖z s - y s‖ ≤ ρ →
      ∀ r ∈ Set.Icc s s', ‖z r - y r‖ + 2 * δ ≤ (‖z s - y s‖ + 2 * δ) * C) :
    ∃ ρ > 0, ∃ C, 1 ≤ C ∧ ∀ b ∈ Set.Icc 0 T, ∀ (z : ℝ → E) (δ : ℝ), 0 ≤ δ → δ ≤ ρ → Follows F z 0 b δ → ‖z 0 - y 0‖ ≤ ρ →
      ∀ r ∈ Set.Icc 0 b, ‖z r - y r‖ + 2 * δ ≤ (‖z 0 - y 0‖ + 2 * δ) * C := by
  set A : Set ℝ := {T' | T' ∈ Set.Icc 0 T ∧ ∃ ρ > 0, ∃ C, 1 ≤ C ∧ ∀ b ∈ Set.Icc 0 T', ∀ (z : ℝ → E) (δ : ℝ), 0 ≤ δ →
    δ ≤ ρ → Follows F z 0 b δ → ‖z 0 - y 0‖ ≤ ρ →
      ∀ r ∈ Set.Icc 0 b, ‖z r - y r‖ + 2 * δ ≤ (‖z 0 - y 0‖ + 2 * δ) * C} with hA
  have h0 : (0:ℝ) ∈ A := by
    refine ⟨⟨le_rfl, hT⟩, 1, one_pos, 1, le_rfl, fun b hb z δ _ _ _ _ r hr => ?_⟩
    have e1 : b = 0 := le_antisymm hb.2 hb.1
    have e2 : r = 0 := le_antisymm (hr.2.trans e1.le) hr.1
    rw [e2, mul_one]
  have hbdd : BddAbove A := ⟨T, fun t ht => ht.1.2⟩
  set β := sSup A with hβ
  have hβ0 : 0 ≤ β := le_csSup hbdd h0
  have hβT : β ≤ T := csSup_le ⟨0, h0⟩ fun t ht => ht.1.2
  obtain ⟨η, hη, ρ', hρ', C', hC', hl⟩ := hloc β ⟨hβ0, hβT⟩
  obtain ⟨s, hsA, hsβ⟩ : ∃ s ∈ A, β - η < s := exists_lt_of_lt_csSup ⟨0, h0⟩ (by linarith)
  have hsle : s ≤ β := le_csSup hbdd hsA
  obtain ⟨hsI, ρ, hρ, C, hC, hs⟩ := hsA
  set e := min (β + η / 2) T with he
  have hse : s ≤ e := le_min (by linarith) hsI.2
  have heI : e ∈ Set.Icc 0 T := ⟨hsI.1.trans hse, min_le_right _ _⟩
  have heA : e ∈ A := by
    refine ⟨heI, min ρ (ρ' / (3 * C)), lt_min hρ (by positivity), C * C', one_le_mul_of_one_le_of_one_le hC hC',
      fun b hb z δ hδ hδρ hz hz0 r hr => ?_⟩
    have n0 : 0 ≤ ‖z 0 - y 0‖ + 2 * δ := by have := norm_nonneg (z 0 - y 0); linarith
    have hδ1 : δ ≤ ρ := hδρ.trans (min_le_left _ _)
    have hz1 : ‖z 0 - y 0‖ ≤ ρ := hz0.trans (min_le_left _ _)
    have wk : (‖z 0 - y 0‖ + 2 * δ) * C ≤ (‖z 0 - y 0‖ + 2 * δ) * (C * C') :=
      mul_le_mul_of_nonneg_left (le_mul_of_one_le_right (by linarith) hC') n0
    rcases le_total b s with hbs | hbs
    · exact (hs b ⟨hb.1, hbs⟩ z δ hδ hδ1 hz hz1 r hr).trans wk
    have hzs := hs s ⟨hsI.1, le_rfl⟩ z δ hδ hδ1 (hz.mono le_rfl hbs) hz1
    rcases le_total r s with hrs | hrs
    · exact (hzs r ⟨hr.1, hrs⟩).trans wk
    have hsmall : (‖z 0 - y 0‖ + 2 * δ) * C ≤ ρ' := by
      have h1 : δ ≤ ρ' / (3 * C) := hδρ.trans (min_le_right _ _)
      have h2 : ‖z 0 - y 0‖ ≤ ρ' / (3 * C) := hz0.trans (min_le_right _ _)
      have h3 : ρ' / (3 * C) * 3 * C = ρ' := by field_simp
      have h4 : (‖z 0 - y 0‖ + 2 * δ) * C ≤ (ρ' / (3 * C) * 3) * C := mul_le_mul_of_nonneg_right (by linarith) (by linarith)
      linarith
    have hss := hzs s ⟨hsI.1, le_rfl⟩
    have hbe : b ≤ e := hb.2
    have hδ' : δ ≤ ρ' := by
      have h1 : (‖z 0 - y 0‖ + 2 * δ) * 1 ≤ (‖z 0 - y 0‖ + 2 * δ) * C := mul_le_mul_of_nonneg_left hC n0
      have := norm_nonneg (z 0 - y 0)
      linarith
    have hstep := hl s hsI b ⟨hb.1, hbe.trans heI.2⟩ hbs (by rw [abs_lt]; constructor <;> linarith)
      (by
        have : e ≤ β + η / 2 := min_le_left _ _
        rw [abs_lt]; constructor <;> linarith) z δ hδ hδ' (hz.mono hsI.1 le_rfl) (by linarith) r ⟨hrs, hr.2⟩
    refine hstep.trans ?_
    rw [← mul_assoc]
    exact mul_le_mul_of_nonneg_right hss (by linarith)
  have heβ : e ≤ β := le_csSup hbdd heA
  have heT : e = T := by
    rcases min_choice (β + η / 2) T with h | h
    · rw [← he] at h; linarith
    · exact h
  rw [heT] at heA
  exact heA.2

end AMAT.Piecewise
