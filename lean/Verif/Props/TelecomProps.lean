import Mathlib.Tactic.NormNum
import Mathlib.Tactic.Linarith
import Mathlib.Tactic.FieldSimp
import Mathlib.Tactic.Positivity
import Mathlib.Tactic.LinearCombination
import Verif.Model.Telecom
import Verif.Spec.Link

/-
Properties C09 – C12 of `telecom.py`.
-/

noncomputable section

open Classical

namespace AMAT.Props

open AMAT

theorem logb_rpow10 (x : ℝ) : Real.logb 10 ((10 : ℝ) ^ x) = x :=
  Real.logb_rpow (by norm_num) (by norm_num)

/-- Inversion of a successful construction. -/
theorem link_init_ok {a : LinkArgs} {l : Link} (h : Link.init a = .ok l) :
    a.freq * 1e9 ≠ 0 ∧ l.wavelength = 3e8 / (a.freq * 1e9) ∧
    txGain a l.wavelength = some l.GtDBi ∧ rxGain a l.wavelength = .ok (some l.GrDBi) ∧
    l.R = a.rateKbps * 1e3 ∧
    l.EBN0 = computeDB a.Pt + l.GtDBi - a.LtDB - a.LscDB + l.GrDBi - computeDB a.Ts
      - computeFreeSpaceLossDB (a.rangeKm * 1e3) l.wavelength - a.LaDB - a.LotherDB - a.LDSNDB
      - computeDB (a.rateKbps * 1e3) - computeDB 1.38e-23 ∧
    l.EBN0margin = l.EBN0 - a.EbN0req := by
  simp only [Link.init, bind, Except.bind, pure, Except.pure, throw, throwThe,
    MonadExceptOf.throw] at h
  by_cases hf : a.freq * 1e9 = 0
  · simp [hf] at h
  · simp only [hf, if_false] at h
    cases hr : rxGain a (3e8 / (a.freq * 1e9)) with
    | error e => rw [hr] at h; simp at h
    | ok gr =>
      rw [hr] at h
      cases ht : txGain a (3e8 / (a.freq * 1e9)) with
      | none => rw [ht] at h; simp [getAttr] at h
      | some gt =>
        rw [ht] at h
        cases gr with
        | none => simp [getAttr] at h
        | some gr =>
          simp only [getAttr, Except.ok.injEq] at h
          subst h
          exact ⟨hf, rfl, ht, hr, rfl, rfl, rfl⟩

/-- Gain of the transmitter in dB agrees with the specification. -/
theorem txGain_spec {a : LinkArgs} {w g G : ℝ} (h : txGain a w = some g)
    (hG : Spec.antennaGain a.Dt a.etaT a.GtDBi w = some G) (hpos : 0 < G) :
    g = 10 * Real.logb 10 G := by
  unfold txGain at h
  unfold Spec.antennaGain at hG
  cases hD : a.Dt with
  | none =>
    rw [hD] at h hG
    cases hg : a.GtDBi with
    | none => rw [hg] at hG; simp at hG
    | some v =>
      rw [hg] at h hG
      simp only [Option.some.injEq] at hG
      simp only at h
      split_ifs at h
      simp only [Option.some.injEq] at h
      rw [← hG, ← h, logb_rpow10]; ring
  | some D =>
    rw [hD] at h hG
    cases he : a.etaT with
    | none =>
      rw [he] at h hG
      cases hg : a.GtDBi with
      | none => rw [hg] at hG; simp at hG
      | some v =>
        rw [hg] at h hG
        simp only [Option.some.injEq] at hG
        simp only at h
        split_ifs at h
        simp only [Option.some.injEq] at h
        rw [← hG, ← h, logb_rpow10]; ring
    | some eta =>
      rw [he] at h hG
      simp only [Option.some.injEq] at hG
      have hne : D ≠ 0 ∧ eta ≠ 0 := by
        constructor <;> rintro rfl <;> simp at hG <;> linarith
      simp only [hne, ne_eq, not_false_eq_true, and_self, if_true, Option.some.injEq] at h
      rw [← h, ← hG]; rfl

/-- Gain of the receiver in dB agrees with the specification *when the receive dish has the diameter of the
transmit dish* (or the gain is given directly). -/
theorem rxGain_spec {a : LinkArgs} {w g G : ℝ} (h : rxGain a w = .ok (some g))
    (hG : Spec.antennaGain a.Dr a.etaR a.GrDBi w = some G) (hpos : 0 < G)
    (hD : a.Dr ≠ none → a.etaR ≠ none → a.Dr = a.Dt) :
    g = 10 * Real.logb 10 G := by
  unfold rxGain at h
  unfold Spec.antennaGain at hG
  cases hDr : a.Dr with
  | none =>
    rw [hDr] at h hG
    cases hg : a.GrDBi with
    | none => rw [hg] at hG; simp at hG
    | some v =>
      rw [hg] at h hG
      simp only [Option.some.injEq] at hG
      simp only at h
      split_ifs at h
      · simp only [pure, Except.pure, Except.ok.injEq, Option.some.injEq] at h
        rw [← hG, ← h, logb_rpow10]; ring
      · simp [pure, Except.pure] at h
  | some D =>
    cases he : a.etaR with
    | none =>
      rw [hDr, he] at h hG
      cases hg : a.GrDBi with
      | none => rw [hg] at hG; simp at hG
      | some v =>
        rw [hg] at h hG
        simp only [Option.some.injEq] at hG
        simp only at h
        split_ifs at h
        · simp only [pure, Except.pure, Except.ok.injEq, Option.some.injEq] at h
          rw [← hG, ← h, logb_rpow10]; ring
        · simp [pure, Except.pure] at h
    | some eta =>
      have hDD := hD (by simp [hDr]) (by simp [he])
      rw [hDr] at hDD
      rw [hDr, he] at h hG
      simp only [Option.some.injEq] at hG
      have hne : D ≠ 0 ∧ eta ≠ 0 := by
        constructor <;> rintro rfl <;> simp at hG <;> linarith
      simp only [hne, ne_eq, not_false_eq_true, and_self, if_true, ← hDD, needNumber, bind,
        Except.bind, pure, Except.pure, Except.ok.injEq, Option.some.injEq] at h
      rw [← h, ← hG]; rfl

/-- Decibel form of the linear link equation. -/
theorem spec_ebN0_dB {Pt Gt Gr w d k T R L : ℝ} (h1 : 0 < Pt) (h2 : 0 < Gt) (h3 : 0 < Gr)
    (h4 : 0 < w) (h5 : 0 < d) (h6 : 0 < k) (h7 : 0 < T) (h8 : 0 < R) :
    10 * Real.logb 10 (Spec.ebN0 Pt Gt Gr w d k T R L) =
      computeDB Pt + 10 * Real.logb 10 Gt + 10 * Real.logb 10 Gr
        - computeFreeSpaceLossDB d w - L - computeDB k - computeDB T - computeDB R := by
  have hpi := Real.pi_pos
  have hL : (0:ℝ) < (10:ℝ) ^ (L / 10) := Real.rpow_pos_of_pos (by norm_num) _
  have hq : 0 < w / (4 * Real.pi * d) := by positivity
  have hinv : w / (4 * Real.pi * d) = (4 * Real.pi * d / w)⁻¹ := by rw [inv_div]
  unfold Spec.ebN0 computeFreeSpaceLossDB computeDB
  rw [Real.logb_div (by positivity) (by positivity),
    Real.logb_mul (by positivity) (by positivity),
    Real.logb_mul (by positivity) (by positivity),
    Real.logb_mul (by positivity) (by positivity),
    Real.logb_mul (by positivity) (by positivity),
    Real.logb_mul (by positivity) (by positivity),
    Real.logb_mul (by positivity) (by positivity), Real.logb_pow, hinv, Real.logb_inv,
    logb_rpow10]
  push_cast
  ring

/-- C09 (partial): the reported Eb/N0 is ten times the decimal logarithm of the physical link equation, and
the margin is Eb/N0 minus the requirement, for every positive combination of parameters — provided the receive
dish (if one is given) has the same diameter as the transmit dish.  Missing: different dish diameters, for
which the claim is false (`C09_receiver_diameter_ignored`). -/
theorem C09_link_equation_partial (a : LinkArgs) (l : Link) (h : Link.init a = .ok l)
    (hf : 0 < a.freq) (hP : 0 < a.Pt) (hT : 0 < a.Ts) (hr : 0 < a.rangeKm) (hR : 0 < a.rateKbps)
    (Gt Gr : ℝ)
    (hGt : Spec.antennaGain a.Dt a.etaT a.GtDBi (3e8 / (a.freq * 1e9)) = some Gt) (hGt0 : 0 < Gt)
    (hGr : Spec.antennaGain a.Dr a.etaR a.GrDBi (3e8 / (a.freq * 1e9)) = some Gr) (hGr0 : 0 < Gr)
    (hD : a.Dr ≠ none → a.etaR ≠ none → a.Dr = a.Dt) :
    l.EBN0 = 10 * Real.logb 10 (Spec.ebN0 a.Pt Gt Gr (3e8 / (a.freq * 1e9)) (a.rangeKm * 1000)
        1.38e-23 a.Ts (a.rateKbps * 1000) (a.LtDB + a.LscDB + a.LaDB + a.LotherDB + a.LDSNDB)) ∧
    l.EBN0margin = l.EBN0 - a.EbN0req := by
  obtain ⟨_, hw, ht, hrx, _, hE, hM⟩ := link_init_ok h
  refine ⟨?_, hM⟩
  have hwpos : (0:ℝ) < 3e8 / (a.freq * 1e9) := by positivity
  rw [← hw] at hGt hGr hwpos ⊢
  have e1 := txGain_spec ht hGt hGt0
  have e2 := rxGain_spec hrx hGr hGr0 hD
  rw [spec_ebN0_dB hP hGt0 hGr0 hwpos (by positivity) (by norm_num) hT (by positivity), hE, e1, e2]
  norm_num
  ring

/-- C09 (finding): with both dishes given, the receive dish diameter has no influence on the link, and the
reported Eb/N0 is off from the physical value by exactly `20·log10(Dt/Dr)` dB. -/
theorem C09_receiver_diameter_ignored (a : LinkArgs) (Dt etaT Dr etaR : ℝ)
    (h1 : a.Dt = some Dt) (h2 : a.etaT = some etaT) (h3 : a.Dr = some Dr) (h4 : a.etaR = some etaR)
    (p1 : 0 < Dt) (p2 : 0 < etaT) (p3 : 0 < Dr) (p4 : 0 < etaR)
    (hf : 0 < a.freq) (hP : 0 < a.Pt) (hT : 0 < a.Ts) (hr : 0 < a.rangeKm) (hR : 0 < a.rateKbps) :
    ∃ l, Link.init a = .ok l ∧
      (∀ D', D' ≠ 0 → Link.init { a with Dr := some D' } = .ok l) ∧
      l.EBN0 = 10 * Real.logb 10 (Spec.ebN0 a.Pt
        (etaT * (Real.pi * Dt / (3e8 / (a.freq * 1e9))) ^ 2)
        (etaR * (Real.pi * Dr / (3e8 / (a.freq * 1e9))) ^ 2)
        (3e8 / (a.freq * 1e9)) (a.rangeKm * 1000)
        1.38e-23 a.Ts (a.rateKbps * 1000) (a.LtDB + a.LscDB + a.LaDB + a.LotherDB + a.LDSNDB))
        + 20 * Real.logb 10 (Dt / Dr) := by
  have hpi := Real.pi_pos
  have hf9 : a.freq * 1e9 ≠ 0 := by positivity
  have hwpos : (0:ℝ) < 3e8 / (a.freq * 1e9) := by positivity
  have hind : ∀ D', D' ≠ 0 → Link.init { a with Dr := some D' } = Link.init a := by
    intro D' hD'
    simp only [Link.init, rxGain, txGain, h1, h2, h3, h4, hD', p3.ne', p4.ne', ne_eq,
      not_false_eq_true, and_self, if_true]
  have hrx : ∀ w, rxGain a w = .ok (some (computeDB (computeAntennaGain etaR Dt w))) := by
    intro w
    simp [rxGain, h1, h3, h4, p3.ne', p4.ne', needNumber, bind, Except.bind, pure, Except.pure]
  have htx : ∀ w, txGain a w = some (computeDB (computeAntennaGain etaT Dt w)) := by
    intro w
    simp [txGain, h1, h2, p1.ne', p2.ne']
  have hok : ∃ l, Link.init a = .ok l := by
    simp only [Link.init, hrx, htx, hf9, if_false, getAttr, bind, Except.bind, pure, Except.pure]
    exact ⟨_, rfl⟩
  obtain ⟨l, hl⟩ := hok
  refine ⟨l, hl, fun D' hD' => (hind D' hD').trans hl, ?_⟩
  obtain ⟨_, hw, ht, hrx', _, hE, _⟩ := link_init_ok hl
  rw [htx] at ht; rw [hrx] at hrx'
  simp only [Option.some.injEq, Except.ok.injEq] at ht hrx'
  rw [spec_ebN0_dB hP (by positivity) (by positivity) hwpos (by positivity) (by norm_num) hT
    (by positivity), hE, ← ht, ← hrx', ← hw]
  have hwpos' : 0 < l.wavelength := hw ▸ hwpos
  have key : computeDB (computeAntennaGain etaR Dt l.wavelength) =
      10 * Real.logb 10 (etaR * (Real.pi * Dr / l.wavelength) ^ 2) + 20 * Real.logb 10 (Dt / Dr) := by
    unfold computeDB computeAntennaGain
    have : etaR * (Real.pi * Dt / l.wavelength) ^ 2 =
        etaR * (Real.pi * Dr / l.wavelength) ^ 2 * (Dt / Dr) ^ 2 := by field_simp
    rw [this, Real.logb_mul (by positivity) (by positivity), Real.logb_pow]
    push_cast; ring
  rw [key]
  simp only [computeDB, computeAntennaGain]
  norm_num
  ring

/-- C09 (finding): consequently the full claim is false whenever the two dishes have different diameters. -/
theorem C09_link_equation_false : ¬ ∀ (a : LinkArgs) (l : Link), Link.init a = .ok l →
    0 < a.freq → 0 < a.Pt → 0 < a.Ts → 0 < a.rangeKm → 0 < a.rateKbps → ∀ Gt Gr : ℝ,
    Spec.antennaGain a.Dt a.etaT a.GtDBi (3e8 / (a.freq * 1e9)) = some Gt → 0 < Gt →
    Spec.antennaGain a.Dr a.etaR a.GrDBi (3e8 / (a.freq * 1e9)) = some Gr → 0 < Gr →
    l.EBN0 = 10 * Real.logb 10 (Spec.ebN0 a.Pt Gt Gr (3e8 / (a.freq * 1e9)) (a.rangeKm * 1000)
        1.38e-23 a.Ts (a.rateKbps * 1000) (a.LtDB + a.LscDB + a.LaDB + a.LotherDB + a.LDSNDB)) := by
  intro H
  let a : LinkArgs := {
    freq := 8.4, Pt := 100, Ts := 25, rangeKm := 1, LotherDB := 0, rateKbps := 1,
    EbN0req := 1, Dt := some 10, etaT := some 1, Dr := some 1, etaR := some 1 }
  obtain ⟨l, hl, _, hE⟩ := C09_receiver_diameter_ignored a 10 1 1 1 rfl rfl rfl rfl (by norm_num)
    (by norm_num) (by norm_num) (by norm_num) (by norm_num [a]) (by norm_num [a]) (by norm_num [a])
    (by norm_num [a]) (by norm_num [a])
  have hpi := Real.pi_pos
  have h2 := H a l hl (by norm_num [a]) (by norm_num [a]) (by norm_num [a]) (by norm_num [a])
    (by norm_num [a]) _ _ rfl (by simp only [a]; positivity) rfl (by simp only [a]; positivity)
  have e : (20:ℝ) * Real.logb 10 (10 / 1) = 20 := by
    rw [div_one, Real.logb_self_eq_one (by norm_num)]; norm_num
  rw [e] at hE
  linarith

/-- C09 (finding): a receive dish cannot be combined with a transmitter given by its gain only: the
constructor raises `TypeError`, although the documentation allows exactly this combination. -/
theorem C09_gain_plus_receive_dish_raises (a : LinkArgs) (Dr etaR : ℝ) (h1 : a.Dt = none)
    (h3 : a.Dr = some Dr) (h4 : a.etaR = some etaR) (p3 : Dr ≠ 0) (p4 : etaR ≠ 0)
    (hf : a.freq ≠ 0) : Link.init a = .error .typeError := by
  have : rxGain a (3e8 / (a.freq * 1e9)) = .error .typeError := by
    simp [rxGain, h1, h3, h4, p3, p4, needNumber, bind, Except.bind]
  have hf9 : a.freq * 1e9 ≠ 0 := by
    intro h; rcases mul_eq_zero.mp h with h | h
    · exact hf h
    · norm_num at h
  simp only [Link.init, hf9, if_false, this, bind, Except.bind]

/-- C09 (finding): an isotropic transmitter (gain 0 dBi) is rejected with `AttributeError`, because zero is
falsy. -/
theorem C09_zero_dBi_raises (a : LinkArgs) (h1 : a.Dt = none) (h2 : a.GtDBi = some 0)
    (h3 : a.Dr = none) (hf : a.freq ≠ 0) :
    Link.init a = .error .attributeError := by
  have ht : ∀ w, txGain a w = none := by
    intro w; simp [txGain, h1, h2, truthy]
  have hr : ∀ w, ∃ g, rxGain a w = .ok g := by
    intro w
    simp only [rxGain, h3]
    split_ifs
    · exact ⟨_, rfl⟩
    · exact ⟨_, rfl⟩
  have hf9 : a.freq * 1e9 ≠ 0 := by
    intro h; rcases mul_eq_zero.mp h with h | h
    · exact hf h
    · norm_num at h
  obtain ⟨g, hg⟩ := hr (3e8 / (a.freq * 1e9))
  simp only [Link.init, hf9, if_false, hg, ht, getAttr, bind, Except.bind]

/-- A link between two dishes of one metre. -/
def demoLink (Pt range rate etaT etaR : ℝ) : LinkArgs :=
  { freq := 8.4, Pt := Pt, Ts := 40.5, rangeKm := range, LotherDB := 0.54, rateKbps := rate, EbN0req := 0.31,
    Dt := some 1, etaT := some etaT, Dr := some 1, etaR := some etaR }

theorem demoLink_ok (Pt range rate : ℝ) {etaT etaR : ℝ} (h1 : etaT ≠ 0) (h2 : etaR ≠ 0) :
    ∃ l, Link.init (demoLink Pt range rate etaT etaR) = .ok l := by
  have h : (8.4:ℝ) * 1e9 ≠ 0 := by norm_num
  simp [demoLink, Link.init, rxGain, txGain, needNumber, getAttr, bind, Except.bind, pure, Except.pure, h, h1, h2]

/-- Case for `C09_link_equation_partial` and `C09_receiver_diameter_ignored`: that link. -/
example : ∃ (l : Link) (Gt Gr : ℝ), Link.init (demoLink 65 1.5e8 28 0.6 0.6) = .ok l ∧
    Spec.antennaGain (some 1) (some 0.6) none (3e8 / (8.4 * 1e9)) = some Gt ∧ 0 < Gt ∧ Gr = Gt ∧
    l.EBN0 = 10 * Real.logb 10 (Spec.ebN0 65 Gt Gr (3e8 / (8.4 * 1e9)) (1.5e8 * 1000) 1.38e-23 40.5 (28 * 1000)
      (1.0 + 0.2 + 0.35 + 0.54 + 1.0)) := by
  obtain ⟨l, hl⟩ := demoLink_ok 65 1.5e8 28 (etaT := 0.6) (etaR := 0.6) (by norm_num) (by norm_num)
  have hpi := Real.pi_pos
  refine ⟨l, _, _, hl, rfl, by positivity, rfl, ?_⟩
  exact (C09_link_equation_partial _ l hl (by norm_num [demoLink]) (by norm_num [demoLink]) (by norm_num [demoLink])
    (by norm_num [demoLink]) (by norm_num [demoLink]) _ _ rfl (by simp only [demoLink]; positivity) rfl
    (by simp only [demoLink]; positivity) (fun _ _ => rfl)).1

/-- Case for `C09_gain_plus_receive_dish_raises` and `C09_zero_dBi_raises`: a lander antenna of 5 dBi with an orbiter dish,
and one of 0 dBi. -/
example : Link.init { demoLink 65 1.5e8 28 0.6 0.6 with Dt := none, GtDBi := some 5 } = .error .typeError ∧
    Link.init { demoLink 65 1.5e8 28 0.6 0.6 with Dt := none, Dr := none, GtDBi := some 0 } = .error .attributeError :=
  ⟨C09_gain_plus_receive_dish_raises _ 1 0.6 rfl rfl rfl (by norm_num) (by norm_num) (by norm_num [demoLink]),
    C09_zero_dBi_raises _ rfl rfl rfl (by norm_num [demoLink])⟩

example : ∃ l, Link.init ({
    freq := 8.4, Pt := 65, Ts := 40.5, rangeKm := 1.5e8, LotherDB := 0.54,
    rateKbps := 28, EbN0req := 0.31, Dt := some 1, etaT := some 0.6, GrDBi := some 74 } : LinkArgs) = .ok l := by
  have h : (8.4:ℝ) * 1e9 ≠ 0 := by norm_num
  have h' : (0.6:ℝ) ≠ 0 := by norm_num
  simp [Link.init, rxGain, txGain, truthy, getAttr, bind, Except.bind, pure, Except.pure, h, h']

/-! ### C10 -/

theorem logb_lt {x y : ℝ} (hx : 0 < x) (h : x < y) : Real.logb 10 x < Real.logb 10 y :=
  Real.logb_lt_logb (by norm_num) hx h

/-- C10: more range strictly lowers the margin, and multiplying the range by `c` costs exactly `20·log10 c` dB. -/
theorem C10_range (a : LinkArgs) (r : ℝ) (l l' : Link) (h : Link.init a = .ok l)
    (h' : Link.init { a with rangeKm := r } = .ok l') (hf : 0 < a.freq) (hr : 0 < a.rangeKm)
    (hr' : 0 < r) :
    l'.EBN0margin = l.EBN0margin - 20 * Real.logb 10 (r / a.rangeKm) ∧
    (a.rangeKm < r → l'.EBN0margin < l.EBN0margin) := by
  have hpi := Real.pi_pos
  obtain ⟨hf9, hw, ht, hx, _, hE, hM⟩ := link_init_ok h
  obtain ⟨_, hw', ht', hx', _, hE', hM'⟩ := link_init_ok h'
  have hww : l'.wavelength = l.wavelength := by rw [hw, hw']
  rw [hww] at ht' hx'
  have g1 : l'.GtDBi = l.GtDBi := by
    have : txGain { a with rangeKm := r } l.wavelength = txGain a l.wavelength := rfl
    rw [this, ht] at ht'; simpa using ht'.symm
  have g2 : l'.GrDBi = l.GrDBi := by
    have : rxGain { a with rangeKm := r } l.wavelength = rxGain a l.wavelength := rfl
    rw [this, hx] at hx'; simpa using hx'.symm
  have hwp : 0 < l.wavelength := by rw [hw]; positivity
  have key : l'.EBN0margin = l.EBN0margin - 20 * Real.logb 10 (r / a.rangeKm) := by
    have : computeFreeSpaceLossDB (r * 1e3) l.wavelength =
        computeFreeSpaceLossDB (a.rangeKm * 1e3) l.wavelength + 20 * Real.logb 10 (r / a.rangeKm) := by
      unfold computeFreeSpaceLossDB
      rw [← mul_add, ← Real.logb_mul (by positivity) (by positivity)]
      congr 2; field_simp
    rw [hM, hM', hE, hE', g1, g2, hww, this]; ring
  refine ⟨key, fun hlt => ?_⟩
  rw [key]
  have : 0 < Real.logb 10 (r / a.rangeKm) :=
    Real.logb_pos (by norm_num) ((one_lt_div hr).mpr hlt)
  linarith

/-- C10: doubling the range costs exactly `20·log10 2` dB. -/
theorem C10_double_range (a : LinkArgs) (l l' : Link) (h : Link.init a = .ok l)
    (h' : Link.init { a with rangeKm := 2 * a.rangeKm } = .ok l') (hf : 0 < a.freq)
    (hr : 0 < a.rangeKm) : l'.EBN0margin = l.EBN0margin - 20 * Real.logb 10 2 := by
  rw [(C10_range a _ l l' h h' hf hr (by positivity)).1, mul_div_assoc, div_self hr.ne', mul_one]

/-- C10: more transmit power strictly raises the margin, by `10·log10` of the ratio. -/
theorem C10_power (a : LinkArgs) (P : ℝ) (l l' : Link) (h : Link.init a = .ok l)
    (h' : Link.init { a with Pt := P } = .ok l') (hP : 0 < a.Pt) (hP' : 0 < P) :
    l'.EBN0margin = l.EBN0margin + 10 * Real.logb 10 (P / a.Pt) ∧
    (a.Pt < P → l.EBN0margin < l'.EBN0margin) := by
  obtain ⟨hf9, hw, ht, hx, _, hE, hM⟩ := link_init_ok h
  obtain ⟨_, hw', ht', hx', _, hE', hM'⟩ := link_init_ok h'
  have hww : l'.wavelength = l.wavelength := by rw [hw, hw']
  rw [hww] at ht' hx'
  have g1 : l'.GtDBi = l.GtDBi := by
    have : txGain { a with Pt := P } l.wavelength = txGain a l.wavelength := rfl
    rw [this, ht] at ht'; simpa using ht'.symm
  have g2 : l'.GrDBi = l.GrDBi := by
    have : rxGain { a with Pt := P } l.wavelength = rxGain a l.wavelength := rfl
    rw [this, hx] at hx'; simpa using hx'.symm
  have key : l'.EBN0margin = l.EBN0margin + 10 * Real.logb 10 (P / a.Pt) := by
    have : computeDB P = computeDB a.Pt + 10 * Real.logb 10 (P / a.Pt) := by
      unfold computeDB; rw [Real.logb_div hP'.ne' hP.ne']; ring
    rw [hM, hM', hE, hE', g1, g2, hww]; simp only [this]; ring
  refine ⟨key, fun hlt => ?_⟩
  rw [key]
  have : 0 < Real.logb 10 (P / a.Pt) :=
    Real.logb_pos (by norm_num) ((one_lt_div hP).mpr hlt)
  linarith

/-- C10: a higher data rate strictly lowers the margin, by `10·log10` of the ratio. -/
theorem C10_rate (a : LinkArgs) (R : ℝ) (l l' : Link) (h : Link.init a = .ok l)
    (h' : Link.init { a with rateKbps := R } = .ok l') (hR : 0 < a.rateKbps) (hR' : 0 < R) :
    l'.EBN0margin = l.EBN0margin - 10 * Real.logb 10 (R / a.rateKbps) ∧
    (a.rateKbps < R → l'.EBN0margin < l.EBN0margin) := by
  obtain ⟨hf9, hw, ht, hx, _, hE, hM⟩ := link_init_ok h
  obtain ⟨_, hw', ht', hx', _, hE', hM'⟩ := link_init_ok h'
  have hww : l'.wavelength = l.wavelength := by rw [hw, hw']
  rw [hww] at ht' hx'
  have g1 : l'.GtDBi = l.GtDBi := by
    have : txGain { a with rateKbps := R } l.wavelength = txGain a l.wavelength := rfl
    rw [this, ht] at ht'; simpa using ht'.symm
  have g2 : l'.GrDBi = l.GrDBi := by
    have : rxGain { a with rateKbps := R } l.wavelength = rxGain a l.wavelength := rfl
    rw [this, hx] at hx'; simpa using hx'.symm
  have key : l'.EBN0margin = l.EBN0margin - 10 * Real.logb 10 (R / a.rateKbps) := by
    have : computeDB (R * 1e3) = computeDB (a.rateKbps * 1e3)
        + 10 * Real.logb 10 (R / a.rateKbps) := by
      unfold computeDB
      rw [Real.logb_mul hR'.ne' (by norm_num), Real.logb_mul hR.ne' (by norm_num),
        Real.logb_div hR'.ne' hR.ne']; ring
    rw [hM, hM', hE, hE', g1, g2, hww]; simp only [this]; ring
  refine ⟨key, fun hlt => ?_⟩
  rw [key]
  have : 0 < Real.logb 10 (R / a.rateKbps) :=
    Real.logb_pos (by norm_num) ((one_lt_div hR).mpr hlt)
  linarith

/-- C10: a more efficient transmit dish strictly raises the margin. -/
theorem C10_tx_efficiency (a : LinkArgs) (D eta eta' : ℝ) (l l' : Link)
    (hD : a.Dt = some D) (he : a.etaT = some eta) (hD0 : 0 < D) (he0 : 0 < eta) (hlt : eta < eta')
    (h : Link.init a = .ok l) (h' : Link.init { a with etaT := some eta' } = .ok l')
    (hf : 0 < a.freq) : l.EBN0margin < l'.EBN0margin := by
  have hpi := Real.pi_pos
  obtain ⟨hf9, hw, ht, hx, _, hE, hM⟩ := link_init_ok h
  obtain ⟨_, hw', ht', hx', _, hE', hM'⟩ := link_init_ok h'
  have hww : l'.wavelength = l.wavelength := by rw [hw, hw']
  rw [hww] at ht' hx'
  have hwp : 0 < l.wavelength := by rw [hw]; positivity
  have he0' : 0 < eta' := he0.trans hlt
  have g2 : l'.GrDBi = l.GrDBi := by
    have : rxGain { a with etaT := some eta' } l.wavelength = rxGain a l.wavelength := rfl
    rw [this, hx] at hx'; simpa using hx'.symm
  simp [txGain, hD, he, hD0.ne', he0.ne'] at ht
  simp [txGain, hD, hD0.ne', he0'.ne'] at ht'
  have : l.GtDBi < l'.GtDBi := by
    rw [← ht, ← ht']
    unfold computeDB computeAntennaGain
    have := logb_lt (x := eta * (Real.pi * D / l.wavelength) ^ 2)
      (y := eta' * (Real.pi * D / l.wavelength) ^ 2) (by positivity)
      (mul_lt_mul_of_pos_right hlt (by positivity))
    linarith
  rw [hM, hM', hE, hE', g2, hww]
  simp only
  linarith

/-- C10: a more efficient receive dish strictly raises the margin. -/
theorem C10_rx_efficiency (a : LinkArgs) (D Dt eta eta' : ℝ) (l l' : Link)
    (hD : a.Dr = some D) (hDt : a.Dt = some Dt) (he : a.etaR = some eta) (hD0 : 0 < D)
    (hDt0 : 0 < Dt) (he0 : 0 < eta) (hlt : eta < eta')
    (h : Link.init a = .ok l) (h' : Link.init { a with etaR := some eta' } = .ok l')
    (hf : 0 < a.freq) : l.EBN0margin < l'.EBN0margin := by
  have hpi := Real.pi_pos
  obtain ⟨hf9, hw, ht, hx, _, hE, hM⟩ := link_init_ok h
  obtain ⟨_, hw', ht', hx', _, hE', hM'⟩ := link_init_ok h'
  have hww : l'.wavelength = l.wavelength := by rw [hw, hw']
  rw [hww] at ht' hx'
  have hwp : 0 < l.wavelength := by rw [hw]; positivity
  have he0' : 0 < eta' := he0.trans hlt
  have g1 : l'.GtDBi = l.GtDBi := by
    have : txGain { a with etaR := some eta' } l.wavelength = txGain a l.wavelength := rfl
    rw [this, ht] at ht'; simpa using ht'.symm
  simp [rxGain, hD, he, hDt, hD0.ne', he0.ne', needNumber, bind, Except.bind, pure, Except.pure] at hx
  simp [rxGain, hD, hDt, hD0.ne', he0'.ne', needNumber, bind, Except.bind, pure, Except.pure] at hx'
  have : l.GrDBi < l'.GrDBi := by
    rw [← hx, ← hx']
    unfold computeDB computeAntennaGain
    have := logb_lt (x := eta * (Real.pi * Dt / l.wavelength) ^ 2)
      (y := eta' * (Real.pi * Dt / l.wavelength) ^ 2) (by positivity)
      (mul_lt_mul_of_pos_right hlt (by positivity))
    linarith
  rw [hM, hM', hE, hE', g1, hww]
  simp only
  linarith

/-- Cases for `C10_range`, `C10_double_range`, `C10_power`, `C10_rate`, `C10_tx_efficiency` and `C10_rx_efficiency`: the
link between two dishes, with one argument changed at a time. -/
example : ∃ l r p s e e' : Link, Link.init (demoLink 65 1.5e8 28 0.6 0.6) = .ok l ∧
    Link.init (demoLink 65 3e8 28 0.6 0.6) = .ok r ∧ Link.init (demoLink 100 1.5e8 28 0.6 0.6) = .ok p ∧
    Link.init (demoLink 65 1.5e8 14 0.6 0.6) = .ok s ∧ Link.init (demoLink 65 1.5e8 28 0.7 0.6) = .ok e ∧
    Link.init (demoLink 65 1.5e8 28 0.6 0.7) = .ok e' ∧
    r.EBN0margin = l.EBN0margin - 20 * Real.logb 10 2 ∧ l.EBN0margin < p.EBN0margin ∧
    s.EBN0margin = l.EBN0margin - 10 * Real.logb 10 (14 / 28) ∧ l.EBN0margin < e.EBN0margin ∧
    l.EBN0margin < e'.EBN0margin := by
  have h6 : (0.6:ℝ) ≠ 0 := by norm_num
  have h7 : (0.7:ℝ) ≠ 0 := by norm_num
  obtain ⟨l, hl⟩ := demoLink_ok 65 1.5e8 28 h6 h6
  obtain ⟨r, hr⟩ := demoLink_ok 65 3e8 28 h6 h6
  obtain ⟨p, hp⟩ := demoLink_ok 100 1.5e8 28 h6 h6
  obtain ⟨s, hs⟩ := demoLink_ok 65 1.5e8 14 h6 h6
  obtain ⟨e, he⟩ := demoLink_ok 65 1.5e8 28 h7 h6
  obtain ⟨e', he'⟩ := demoLink_ok 65 1.5e8 28 h6 h7
  refine ⟨l, r, p, s, e, e', hl, hr, hp, hs, he, he', ?_, ?_, ?_, ?_, ?_⟩
  · refine C10_double_range _ l r hl ?_ (by norm_num [demoLink]) (by norm_num [demoLink])
    have : 2 * (demoLink 65 1.5e8 28 0.6 0.6).rangeKm = 3e8 := by norm_num [demoLink]
    rw [this]; exact hr
  · exact (C10_power _ 100 l p hl hp (by norm_num [demoLink]) (by norm_num)).2 (by norm_num [demoLink])
  · exact (C10_rate _ 14 l s hl hs (by norm_num [demoLink]) (by norm_num)).1
  · exact C10_tx_efficiency _ 1 0.6 0.7 l e rfl rfl (by norm_num) (by norm_num) (by norm_num) hl he
      (by norm_num [demoLink])
  · exact C10_rx_efficiency _ 1 1 0.6 0.7 l e' rfl rfl rfl (by norm_num) (by norm_num) (by norm_num) (by norm_num) hl he'
      (by norm_num [demoLink])

/-! ### C11 -/

theorem windowLoop_iff (t : ℝ) (ws : List (ℝ × ℝ)) :
    ∀ cur, windowLoop t cur ws = true ↔ (∃ w ∈ ws, w.1 ≤ t ∧ t ≤ w.2) ∨ (ws = [] ∧ cur = true) := by
  induction ws with
  | nil => intro cur; simp [windowLoop]
  | cons w ws ih =>
      intro cur
      simp only [windowLoop]
      split_ifs with h
      · simp [h]
      · rw [ih]; simp [h]

theorem linspace0_getElem (T : ℝ) (n i : ℕ) (hi : i < n) :
    (linspace0 T n)[i]? = some ((i : ℝ) * (T / ((n : ℝ) - 1))) := by
  rw [linspace0, List.getElem?_map, List.getElem?_range hi]; rfl

theorem linspace0_length (T : ℝ) (n : ℕ) : (linspace0 T n).length = n := by
  rw [linspace0, List.length_map, List.length_range]

/-- C11: one entry per sample; entry `i` belongs to the time `i·T/(n-1)` and is `True` exactly when that time
lies in at least one requested window, ends included. -/
theorem C11_schedule (T : ℝ) (n : ℕ) (ws : List (ℝ × ℝ)) :
    (scheduleInit T n ws).1.length = n ∧ (scheduleInit T n ws).2.length = n ∧
    (∀ i, i < n → ∃ t b, (scheduleInit T n ws).1[i]? = some t ∧ (scheduleInit T n ws).2[i]? = some b ∧
      t = (i : ℝ) * (T / ((n : ℝ) - 1)) ∧ (b = true ↔ ∃ w ∈ ws, w.1 ≤ t ∧ t ≤ w.2)) := by
  refine ⟨linspace0_length T n, by simp [scheduleInit, linspace0_length], ?_⟩
  intro i hi
  refine ⟨_, windowLoop ((i : ℝ) * (T / ((n : ℝ) - 1))) false ws, ?_, ?_, rfl, ?_⟩
  · exact linspace0_getElem T n i hi
  · simp only [scheduleInit]
    rw [List.getElem?_map, linspace0_getElem T n i hi]; rfl
  · rw [windowLoop_iff]; simp

/-- C11: order, repetition and overlap of the windows do not matter: schedules of window lists with the same
windows are equal; no windows means never transmitting; the last sample is the requested duration. -/
theorem C11_schedule_order_irrelevant (T : ℝ) (n : ℕ) (ws ws' : List (ℝ × ℝ))
    (h : ∀ w, w ∈ ws ↔ w ∈ ws') : scheduleInit T n ws = scheduleInit T n ws' := by
  simp only [scheduleInit, Prod.mk.injEq, true_and]
  apply List.map_congr_left
  intro t _
  rw [Bool.eq_iff_iff, windowLoop_iff, windowLoop_iff]
  simp [h]

theorem C11_schedule_grid (T : ℝ) (n : ℕ) (hn : 2 ≤ n) (ws : List (ℝ × ℝ)) :
    (scheduleInit T n ws).1[0]? = some 0 ∧ (scheduleInit T n ws).1[n - 1]? = some T ∧
    (0 ≤ T → (scheduleInit T n ws).1.Pairwise (· ≤ ·)) := by
  have hn1 : (0:ℝ) < (n : ℝ) - 1 := by
    have : (2:ℝ) ≤ n := by exact_mod_cast hn
    linarith
  refine ⟨?_, ?_, ?_⟩
  · exact (linspace0_getElem T n 0 (by omega)).trans (by simp)
  · have : ((n - 1 : ℕ) : ℝ) = (n : ℝ) - 1 := by rw [Nat.cast_sub (by omega)]; simp
    refine (linspace0_getElem T n (n - 1) (by omega)).trans ?_
    rw [this]; congr 1; field_simp
  · intro hT
    simp only [scheduleInit, linspace0, List.pairwise_map]
    refine List.Pairwise.imp ?_ List.pairwise_lt_range
    intro a b hab
    apply mul_le_mul_of_nonneg_right
    · exact_mod_cast hab.le
    · positivity

/-- Case for `C11_schedule_order_irrelevant` and `C11_schedule_grid`: two overlapping windows in a pass of 100 s sampled at
11 points. -/
example : scheduleInit 100 11 [(10, 30), (20, 50)] = scheduleInit 100 11 [(20, 50), (10, 30), (20, 50)] ∧
    (scheduleInit 100 11 [(10, 30), (20, 50)]).1[10]? = some 100 := by
  refine ⟨C11_schedule_order_irrelevant _ _ _ _ ?_, (C11_schedule_grid 100 11 (by norm_num) _).2.1⟩
  intro w
  simp only [List.mem_cons, List.not_mem_nil, or_false]
  tauto

/-! ### C12 -/

/-- One step of the running trapezoid. -/
theorem trapzFrom_getElem (samples : List (ℝ × ℝ)) : ∀ (acc : ℝ) (i : ℕ) (p q : ℝ × ℝ),
    samples[i]? = some p → samples[i + 1]? = some q →
    ∃ u, (acc :: trapzFrom acc samples)[i]? = some u ∧
      (acc :: trapzFrom acc samples)[i + 1]? = some (u + (q.1 - p.1) * (p.2 + q.2) / 2) := by
  induction samples with
  | nil => intro acc i p q h; simp at h
  | cons a rest ih =>
      intro acc i p q hp hq
      cases rest with
      | nil => simp at hq
      | cons b rest =>
          cases i with
          | zero =>
              simp at hp hq; subst hp; subst hq
              exact ⟨acc, by simp, by simp [trapzFrom]⟩
          | succ i =>
              simp only [List.getElem?_cons_succ] at hp hq
              obtain ⟨u, h1, h2⟩ := ih (acc + (b.1 - a.1) * (a.2 + b.2) / 2) i p q hp hq
              exact ⟨u, by simpa [trapzFrom] using h1, by simpa [trapzFrom] using h2⟩

theorem trapzFrom_length (samples : List (ℝ × ℝ)) : ∀ acc : ℝ,
    (trapzFrom acc samples).length = samples.length - 1 := by
  induction samples with
  | nil => intro acc; rfl
  | cons a rest ih =>
      intro acc
      cases rest with
      | nil => rfl
      | cons b rest => simp [trapzFrom, ih]

/-- C12: for arrays of equal length on a non-decreasing time grid, the data volume has one entry per sample,
starts at 0, and over each step of length `dt` the increment `Δ` satisfies `0 ≤ Δ ≤ rate·dt`, is the full
`rate·dt` when the link is visible and transmitting at both ends, is zero when it is down at both ends, and is half of
it otherwise. -/
theorem C12_data_volume (R : ℝ) (hR : 0 ≤ R) (ts : List ℝ) (vis tx : List Bool)
    (hv : vis.length = ts.length) (ht : tx.length = ts.length) (hne : ts ≠ [])
    (hmono : ts.Pairwise (· ≤ ·)) :
    ∃ dv, computeDataVolume R ts vis tx = .ok dv ∧ dv.length = ts.length ∧ dv[0]? = some 0 ∧
    ∀ i t0 t1 v0 v1 x0 x1, ts[i]? = some t0 → ts[i + 1]? = some t1 → vis[i]? = some v0 →
      vis[i + 1]? = some v1 → tx[i]? = some x0 → tx[i + 1]? = some x1 →
      ∃ u u', dv[i]? = some u ∧ dv[i + 1]? = some u' ∧ u ≤ u' ∧ u' - u ≤ R * (t1 - t0) ∧
        ((v0 && x0) = true → (v1 && x1) = true → u' - u = R * (t1 - t0)) ∧
        ((v0 && x0) = false → (v1 && x1) = false → u' = u) ∧
        ((v0 && x0) ≠ (v1 && x1) → u' - u = R * (t1 - t0) / 2) := by
  set samples := ts.zip ((vis.zip tx).map (fun p => R * boolNum p.1 * boolNum p.2)) with hs
  have hlen : samples.length = ts.length := by simp [hs, hv, ht]
  have hsne : samples ≠ [] := by
    intro h; rw [h] at hlen; simp at hlen; exact hne (List.length_eq_zero_iff.mp hlen.symm)
  refine ⟨0 :: trapzFrom 0 samples, ?_, ?_, by simp, ?_⟩
  · simp only [computeDataVolume, hv, ht, ne_eq, not_true_eq_false, or_self, if_false, ← hs]
    cases hc : samples with
    | nil => exact absurd hc hsne
    | cons a b => simp [cumTrapz]
  · have : 0 < ts.length := List.length_pos_iff.mpr hne
    simp [trapzFrom_length, hlen]; omega
  · intro i t0 t1 v0 v1 x0 x1 h1 h2 h3 h4 h5 h6
    have hp : samples[i]? = some (t0, R * boolNum v0 * boolNum x0) := by
      simp only [hs, List.getElem?_zip_eq_some, List.getElem?_map]
      exact ⟨h1, by simp [List.zip, List.getElem?_zipWith, h3, h5]⟩
    have hq : samples[i + 1]? = some (t1, R * boolNum v1 * boolNum x1) := by
      simp only [hs, List.getElem?_zip_eq_some, List.getElem?_map]
      exact ⟨h2, by simp [List.zip, List.getElem?_zipWith, h4, h6]⟩
    obtain ⟨u, hu, hu'⟩ := trapzFrom_getElem samples 0 i _ _ hp hq
    have hle : t0 ≤ t1 := by
      rw [List.getElem?_eq_some_iff] at h1 h2
      obtain ⟨l1, e1⟩ := h1
      obtain ⟨l2, e2⟩ := h2
      have := List.pairwise_iff_getElem.mp hmono i (i + 1) l1 l2 (by omega)
      rwa [e1, e2] at this
    have hRt : 0 ≤ R * (t1 - t0) := mul_nonneg hR (by linarith)
    have hb : ∀ v x : Bool, R * boolNum v * boolNum x = if (v && x) = true then R else 0 := by
      intro v x; cases v <;> cases x <;> simp [boolNum]
    refine ⟨u, _, hu, hu', ?_⟩
    simp only [hb]
    generalize (v0 && x0) = b0
    generalize (v1 && x1) = b1
    have e : R * (t1 - t0) = (t1 - t0) * R := mul_comm _ _
    cases b0 <;> cases b1 <;> simp
    · exact hRt
    · refine ⟨?_, ?_, ?_⟩ <;> linarith
    · refine ⟨?_, ?_, ?_⟩ <;> linarith
    · refine ⟨?_, ?_, ?_⟩ <;> linarith

/-- C12: arrays of different lengths are rejected. -/
theorem C12_length_mismatch (R : ℝ) (ts : List ℝ) (vis tx : List Bool)
    (h : vis.length ≠ ts.length ∨ tx.length ≠ ts.length) :
    computeDataVolume R ts vis tx = .error .valueError := by
  simp [computeDataVolume, h]

/-- C12: over the whole pass the volume never exceeds rate × elapsed time. -/
theorem C12_total_bound (R : ℝ) (hR : 0 ≤ R) (ts : List ℝ) (vis tx : List Bool)
    (hv : vis.length = ts.length) (ht : tx.length = ts.length)
    (hmono : ts.Pairwise (· ≤ ·)) (dv : List ℝ) (h : computeDataVolume R ts vis tx = .ok dv)
    (t0 : ℝ) (h0 : ts[0]? = some t0) :
    ∀ (i : ℕ) (t : ℝ), ts[i]? = some t → ∃ u, dv[i]? = some u ∧ 0 ≤ u ∧ u ≤ R * (t - t0) := by
  have hne : ts ≠ [] := by rintro rfl; simp at h0
  obtain ⟨dv', h', hl, hz, hstep⟩ := C12_data_volume R hR ts vis tx hv ht hne hmono
  rw [h] at h'
  obtain rfl : dv = dv' := by simpa using h'
  intro i
  induction i with
  | zero =>
      intro t hti
      rw [h0] at hti
      obtain rfl : t0 = t := by simpa using hti
      exact ⟨0, hz, le_rfl, by simp⟩
  | succ i ih =>
      intro t hti
      have hi1 : i + 1 < ts.length := (List.getElem?_eq_some_iff.mp hti).1
      have hi : i < ts.length := by omega
      obtain ⟨u, hu, hu0, hub⟩ := ih ts[i] (List.getElem?_eq_getElem hi)
      obtain ⟨a, b, ha, hb, hab, hbd, _⟩ := hstep i ts[i] t vis[i] vis[i+1] tx[i] tx[i+1]
        (List.getElem?_eq_getElem hi) hti (List.getElem?_eq_getElem (by omega))
        (List.getElem?_eq_getElem (by omega)) (List.getElem?_eq_getElem (by omega))
        (List.getElem?_eq_getElem (by omega))
      rw [hu] at ha
      obtain rfl : u = a := by simpa using ha
      exact ⟨b, hb, by linarith, by linarith [mul_sub R t ts[i], mul_sub R ts[i] t0, mul_sub R t t0]⟩

/-- Cases for `C12_data_volume`, `C12_total_bound` and `C12_length_mismatch`: four samples of a pass, transmitting during
the second and third. -/
example : ∃ dv, computeDataVolume 1000 [0, 10, 20, 30] [true, true, true, false] [false, true, true, true] = .ok dv ∧
    dv.length = 4 ∧ (∃ u, dv[3]? = some u ∧ 0 ≤ u ∧ u ≤ 1000 * (30 - 0)) ∧
    computeDataVolume 1000 [0, 10, 20, 30] [true, true, true] [false, true, true, true] = .error .valueError := by
  have hm : ([0, 10, 20, 30] : List ℝ).Pairwise (· ≤ ·) := by norm_num
  obtain ⟨dv, h, hl, -⟩ := C12_data_volume 1000 (by norm_num) [0, 10, 20, 30] [true, true, true, false]
    [false, true, true, true] rfl rfl (by simp) hm
  exact ⟨dv, h, hl, C12_total_bound 1000 (by norm_num) _ _ _ rfl rfl hm dv h 0 rfl 3 30 rfl,
    C12_length_mismatch _ _ _ _ (Or.inl (by simp))⟩

example : ([0, 1, 2] : List ℝ).Pairwise (· ≤ ·) ∧ ([true, true, false] : List Bool).length = 3 := by
  constructor
  · norm_num
  · rfl

end AMAT.Props
