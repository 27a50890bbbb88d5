import Verif.Lemmas.SonicCheck
import Verif.Props.ShippedAtmospheres
import Verif.Props.MissingAttributes

/-
Property C99: the speed of sound in the shipped atmospheres, and the Mach numbers derived from it.
-/

noncomputable section

open Classical

namespace AMAT.Spec

open AMAT.Data

/-- The shipped atmospheres with a lower and an upper bound of the speed of sound in them, m/s. -/
def soundRange : List (String × AtmFile × ℕ × ℕ) :=
  [("VENUS", venus, 189, 975), ("EARTH", earth, 271, 563), ("MARS", mars, 174, 236), ("JUPITER", jupiter, 775, 2206),
   ("SATURN", saturn, 686, 1518), ("TITAN", titan, 171, 341), ("NEPTUNE", neptune, 485, 2098),
   ("URANUS", uranusAmes, 523, 2222), ("URANUS", uranusGram, 500, 2210)]

end AMAT.Spec

namespace AMAT.Props

open AMAT AMAT.Spline AMAT.Data AMAT.Spec

/-- The enclosure of a row holds. -/
theorem enclosed_sound {F : AtmFile} {C c : ℕ} {r : ℤ × ℤ × ℤ × ℤ} (h : enclosed F C c r = true) {g : ℝ}
    (hg : g = C / 10 ^ c) :
    (1 / 1000 : ℝ) * (sonicCol F C c r : ℝ) ≤ Real.sqrt (g * (r.2.2.1 / 10 ^ F.pDec : ℝ) / (r.2.2.2 / 10 ^ F.dDec)) ∧
    Real.sqrt (g * (r.2.2.1 / 10 ^ F.pDec : ℝ) / (r.2.2.2 / 10 ^ F.dDec)) ≤
      (1 / 1000 : ℝ) * ((sonicCol F C c r : ℝ) + 1) := by
  simp only [enclosed, Bool.and_eq_true, decide_eq_true_eq] at h
  obtain ⟨⟨⟨hd, hY⟩, h1⟩, h2⟩ := h
  have hdR : (0:ℝ) < r.2.2.2 := by exact_mod_cast hd
  have hYR : (0:ℝ) ≤ sonicCol F C c r := by exact_mod_cast hY
  generalize sonicCol F C c r = Y at *
  have h1R : (Y:ℝ) ^ 2 * (10 ^ (c + F.pDec) * r.2.2.2) ≤ C * 10 ^ (F.dDec + 6) * r.2.2.1 := by exact_mod_cast h1
  have h2R : (C * 10 ^ (F.dDec + 6) * r.2.2.1 : ℝ) ≤ ((Y:ℝ) + 1) ^ 2 * (10 ^ (c + F.pDec) * r.2.2.2) := by
    exact_mod_cast h2
  have e : g * (r.2.2.1 / 10 ^ F.pDec : ℝ) / (r.2.2.2 / 10 ^ F.dDec) =
      (C * 10 ^ (F.dDec + 6) * r.2.2.1) / (10 ^ (c + F.pDec) * r.2.2.2) / 1000 ^ 2 := by
    rw [hg, pow_add, pow_add]
    field_simp
    norm_num
  have hden : (0:ℝ) < 10 ^ (c + F.pDec) * r.2.2.2 := by positivity
  rw [e]
  constructor
  · apply Real.le_sqrt_of_sq_le
    rw [mul_pow, le_div_iff₀ (by norm_num), le_div_iff₀ hden]
    calc _ = (Y:ℝ) ^ 2 * (10 ^ (c + F.pDec) * r.2.2.2) := by ring
      _ ≤ _ := h1R
  · apply Real.sqrt_le_iff.mpr
    refine ⟨by positivity, ?_⟩
    rw [mul_pow, div_le_iff₀ (by norm_num), div_le_iff₀ hden]
    calc _ ≤ ((Y:ℝ) + 1) ^ 2 * (10 ^ (c + F.pDec) * r.2.2.2) := h2R
      _ = _ := by ring

/-- What a successful check of a file says about the speed of sound. -/
theorem sonicCheck_sound {F : AtmFile} {asc : Bool} {C c : ℕ} {m : List ℤ} {κ e e₂ D w lo hi : ℤ}
    (h : sonicCheck F asc C c m κ e e₂ D w lo hi = true) {P : Planet} (hg : P.CPCV = C / 10 ^ c) {fill : ℝ}
    {f : ℝ → ℝ} (hf : IsCubicInterp ((fileRows F).map fun r => (atmHeight F.km r,
      Real.sqrt (P.CPCV * r.pres / r.dens))) fill f) {t : ℝ} {r r' : AtmRow} (hr : r ∈ fileRows F) (hr' : r' ∈ fileRows F)
    (h0 : atmHeight F.km r ≤ t) (h1 : t ≤ atmHeight F.km r') : (lo : ℝ) ≤ f t ∧ f t ≤ hi := by
  simp only [sonicCheck, Bool.and_eq_true, decide_eq_true_eq] at h
  obtain ⟨⟨⟨⟨⟨hlen, hcert⟩, hw⟩, he⟩, henc⟩, hb⟩ := h
  set S := if asc then F.rows else F.rows.reverse with hS
  have hperm0 : S.Perm F.rows := by
    rw [hS]; cases asc
    · exact List.reverse_perm _
    · exact List.Perm.refl _
  have hchk := certCheck_sound hcert
  set L := nodesOf S (sonicCol F C c) m with hL
  have hLlen : L.length = S.length := by
    rw [hL, nodesOf, List.length_zipWith]; omega
  have hh := heightScale_pos F
  let g : ℤ × ℤ × ℤ × ℤ → ℝ × ℝ := fun r => (heightScale F * (r.1 : ℝ),
    Real.sqrt (P.CPCV * (r.2.2.1 / 10 ^ F.pDec : ℝ) / (r.2.2.2 / 10 ^ F.dDec)))
  have hrows : (fileRows F).map (fun r => (atmHeight F.km r, Real.sqrt (P.CPCV * r.pres / r.dens))) = F.rows.map g := by
    unfold fileRows
    rw [List.map_map]
    apply List.map_congr_left
    intro r _
    simp only [Function.comp, atmHeight_eq, g]
  rw [hrows] at hf
  have hLget : ∀ i, (hi : i < L.length) → L[i] = ((S[i]'(by omega)).1, sonicCol F C c (S[i]'(by omega)), m[i]'(by omega)) := by
    intro i hi
    simp only [hL, nodesOf, List.getElem_zipWith]
  have hN1 : ∀ i, ((S.map g).getD i (0, 0)).1 = heightScale F * absc L i := by
    intro i
    by_cases hi : i < L.length
    · rw [List.getD_eq_getElem _ _ (by simp; omega), absc_get hi, hLget i hi, List.getElem_map]
    · rw [List.getD_eq_default _ _ (by simp; omega), absc, List.getD_eq_default _ _ (by omega)]
      simp
  have hN2 : ∀ i ≤ L.length - 1, (1 / 1000 : ℝ) * ordi L i ≤ ((S.map g).getD i (0, 0)).2 ∧
      ((S.map g).getD i (0, 0)).2 ≤ (1 / 1000 : ℝ) * (ordi L i + 1) := by
    intro i hi
    have hi' : i < L.length := by have := hchk.len; omega
    have hmem : S[i]'(by omega) ∈ F.rows := hperm0.subset (List.getElem_mem _)
    have := enclosed_sound (List.all_eq_true.mp henc _ hmem) hg
    rw [List.getD_eq_getElem _ _ (by simp; omega), ordi_get hi', hLget i hi', List.getElem_map]
    exact this
  have hends : ∀ q ∈ fileRows F, heightScale F * absc L 0 ≤ atmHeight F.km q ∧
      atmHeight F.km q ≤ heightScale F * absc L (L.length - 1) := by
    intro q hq
    unfold fileRows at hq
    rw [List.mem_map] at hq
    obtain ⟨z, hz, rfl⟩ := hq
    rw [atmHeight_eq]
    obtain ⟨i, hi, rfl⟩ := List.mem_iff_getElem.mp (hperm0.symm.subset hz)
    have hi' : i < L.length := by omega
    have e1 : ((S[i].1 : ℤ) : ℝ) = absc L i := by rw [absc_get hi', hLget i hi']
    rw [e1]
    exact ⟨mul_le_mul_of_nonneg_left (increasing_le hchk.incr (Nat.zero_le i) (by omega)) hh.le,
      mul_le_mul_of_nonneg_left (increasing_le hchk.incr (show i ≤ L.length - 1 by omega) le_rfl) hh.le⟩
  have := interp_between hchk hw he hb hh (ry := 1 / 1000) (by norm_num) (N := S.map g) (by simp [hLlen]) hN1 hN2
    (hperm0.map g) hf ((hends r hr).1.trans h0) (h1.trans (hends r' hr').2)
  push_cast at this
  constructor <;> linarith [this.1, this.2]

/-- C99: between the lowest and the highest row of its file the interpolated speed of sound of every shipped atmosphere
lies between the bounds listed in `soundRange`. -/
theorem C99_sound_speed_bounds (name : String) (F : AtmFile) (lo hi : ℕ) (hF : (name, F, lo, hi) ∈ soundRange)
    (P : Planet) (hP : Planet.init name = .ok P) (atm : Atmosphere) (hatm : LoadedCubic P F.km (fileRows F) atm) (h : ℝ)
    (r r' : AtmRow) (hr : r ∈ fileRows F) (hr' : r' ∈ fileRows F) (h0 : atmHeight F.km r ≤ h)
    (h1 : h ≤ atmHeight F.km r') : (lo : ℝ) ≤ atm.sonicInt h ∧ atm.sonicInt h ≤ hi := by
  have hs := hatm.2.2.2
  simp only [soundRange, List.mem_cons, Prod.mk.injEq, List.not_mem_nil, or_false] at hF
  rcases hF with ⟨rfl, rfl, rfl, rfl⟩ | ⟨rfl, rfl, rfl, rfl⟩ | ⟨rfl, rfl, rfl, rfl⟩ | ⟨rfl, rfl, rfl, rfl⟩ |
    ⟨rfl, rfl, rfl, rfl⟩ | ⟨rfl, rfl, rfl, rfl⟩ | ⟨rfl, rfl, rfl, rfl⟩ | ⟨rfl, rfl, rfl, rfl⟩ | ⟨rfl, rfl, rfl, rfl⟩ <;>
    simp only [Nat.cast_ofNat]
  · exact_mod_cast sonicCheck_sound venus_sonic (P := P)
      (by simp [Planet.init] at hP; subst hP; norm_num [Planet.withScales]) hs hr hr' h0 h1
  · exact_mod_cast sonicCheck_sound earth_sonic (P := P)
      (by simp [Planet.init] at hP; subst hP; norm_num [Planet.withScales]) hs hr hr' h0 h1
  · exact_mod_cast sonicCheck_sound mars_sonic (P := P)
      (by simp [Planet.init] at hP; subst hP; norm_num [Planet.withScales]) hs hr hr' h0 h1
  · exact_mod_cast sonicCheck_sound jupiter_sonic (P := P)
      (by simp [Planet.init] at hP; subst hP; norm_num [Planet.withScales]) hs hr hr' h0 h1
  · exact_mod_cast sonicCheck_sound saturn_sonic (P := P)
      (by simp [Planet.init] at hP; subst hP; norm_num [Planet.withScales]) hs hr hr' h0 h1
  · exact_mod_cast sonicCheck_sound titan_sonic (P := P)
      (by simp [Planet.init] at hP; subst hP; norm_num [Planet.withScales]) hs hr hr' h0 h1
  · exact_mod_cast sonicCheck_sound neptune_sonic (P := P)
      (by simp [Planet.init] at hP; subst hP; norm_num [Planet.withScales]) hs hr hr' h0 h1
  · exact_mod_cast sonicCheck_sound uranusAmes_sonic (P := P)
      (by simp [Planet.init] at hP; subst hP; norm_num [Planet.withScales]) hs hr hr' h0 h1
  · exact_mod_cast sonicCheck_sound uranusGram_sonic (P := P)
      (by simp [Planet.init] at hP; subst hP; norm_num [Planet.withScales]) hs hr hr' h0 h1

theorem soundRange_shipped {name : String} {F : AtmFile} {lo hi : ℕ} (h : (name, F, lo, hi) ∈ soundRange) :
    (name, F) ∈ shippedFiles ∧ 0 < lo := by
  simp only [soundRange, List.mem_cons, Prod.mk.injEq, List.not_mem_nil, or_false] at h
  rcases h with ⟨rfl, rfl, rfl, rfl⟩ | ⟨rfl, rfl, rfl, rfl⟩ | ⟨rfl, rfl, rfl, rfl⟩ | ⟨rfl, rfl, rfl, rfl⟩ |
    ⟨rfl, rfl, rfl, rfl⟩ | ⟨rfl, rfl, rfl, rfl⟩ | ⟨rfl, rfl, rfl, rfl⟩ | ⟨rfl, rfl, rfl, rfl⟩ | ⟨rfl, rfl, rfl, rfl⟩ <;>
    simp [shippedFiles]

theorem shipped_soundRange {name : String} {F : AtmFile} (h : (name, F) ∈ shippedFiles) :
    ∃ lo hi, (name, F, lo, hi) ∈ soundRange := by
  simp only [shippedFiles, List.mem_cons, Prod.mk.injEq, List.not_mem_nil, or_false] at h
  rcases h with ⟨rfl, rfl⟩ | ⟨rfl, rfl⟩ | ⟨rfl, rfl⟩ | ⟨rfl, rfl⟩ | ⟨rfl, rfl⟩ | ⟨rfl, rfl⟩ | ⟨rfl, rfl⟩ |
    ⟨rfl, rfl⟩ | ⟨rfl, rfl⟩ <;> simp only [soundRange]
  · exact ⟨189, 975, by simp⟩
  · exact ⟨271, 563, by simp⟩
  · exact ⟨174, 236, by simp⟩
  · exact ⟨775, 2206, by simp⟩
  · exact ⟨686, 1518, by simp⟩
  · exact ⟨171, 341, by simp⟩
  · exact ⟨485, 2098, by simp⟩
  · exact ⟨523, 2222, by simp⟩
  · exact ⟨500, 2210, by simp⟩

/-- Every shipped table reaches from the reference altitude or below to the edge of the atmosphere. -/
theorem table_covers {name : String} {F : AtmFile} (hF : (name, F) ∈ shippedFiles) {P : Planet}
    (hP : Planet.init name = .ok P) :
    ∃ r ∈ fileRows F, ∃ r' ∈ fileRows F, atmHeight F.km r ≤ 0 ∧ P.hThres ≤ atmHeight F.km r' := by
  obtain ⟨L, κ, e, D, top, hc, htop⟩ := shipped_dens hF hP
  have hs := heightScale_pos F
  have hlen := hc.checked.len
  have hmem : ∀ i < L.length, ∃ r ∈ fileRows F, atmHeight F.km r = heightScale F * absc L i := by
    intro i hi
    have : (heightScale F * absc L i, (1 / 10 ^ F.dDec : ℝ) * ordi L i) ∈
        (fileRows F).map (fun r => (atmHeight F.km r, r.dens)) := by
      rw [dens_rows]
      refine (hc.perm (heightScale F) (1 / 10 ^ F.dDec)).subset ?_
      rw [← scaled_getD, List.getD_eq_getElem _ _ (by simpa using hi)]
      exact List.getElem_mem _
    obtain ⟨r, hr, hre⟩ := List.mem_map.mp this
    exact ⟨r, hr, (Prod.mk.injEq _ _ _ _ ▸ hre).1⟩
  obtain ⟨r, hr, he⟩ := hmem 0 (by omega)
  obtain ⟨r', hr', he'⟩ := hmem (L.length - 1) (by omega)
  exact ⟨r, hr, r', hr', by rw [he]; exact mul_nonpos_of_nonneg_of_nonpos hs.le hc.low,
    by rw [he']; exact htop.trans (mul_le_mul_of_nonneg_left hc.high hs.le)⟩

/-- C99: everywhere in a shipped atmosphere, from the reference altitude to its edge, the speed of sound lies between the
bounds of `soundRange` and is continuous. -/
theorem C99_in_atmosphere (name : String) (F : AtmFile) (lo hi : ℕ) (hF : (name, F, lo, hi) ∈ soundRange)
    (P : Planet) (hP : Planet.init name = .ok P) (atm : Atmosphere) (hatm : LoadedCubic P F.km (fileRows F) atm) :
    (∀ h ∈ Set.Icc 0 P.hThres, (lo : ℝ) ≤ atm.sonicInt h ∧ atm.sonicInt h ≤ hi) ∧
    ContinuousOn atm.sonicInt (Set.Icc 0 P.hThres) := by
  obtain ⟨r, hr, r', hr', h0, h1⟩ := table_covers (soundRange_shipped hF).1 hP
  constructor
  · intro h hh
    exact C99_sound_speed_bounds name F lo hi hF P hP atm hatm h r r' hr hr' (h0.trans hh.1) (hh.2.trans h1)
  · have := (C84_reproduces_rows _ _ _ hatm.2.2.2).2.2 _ (List.mem_map.mpr ⟨r, hr, rfl⟩) _
      (List.mem_map.mpr ⟨r', hr', rfl⟩)
    exact this.mono (Set.Icc_subset_Icc h0 h1)

/-- C99: at the height of a row the speed of sound is the one of an ideal gas with the pressure and the density of the
row, and outside the table it reads `1e20`; it is positive at every altitude. -/
theorem C99_positive (name : String) (F : AtmFile) (hF : (name, F) ∈ shippedFiles)
    (P : Planet) (hP : Planet.init name = .ok P) (atm : Atmosphere) (hatm : LoadedCubic P F.km (fileRows F) atm) :
    (∀ r ∈ fileRows F, atm.sonicInt (atmHeight F.km r) = Real.sqrt (P.CPCV * r.pres / r.dens)) ∧
    (∀ h, (∀ r ∈ fileRows F, h < atmHeight F.km r) ∨ (∀ r ∈ fileRows F, atmHeight F.km r < h) →
      atm.sonicInt h = 1e20) ∧
    ∀ h, 0 < atm.sonicInt h := by
  obtain ⟨h1, h2, -⟩ := C84_reproduces_rows _ _ _ hatm.2.2.2
  have hout : ∀ h, (∀ r ∈ fileRows F, h < atmHeight F.km r) ∨ (∀ r ∈ fileRows F, atmHeight F.km r < h) →
      atm.sonicInt h = 1e20 := by
    intro h hh
    apply h2
    refine hh.imp (fun hh q hq => ?_) (fun hh q hq => ?_) <;>
    · obtain ⟨r, hr, rfl⟩ := List.mem_map.mp hq
      exact hh r hr
  refine ⟨fun r hr => h1 _ (List.mem_map.mpr ⟨r, hr, rfl⟩), hout, ?_⟩
  intro h
  by_cases hh : (∀ r ∈ fileRows F, h < atmHeight F.km r) ∨ (∀ r ∈ fileRows F, atmHeight F.km r < h)
  · rw [hout h hh]; norm_num
  · push Not at hh
    obtain ⟨⟨r, hr, h0⟩, r', hr', h1⟩ := hh
    obtain ⟨lo, hi, hF'⟩ := shipped_soundRange hF
    have := (C99_sound_speed_bounds name F lo hi hF' P hP atm hatm h r r' hr hr' h0 h1).1
    have hlo : (0:ℝ) < lo := by exact_mod_cast (soundRange_shipped hF').2
    linarith

/-- C99: `computeMach` accepts exactly the speed arrays of the same length as the radius array or of length one. -/
theorem C99_mach_shapes (V : Vehicle) (rc vc : List ℝ) :
    ((∃ ms, V.computeMach rc vc = .ok ms) ↔ vc.length = rc.length ∨ vc.length = 1) ∧
    (V.computeMach rc vc = .error .valueError ↔ vc.length ≠ rc.length ∧ vc.length ≠ 1) := by
  unfold Vehicle.computeMach shapesFit
  simp only [bind, Except.bind, pure, Except.pure]
  by_cases h : rc.length = vc.length ∨ vc.length = 1
  · rw [if_pos h]
    refine ⟨⟨fun _ => h.imp Eq.symm id, fun _ => ⟨_, rfl⟩⟩, ⟨fun hc => by simp at hc, fun hc => ?_⟩⟩
    exact absurd h (by rintro (h | h); exacts [hc.1 h.symm, hc.2 h])
  · rw [if_neg h]
    refine ⟨⟨fun ⟨_, hc⟩ => by simp at hc, fun hc => absurd (hc.imp Eq.symm id) h⟩, ⟨fun _ => ?_, fun _ => rfl⟩⟩
    push Not at h
    exact ⟨fun hc => h.1 hc.symm, h.2⟩

/-- C99: the Mach numbers of a trajectory in a shipped atmosphere.  There is one for every sample; it is the speed over
the speed of sound at the altitude, agrees with `computeMachScalar`, is positive exactly when the speed is, and inside the
atmosphere lies between the speed over the highest and over the lowest speed of sound.  Outside the table it is
practically zero. -/
theorem C99_mach (name : String) (F : AtmFile) (lo hi : ℕ) (hF : (name, F, lo, hi) ∈ soundRange)
    (V : Vehicle) (hP : Planet.init name = .ok V.planet) (hatm : LoadedCubic V.planet F.km (fileRows F) V.atm)
    (rc vc : List ℝ) (hlen : vc.length = rc.length) :
    ∃ ms, V.computeMach rc vc = .ok ms ∧ ms.length = rc.length ∧
      ∀ (i : ℕ) (hm : i < ms.length) (hr : i < rc.length) (hv : i < vc.length),
        V.machScalarPy .before124 rc[i] vc[i] = .ok ms[i] ∧
        (0 < ms[i] ↔ 0 < vc[i]) ∧
        (0 ≤ vc[i] → rc[i] - V.planet.RP ∈ Set.Icc 0 V.planet.hThres → vc[i] / hi ≤ ms[i] ∧ ms[i] ≤ vc[i] / lo) ∧
        ((∀ r ∈ fileRows F, rc[i] - V.planet.RP < atmHeight F.km r) ∨
          (∀ r ∈ fileRows F, atmHeight F.km r < rc[i] - V.planet.RP) → ms[i] = vc[i] / 1e20) := by
  obtain ⟨hS, hlo⟩ := soundRange_shipped hF
  obtain ⟨-, hout, hpos⟩ := C99_positive name F hS V.planet hP V.atm hatm
  have hbd := (C99_in_atmosphere name F lo hi hF V.planet hP V.atm hatm).1
  have hloR : (0:ℝ) < lo := by exact_mod_cast hlo
  set vs := if vc.length = 1 then List.replicate rc.length (vc.headD 0) else vc with hvs
  have hvs' : vs = vc := by
    rw [hvs]; split
    · rename_i h1
      obtain ⟨v, rfl⟩ := List.length_eq_one_iff.mp h1
      rw [← hlen]; rfl
    · rfl
  have hms : V.computeMach rc vc = .ok (List.zipWith (fun r v => v / V.planet.sonicVec V.atm r) rc vc) := by
    unfold Vehicle.computeMach shapesFit
    simp only [bind, Except.bind, pure, Except.pure]
    rw [if_pos (Or.inl hlen.symm), ← hvs, hvs']
  refine ⟨_, hms, by simp [hlen], ?_⟩
  intro i hm hr hv
  simp only [List.getElem_zipWith, Planet.sonicVec]
  have hp := hpos (rc[i] - V.planet.RP)
  refine ⟨by simp [Vehicle.machScalarPy, npFloat, bind, Except.bind, pure, Except.pure], ?_, ?_, ?_⟩
  · exact ⟨fun h => by by_contra hc; exact absurd h (not_lt.mpr (div_nonpos_of_nonpos_of_nonneg (not_lt.mp hc) hp.le)),
      fun h => div_pos h hp⟩
  · intro h0 hin
    obtain ⟨h1, h2⟩ := hbd _ hin
    exact ⟨div_le_div_of_nonneg_left h0 hp h2, div_le_div_of_nonneg_left h0 hloR h1⟩
  · intro h
    rw [hout _ h]

/-- Case for the theorems of C99: the Mach numbers of two samples over Mars, at 50 km and at 100 km altitude and 6 km/s
and 5 km/s, lie between 21 and 35. -/
example : ∃ (V : Vehicle) (m₁ m₂ : ℝ), Planet.init "MARS" = .ok V.planet ∧
    LoadedCubic V.planet mars.km (fileRows mars) V.atm ∧
    V.computeMach [V.planet.RP + 50e3, V.planet.RP + 100e3] [6000, 5000] = .ok [m₁, m₂] ∧
    25 < m₁ ∧ m₁ < 35 ∧ 21 < m₂ ∧ m₂ < 29 := by
  obtain ⟨P, hP⟩ := (C01_planet_names "MARS").1.mpr (by simp [Spec.bodies])
  have hF : ("MARS", mars, 174, 236) ∈ soundRange := by simp [soundRange]
  obtain ⟨atm, hatm⟩ := (C85_loads "MARS" mars (soundRange_shipped hF).1 P hP).1
  have hT : P.hThres = 120e3 := by
    simp [Planet.init] at hP; subst hP; norm_num [Planet.withScales]
  let V : Vehicle := Vehicle.mk' 1000 100 0 10 0 1 P atm false (fun _ => 0) ⟨0, 0, 0, 0, 0, 0, 0, 0⟩
  obtain ⟨ms, hms, hl, hall⟩ := C99_mach "MARS" mars 174 236 hF V hP hatm [P.RP + 50e3, P.RP + 100e3] [6000, 5000] rfl
  have hl2 : ms.length = 2 := by simpa using hl
  obtain ⟨m₁, m₂, rfl⟩ := List.length_eq_two.mp hl2
  have a := (hall 0 (by simp) (by simp) (by simp)).2.2.1 (by norm_num)
    (by simp only [List.getElem_cons_zero]; change P.RP + 50e3 - P.RP ∈ Set.Icc 0 P.hThres
        rw [hT]; constructor <;> linarith)
  have b := (hall 1 (by simp) (by simp) (by simp)).2.2.1 (by norm_num)
    (by simp only [List.getElem_cons_succ, List.getElem_cons_zero]; change P.RP + 100e3 - P.RP ∈ Set.Icc 0 P.hThres
        rw [hT]; constructor <;> linarith)
  simp only [List.getElem_cons_succ, List.getElem_cons_zero, Nat.cast_ofNat] at a b
  norm_num at a b
  exact ⟨V, m₁, m₂, hP, hatm, hms, by linarith [a.1], by linarith [a.2], by linarith [b.1], by linarith [b.2]⟩

/-- Case for `C99_mach_shapes`: three radii and two speeds do not fit. -/
example (V : Vehicle) : V.computeMach [7e6, 8e6, 9e6] [1, 2] = .error .valueError :=
  (C99_mach_shapes V _ _).2.mpr (by simp)

end AMAT.Props
