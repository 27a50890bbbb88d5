import Verif.Lemmas.AtmosphereCheck
import Verif.Props.PlanetProps

/-
Property C85: the atmosphere files shipped with the source, loaded with the default interpolation.
-/

noncomputable section

open Classical

namespace AMAT.Props

open AMAT AMAT.Spline AMAT.Data

theorem column_rows (F : AtmFile) (g : AtmRow → ℝ) (col : ℤ × ℤ × ℤ × ℤ → ℤ) (k : ℕ)
    (hg : ∀ r : ℤ × ℤ × ℤ × ℤ, g ⟨r.1 / 10 ^ F.hDec, r.2.1 / 10 ^ F.tDec, r.2.2.1 / 10 ^ F.pDec,
      r.2.2.2 / 10 ^ F.dDec⟩ = (col r : ℝ) / 10 ^ k) :
    (fileRows F).map (fun r => (atmHeight F.km r, g r)) =
      F.rows.map fun r => (heightScale F * (r.1 : ℝ), (1 / 10 ^ k : ℝ) * (col r : ℝ)) := by
  unfold fileRows
  rw [List.map_map]
  apply List.map_congr_left
  intro r _
  simp only [Function.comp, atmHeight_eq, hg]
  rw [div_mul_eq_mul_div, one_mul]

theorem dens_rows (F : AtmFile) : (fileRows F).map (fun r => (atmHeight F.km r, r.dens)) =
    F.rows.map fun r => (heightScale F * (r.1 : ℝ), (1 / 10 ^ F.dDec : ℝ) * (densCol r : ℝ)) :=
  column_rows F (fun r => r.dens) densCol F.dDec (fun _ => rfl)
theorem pres_rows (F : AtmFile) : (fileRows F).map (fun r => (atmHeight F.km r, r.pres)) =
    F.rows.map fun r => (heightScale F * (r.1 : ℝ), (1 / 10 ^ F.pDec : ℝ) * (presCol r : ℝ)) :=
  column_rows F (fun r => r.pres) presCol F.pDec (fun _ => rfl)
theorem temp_rows (F : AtmFile) : (fileRows F).map (fun r => (atmHeight F.km r, r.temp)) =
    F.rows.map fun r => (heightScale F * (r.1 : ℝ), (1 / 10 ^ F.tDec : ℝ) * (tempCol r : ℝ)) :=
  column_rows F (fun r => r.temp) tempCol F.tDec (fun _ => rfl)

theorem column_pos {F : AtmFile} {col : ℤ × ℤ × ℤ × ℤ → ℤ} {L : List Node} {κ e D top : ℤ}
    (hc : ColumnOK F col L κ e D top) {g : AtmRow → ℝ} {k : ℕ}
    (hrows : (fileRows F).map (fun r => (atmHeight F.km r, g r)) =
      F.rows.map fun r => (heightScale F * (r.1 : ℝ), (1 / 10 ^ k : ℝ) * (col r : ℝ)))
    {fill : ℝ} {f : ℝ → ℝ} (hf : IsCubicInterp ((fileRows F).map fun r => (atmHeight F.km r, g r)) fill f)
    {t : ℝ} (h0 : 0 ≤ t) (h1 : t ≤ heightScale F * top) : 0 < f t := by
  rw [hrows] at hf
  have hs := heightScale_pos F
  refine interp_pos hc.checked hs (by positivity) (hc.perm _ _) hf ?_ ?_
  · exact (mul_nonpos_of_nonneg_of_nonpos hs.le hc.low).trans h0
  · exact h1.trans (mul_le_mul_of_nonneg_left hc.high hs.le)

theorem column_anti {F : AtmFile} {col : ℤ × ℤ × ℤ × ℤ → ℤ} {L : List Node} {κ e D top : ℤ}
    (hc : ColumnOK F col L κ e D top) (hm : pairsCheck (monoCheck κ (D * e)) L = true)
    {g : AtmRow → ℝ} {k : ℕ}
    (hrows : (fileRows F).map (fun r => (atmHeight F.km r, g r)) =
      F.rows.map fun r => (heightScale F * (r.1 : ℝ), (1 / 10 ^ k : ℝ) * (col r : ℝ)))
    {fill : ℝ} {f : ℝ → ℝ} (hf : IsCubicInterp ((fileRows F).map fun r => (atmHeight F.km r, g r)) fill f)
    : StrictAntiOn f (Set.Icc 0 (heightScale F * top)) := by
  rw [hrows] at hf
  have hs := heightScale_pos F
  refine (interp_anti hc.checked hm hs (by positivity) (hc.perm _ _) hf).mono ?_
  apply Set.Icc_subset_Icc
  · exact mul_nonpos_of_nonneg_of_nonpos hs.le hc.low
  · exact mul_le_mul_of_nonneg_left hc.high hs.le

/-- A certified file can be loaded. -/
theorem column_loads {F : AtmFile} {col : ℤ × ℤ × ℤ × ℤ → ℤ} {L : List Node} {κ e D top : ℤ}
    (hc : ColumnOK F col L κ e D top) (P : Planet) : ∃ atm, LoadedCubic P F.km (fileRows F) atm := by
  have hlen : 4 ≤ (fileRows F).length := by
    have h1 := (hc.perm 1 1).length_eq
    have h2 := hc.checked.len
    simp only [List.length_map] at h1
    simp only [fileRows, List.length_map]
    omega
  have hd : (F.rows.map fun r => (heightScale F * (r.1 : ℝ), (1:ℝ) * (col r : ℝ))).Pairwise
      (fun p q => p.1 ≠ q.1) :=
    ((hc.perm (heightScale F) 1).pairwise_iff (fun h => Ne.symm h)).mp
      ((scaled_sorted hc.checked (heightScale_pos F)).imp (fun h => ne_of_lt h))
  have hpair : ∀ g : AtmRow → ℝ, ((fileRows F).map fun r => (atmHeight F.km r, g r)).Pairwise
      (fun p q => p.1 ≠ q.1) := by
    intro g
    rw [List.pairwise_map] at hd ⊢
    unfold fileRows
    rw [List.pairwise_map]
    refine hd.imp ?_
    intro a b hab
    simpa only [atmHeight_eq] using hab
  have hex : ∀ (g : AtmRow → ℝ) (fill : ℝ),
      ∃ f, IsCubicInterp ((fileRows F).map fun r => (atmHeight F.km r, g r)) fill f := fun g fill =>
    (C84_lookup_exists_unique _ (by simpa using hlen) (hpair g) fill).1
  obtain ⟨t, ht⟩ := hex (fun r => r.temp) 0
  obtain ⟨p, hp⟩ := hex (fun r => r.pres) 0
  obtain ⟨d, hd⟩ := hex (fun r => r.dens) 0
  obtain ⟨a, ha⟩ := hex (fun r => Real.sqrt (P.CPCV * r.pres / r.dens)) 1e20
  exact ⟨⟨d, p, t, a⟩, ht, hp, hd, ha⟩

theorem venus_scale : heightScale venus = 1 := by
  rw [heightScale, show venus.km = false from rfl, show venus.hDec = 0 from rfl]; norm_num

theorem earth_scale : heightScale earth = 1 := by
  rw [heightScale, show earth.km = false from rfl, show earth.hDec = 0 from rfl]; norm_num

theorem mars_scale : heightScale mars = 1 := by
  rw [heightScale, show mars.km = false from rfl, show mars.hDec = 0 from rfl]; norm_num

theorem jupiter_scale : heightScale jupiter = 10 := by
  rw [heightScale, show jupiter.km = true from rfl, show jupiter.hDec = 2 from rfl]; norm_num

theorem saturn_scale : heightScale saturn = 10 := by
  rw [heightScale, show saturn.km = true from rfl, show saturn.hDec = 2 from rfl]; norm_num

theorem titan_scale : heightScale titan = 1 := by
  rw [heightScale, show titan.km = false from rfl, show titan.hDec = 0 from rfl]; norm_num

theorem neptune_scale : heightScale neptune = 100 := by
  rw [heightScale, show neptune.km = true from rfl, show neptune.hDec = 1 from rfl]; norm_num

theorem uranusAmes_scale : heightScale uranusAmes = 1 := by
  rw [heightScale, show uranusAmes.km = false from rfl, show uranusAmes.hDec = 0 from rfl]; norm_num

theorem uranusGram_scale : heightScale uranusGram = 1000 := by
  rw [heightScale, show uranusGram.km = true from rfl, show uranusGram.hDec = 0 from rfl]; norm_num

/-- What has been checked of the files: every one of them has a certificate for its density that covers
the atmosphere of its planet. -/
theorem shipped_dens {name : String} {F : AtmFile} (hF : (name, F) ∈ shippedFiles) {P : Planet}
    (hP : Planet.init name = .ok P) :
    ∃ (L : List Node) (κ e D top : ℤ), ColumnOK F densCol L κ e D top ∧ P.hThres ≤ heightScale F * top := by
  simp only [shippedFiles, List.mem_cons, Prod.mk.injEq, List.not_mem_nil, or_false] at hF
  rcases hF with ⟨rfl, rfl⟩ | ⟨rfl, rfl⟩ | ⟨rfl, rfl⟩ | ⟨rfl, rfl⟩ | ⟨rfl, rfl⟩ | ⟨rfl, rfl⟩ | ⟨rfl, rfl⟩ |
    ⟨rfl, rfl⟩ | ⟨rfl, rfl⟩ <;> simp [Planet.init] at hP <;> subst hP
  · exact ⟨_, _, _, _, _, columnCheck_ok venus_dens, by rw [venus_scale]; norm_num [Planet.withScales]⟩
  · exact ⟨_, _, _, _, _, columnCheck_ok earth_dens, by rw [earth_scale]; norm_num [Planet.withScales]⟩
  · exact ⟨_, _, _, _, _, columnCheck_ok mars_dens, by rw [mars_scale]; norm_num [Planet.withScales]⟩
  · exact ⟨_, _, _, _, _, columnCheck_ok jupiter_dens, by rw [jupiter_scale]; norm_num [Planet.withScales]⟩
  · exact ⟨_, _, _, _, _, columnCheck_ok saturn_dens, by rw [saturn_scale]; norm_num [Planet.withScales]⟩
  · exact ⟨_, _, _, _, _, columnCheck_ok titan_dens, by rw [titan_scale]; norm_num [Planet.withScales]⟩
  · exact ⟨_, _, _, _, _, columnCheck_ok neptune_dens, by rw [neptune_scale]; norm_num [Planet.withScales]⟩
  · exact ⟨_, _, _, _, _, columnCheck_ok uranusAmes_dens, by rw [uranusAmes_scale]; norm_num [Planet.withScales]⟩
  · exact ⟨_, _, _, _, _, columnCheck_ok uranusGram_dens, by rw [uranusGram_scale]; norm_num [Planet.withScales]⟩

/-- C85: every shipped file can be loaded with the default interpolation, and only in one way as far as
the density in the atmosphere is concerned: the density at the height of a row is the density of the row. -/
theorem C85_loads (name : String) (F : AtmFile) (hF : (name, F) ∈ shippedFiles) (P : Planet)
    (hP : Planet.init name = .ok P) :
    (∃ atm, LoadedCubic P F.km (fileRows F) atm) ∧
    ∀ atm, LoadedCubic P F.km (fileRows F) atm → ∀ r ∈ fileRows F, 0 ≤ atmHeight F.km r →
      atmHeight F.km r ≤ P.hThres → P.density atm (atmHeight F.km r) = r.dens := by
  obtain ⟨L, κ, e, D, top, hc, -⟩ := shipped_dens hF hP
  refine ⟨column_loads hc P, ?_⟩
  intro atm hatm r hr h0 h1
  have := (C84_reproduces_rows _ _ _ hatm.2.2.1).1 (atmHeight F.km r, r.dens)
    (List.mem_map.mpr ⟨r, hr, rfl⟩)
  rw [Planet.density, if_pos ⟨h0, h1⟩]
  exact this

/-- C85: with any shipped file and the default interpolation the density is positive everywhere up to the
edge of the atmosphere, and zero above. -/
theorem C85_density_positive (name : String) (F : AtmFile) (hF : (name, F) ∈ shippedFiles) (P : Planet)
    (hP : Planet.init name = .ok P) (atm : Atmosphere) (hatm : LoadedCubic P F.km (fileRows F) atm)
    (h : ℝ) : 0 < P.density atm h ↔ h ≤ P.hThres := by
  obtain ⟨L, κ, e, D, top, hc, htop⟩ := shipped_dens hF hP
  unfold Planet.density
  split
  · rename_i hh
    exact ⟨fun _ => hh.2, fun _ => column_pos hc (dens_rows F) hatm.2.2.1 hh.1 (hh.2.trans htop)⟩
  · split
    · rename_i hh
      exact ⟨fun h => absurd h (lt_irrefl _), fun h => absurd h (not_le.mpr hh)⟩
    · rename_i hh
      exact ⟨fun _ => not_lt.mp hh, fun _ => (C01_planet_consistent name P hP).2.2.2.1⟩

/-- C85, for every shipped file except those of Uranus: with the default interpolation the density is
lower at a higher altitude, from the reference altitude to the edge of the atmosphere and beyond. -/
theorem C85_density_decreasing_partial (name : String) (F : AtmFile) (hF : (name, F) ∈ shippedFiles)
    (hu : name ≠ "URANUS") (P : Planet) (hP : Planet.init name = .ok P) (atm : Atmosphere)
    (hatm : LoadedCubic P F.km (fileRows F) atm) (h₁ h₂ : ℝ) (h0 : 0 ≤ h₁) (h1 : h₁ ≤ P.hThres)
    (h12 : h₁ < h₂) : P.density atm h₂ < P.density atm h₁ := by
  have hpos := (C85_density_positive name F hF P hP atm hatm h₁).mpr h1
  have hanti : StrictAntiOn atm.densityInt (Set.Icc 0 P.hThres) := by
    simp only [shippedFiles, List.mem_cons, Prod.mk.injEq, List.not_mem_nil, or_false] at hF
    rcases hF with ⟨rfl, rfl⟩ | ⟨rfl, rfl⟩ | ⟨rfl, rfl⟩ | ⟨rfl, rfl⟩ | ⟨rfl, rfl⟩ | ⟨rfl, rfl⟩ |
      ⟨rfl, rfl⟩ | ⟨rfl, rfl⟩ | ⟨rfl, rfl⟩ <;> simp [Planet.init] at hP <;> subst hP
    · exact (column_anti (columnCheck_ok venus_dens) venus_dens_mono (dens_rows _) hatm.2.2.1).mono
        (Set.Icc_subset_Icc le_rfl (by rw [venus_scale]; norm_num [Planet.withScales]))
    · exact (column_anti (columnCheck_ok earth_dens) earth_dens_mono (dens_rows _) hatm.2.2.1).mono
        (Set.Icc_subset_Icc le_rfl (by rw [earth_scale]; norm_num [Planet.withScales]))
    · exact (column_anti (columnCheck_ok mars_dens) mars_dens_mono (dens_rows _) hatm.2.2.1).mono
        (Set.Icc_subset_Icc le_rfl (by rw [mars_scale]; norm_num [Planet.withScales]))
    · exact (column_anti (columnCheck_ok jupiter_dens) jupiter_dens_mono (dens_rows _) hatm.2.2.1).mono
        (Set.Icc_subset_Icc le_rfl (by rw [jupiter_scale]; norm_num [Planet.withScales]))
    · exact (column_anti (columnCheck_ok saturn_dens) saturn_dens_mono (dens_rows _) hatm.2.2.1).mono
        (Set.Icc_subset_Icc le_rfl (by rw [saturn_scale]; norm_num [Planet.withScales]))
    · exact (column_anti (columnCheck_ok titan_dens) titan_dens_mono (dens_rows _) hatm.2.2.1).mono
        (Set.Icc_subset_Icc le_rfl (by rw [titan_scale]; norm_num [Planet.withScales]))
    · exact (column_anti (columnCheck_ok neptune_dens) neptune_dens_mono (dens_rows _) hatm.2.2.1).mono
        (Set.Icc_subset_Icc le_rfl (by rw [neptune_scale]; norm_num [Planet.withScales]))
    · exact absurd rfl hu
    · exact absurd rfl hu
  have e1 : P.density atm h₁ = atm.densityInt h₁ := by rw [Planet.density, if_pos ⟨h0, h1⟩]
  by_cases h2 : h₂ ≤ P.hThres
  · have e2 : P.density atm h₂ = atm.densityInt h₂ := by
      rw [Planet.density, if_pos ⟨h0.trans h12.le, h2⟩]
    rw [e1, e2]
    exact hanti ⟨h0, h1⟩ ⟨h0.trans h12.le, h2⟩ h12
  · have e2 : P.density atm h₂ = 0 := by
      rw [Planet.density, if_neg (fun h => h2 h.2), if_pos (not_le.mp h2)]
    rw [e2]; exact hpos

/-- C85: for Uranus the claim is false: loaded from `uranus-ames.dat` with the default interpolation, the
atmosphere is denser at 480 km than at 475 km, although the rows of the file decrease with height. -/
theorem C85_uranus_not_decreasing (P : Planet) (hP : Planet.init "URANUS" = .ok P) (atm : Atmosphere)
    (hatm : LoadedCubic P uranusAmes.km (fileRows uranusAmes) atm) :
    P.density atm 475e3 < P.density atm 480e3 ∧
    ∀ r ∈ fileRows uranusAmes, ∀ r' ∈ fileRows uranusAmes, r.height < r'.height → r'.dens < r.dens := by
  constructor
  · have hc := columnCheck_ok uranusAmes_dens
    have hf := hatm.2.2.1
    rw [dens_rows] at hf
    have hr := interp_rise hc.checked (heightScale_pos _) (by positivity) (hc.perm _ _) hf (i := 99)
      uranusAmes_dens_len uranusAmes_dens_rise
    rw [uranusAmes_dens_at_470000, uranusAmes_dens_at_480000, uranusAmes_scale] at hr
    simp [Planet.init] at hP
    subst hP
    unfold Planet.density
    rw [if_pos (by norm_num [Planet.withScales]), if_pos (by norm_num [Planet.withScales])]
    norm_num at hr ⊢
    exact hr
  · have hdec : uranusAmes.rows.Pairwise (fun a b => a.1 < b.1 ∧ b.2.2.2 < a.2.2.2) := by
      have hch : uranusAmes.rows.IsChain (fun a b => a.1 < b.1 ∧ b.2.2.2 < a.2.2.2) := by decide +kernel
      have : IsTrans (ℤ × ℤ × ℤ × ℤ) (fun a b => a.1 < b.1 ∧ b.2.2.2 < a.2.2.2) :=
        ⟨fun a b c h1 h2 => ⟨h1.1.trans h2.1, h2.2.trans h1.2⟩⟩
      exact List.isChain_iff_pairwise.mp hch
    intro r hr r' hr' hlt
    obtain ⟨a, ha, rfl⟩ := List.mem_map.mp hr
    obtain ⟨b, hb, rfl⟩ := List.mem_map.mp hr'
    have hab : (a.1 : ℝ) < b.1 := (div_lt_div_iff_of_pos_right (by positivity)).mp hlt
    have habZ : a.1 < b.1 := by exact_mod_cast hab
    obtain ⟨i, hi, rfl⟩ := List.mem_iff_getElem.mp ha
    obtain ⟨j, hj, rfl⟩ := List.mem_iff_getElem.mp hb
    rw [List.pairwise_iff_getElem] at hdec
    have hij : i < j := by
      by_contra hn
      rcases Nat.eq_or_lt_of_le (not_lt.mp hn) with h | h
      · subst h; exact lt_irrefl _ habZ
      · exact absurd (hdec j i hj hi h).1 (not_lt.mpr habZ.le)
    have := (hdec i j hi hj hij).2
    exact (div_lt_div_iff_of_pos_right (by positivity)).mpr (by exact_mod_cast this)

/-- C85: the same for the other Uranus file, `uranus-gram-avg.dat`: density and pressure rise with height
between two rows, the density from 470.75 km to 470.8125 km and the pressure from 470.625 km to 471 km. -/
theorem C85_uranus_gram_not_decreasing (P : Planet) (hP : Planet.init "URANUS" = .ok P)
    (atm : Atmosphere) (hatm : LoadedCubic P uranusGram.km (fileRows uranusGram) atm) :
    P.density atm 470750 < P.density atm 470812.5 ∧ atm.pressureInt 470625 < atm.pressureInt 471000 := by
  constructor
  · have hc := columnCheck_ok uranusGram_dens
    have hf := hatm.2.2.1
    rw [dens_rows] at hf
    have hr := interp_rise hc.checked (heightScale_pos _) (by positivity) (hc.perm _ _) hf (i := 670)
      uranusGram_dens_len uranusGram_dens_rise
    rw [uranusGram_dens_at_470, uranusGram_dens_at_471, uranusGram_scale] at hr
    simp [Planet.init] at hP
    subst hP
    unfold Planet.density
    rw [if_pos (by norm_num [Planet.withScales]), if_pos (by norm_num [Planet.withScales])]
    norm_num at hr ⊢
    exact hr
  · have hc := columnCheck_ok uranusGram_pres
    have hf := hatm.2.1
    rw [pres_rows] at hf
    have hr := interp_rise hc.checked (heightScale_pos _) (by positivity) (hc.perm _ _) hf (i := 670)
      uranusGram_pres_len uranusGram_pres_rise
    rw [uranusGram_pres_at_470, uranusGram_pres_at_471, uranusGram_scale] at hr
    norm_num at hr ⊢
    exact hr

/-- C85: with any shipped file pressure and temperature are positive from
the reference altitude to the edge of the atmosphere; except for Uranus the pressure decreases with
height. -/
theorem C85_pressure_temperature (name : String) (F : AtmFile) (hF : (name, F) ∈ shippedFiles)
    (P : Planet) (hP : Planet.init name = .ok P) (atm : Atmosphere)
    (hatm : LoadedCubic P F.km (fileRows F) atm) :
    (∀ h, 0 ≤ h → h ≤ P.hThres → 0 < atm.pressureInt h ∧ 0 < atm.tempInt h) ∧
    (name ≠ "URANUS" → StrictAntiOn atm.pressureInt (Set.Icc 0 P.hThres)) := by
  simp only [shippedFiles, List.mem_cons, Prod.mk.injEq, List.not_mem_nil, or_false] at hF
  rcases hF with ⟨rfl, rfl⟩ | ⟨rfl, rfl⟩ | ⟨rfl, rfl⟩ | ⟨rfl, rfl⟩ | ⟨rfl, rfl⟩ | ⟨rfl, rfl⟩ |
    ⟨rfl, rfl⟩ | ⟨rfl, rfl⟩ | ⟨rfl, rfl⟩ <;> simp [Planet.init] at hP <;> subst hP
  · refine ⟨fun h h0 h1 => ⟨column_pos (columnCheck_ok venus_pres) (pres_rows _) hatm.2.1 h0
      (h1.trans (by rw [venus_scale]; norm_num [Planet.withScales])),
      column_pos (columnCheck_ok venus_temp) (temp_rows _) hatm.1 h0
      (h1.trans (by rw [venus_scale]; norm_num [Planet.withScales]))⟩, fun hn => ?_⟩
    exact (column_anti (columnCheck_ok venus_pres) venus_pres_mono (pres_rows _) hatm.2.1).mono
      (Set.Icc_subset_Icc le_rfl (by rw [venus_scale]; norm_num [Planet.withScales]))
  · refine ⟨fun h h0 h1 => ⟨column_pos (columnCheck_ok earth_pres) (pres_rows _) hatm.2.1 h0
      (h1.trans (by rw [earth_scale]; norm_num [Planet.withScales])),
      column_pos (columnCheck_ok earth_temp) (temp_rows _) hatm.1 h0
      (h1.trans (by rw [earth_scale]; norm_num [Planet.withScales]))⟩, fun hn => ?_⟩
    exact (column_anti (columnCheck_ok earth_pres) earth_pres_mono (pres_rows _) hatm.2.1).mono
      (Set.Icc_subset_Icc le_rfl (by rw [earth_scale]; norm_num [Planet.withScales]))
  · refine ⟨fun h h0 h1 => ⟨column_pos (columnCheck_ok mars_pres) (pres_rows _) hatm.2.1 h0
      (h1.trans (by rw [mars_scale]; norm_num [Planet.withScales])),
      column_pos (columnCheck_ok mars_temp) (temp_rows _) hatm.1 h0
      (h1.trans (by rw [mars_scale]; norm_num [Planet.withScales]))⟩, fun hn => ?_⟩
    exact (column_anti (columnCheck_ok mars_pres) mars_pres_mono (pres_rows _) hatm.2.1).mono
      (Set.Icc_subset_Icc le_rfl (by rw [mars_scale]; norm_num [Planet.withScales]))
  · refine ⟨fun h h0 h1 => ⟨column_pos (columnCheck_ok jupiter_pres) (pres_rows _) hatm.2.1 h0
      (h1.trans (by rw [jupiter_scale]; norm_num [Planet.withScales])),
      column_pos (columnCheck_ok jupiter_temp) (temp_rows _) hatm.1 h0
      (h1.trans (by rw [jupiter_scale]; norm_num [Planet.withScales]))⟩, fun hn => ?_⟩
    exact (column_anti (columnCheck_ok jupiter_pres) jupiter_pres_mono (pres_rows _) hatm.2.1).mono
      (Set.Icc_subset_Icc le_rfl (by rw [jupiter_scale]; norm_num [Planet.withScales]))
  · refine ⟨fun h h0 h1 => ⟨column_pos (columnCheck_ok saturn_pres) (pres_rows _) hatm.2.1 h0
      (h1.trans (by rw [saturn_scale]; norm_num [Planet.withScales])),
      column_pos (columnCheck_ok saturn_temp) (temp_rows _) hatm.1 h0
      (h1.trans (by rw [saturn_scale]; norm_num [Planet.withScales]))⟩, fun hn => ?_⟩
    exact (column_anti (columnCheck_ok saturn_pres) saturn_pres_mono (pres_rows _) hatm.2.1).mono
      (Set.Icc_subset_Icc le_rfl (by rw [saturn_scale]; norm_num [Planet.withScales]))
  · refine ⟨fun h h0 h1 => ⟨column_pos (columnCheck_ok titan_pres) (pres_rows _) hatm.2.1 h0
      (h1.trans (by rw [titan_scale]; norm_num [Planet.withScales])),
      column_pos (columnCheck_ok titan_temp) (temp_rows _) hatm.1 h0
      (h1.trans (by rw [titan_scale]; norm_num [Planet.withScales]))⟩, fun hn => ?_⟩
    exact (column_anti (columnCheck_ok titan_pres) titan_pres_mono (pres_rows _) hatm.2.1).mono
      (Set.Icc_subset_Icc le_rfl (by rw [titan_scale]; norm_num [Planet.withScales]))
  · refine ⟨fun h h0 h1 => ⟨column_pos (columnCheck_ok neptune_pres) (pres_rows _) hatm.2.1 h0
      (h1.trans (by rw [neptune_scale]; norm_num [Planet.withScales])),
      column_pos (columnCheck_ok neptune_temp) (temp_rows _) hatm.1 h0
      (h1.trans (by rw [neptune_scale]; norm_num [Planet.withScales]))⟩, fun hn => ?_⟩
    exact (column_anti (columnCheck_ok neptune_pres) neptune_pres_mono (pres_rows _) hatm.2.1).mono
      (Set.Icc_subset_Icc le_rfl (by rw [neptune_scale]; norm_num [Planet.withScales]))
  · refine ⟨fun h h0 h1 => ⟨column_pos (columnCheck_ok uranusAmes_pres) (pres_rows _) hatm.2.1 h0
      (h1.trans (by rw [uranusAmes_scale]; norm_num [Planet.withScales])),
      column_pos (columnCheck_ok uranusAmes_temp) (temp_rows _) hatm.1 h0
      (h1.trans (by rw [uranusAmes_scale]; norm_num [Planet.withScales]))⟩, fun hn => ?_⟩
    exact absurd rfl hn
  · refine ⟨fun h h0 h1 => ⟨column_pos (columnCheck_ok uranusGram_pres) (pres_rows _) hatm.2.1 h0
      (h1.trans (by rw [uranusGram_scale]; norm_num [Planet.withScales])),
      column_pos (columnCheck_ok uranusGram_temp) (temp_rows _) hatm.1 h0
      (h1.trans (by rw [uranusGram_scale]; norm_num [Planet.withScales]))⟩, fun hn => ?_⟩
    exact absurd rfl hn

/-- Case for `C85_loads`, `C85_density_positive`, `C85_density_decreasing_partial` and
`C85_pressure_temperature`: Mars, with the shipped file. -/
example : ∃ P, Planet.init "MARS" = .ok P ∧ ("MARS", mars) ∈ shippedFiles ∧
    ∃ atm, LoadedCubic P mars.km (fileRows mars) atm := by
  obtain ⟨P, hP⟩ := (C01_planet_names "MARS").1.mpr (by simp [Spec.bodies])
  have hF : ("MARS", mars) ∈ shippedFiles := by simp [shippedFiles]
  exact ⟨P, hP, hF, (C85_loads _ _ hF P hP).1⟩

/-- Case for `C85_uranus_not_decreasing` and `C85_uranus_gram_not_decreasing`: both shipped Uranus files can be loaded. -/
example : ∃ P atm atm', Planet.init "URANUS" = .ok P ∧ LoadedCubic P uranusAmes.km (fileRows uranusAmes) atm ∧
    LoadedCubic P uranusGram.km (fileRows uranusGram) atm' ∧ P.density atm 475e3 < P.density atm 480e3 := by
  obtain ⟨P, hP⟩ := (C01_planet_names "URANUS").1.mpr (by simp [Spec.bodies])
  obtain ⟨atm, ha⟩ := (C85_loads "URANUS" uranusAmes (by simp [shippedFiles]) P hP).1
  obtain ⟨atm', ha'⟩ := (C85_loads "URANUS" uranusGram (by simp [shippedFiles]) P hP).1
  exact ⟨P, atm, atm', hP, ha, ha', (C85_uranus_not_decreasing P hP atm ha).1⟩

end AMAT.Props
