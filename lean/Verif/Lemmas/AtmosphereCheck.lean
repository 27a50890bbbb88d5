import Verif.Lemmas.SplineTable
import Verif.Lemmas.AtmosphereCert
import Verif.Model.AtmosphereData

/-
The certificates of the shipped atmosphere files are valid (evaluated by the kernel).
-/

noncomputable section

open Classical

namespace AMAT.Props

open AMAT AMAT.Spline AMAT.Data

/-- The rows of a shipped file as the numbers `np.loadtxt` reads (planet.py:276-286). -/
def fileRows (F : AtmFile) : List AtmRow :=
  F.rows.map fun r => ⟨r.1 / 10 ^ F.hDec, r.2.1 / 10 ^ F.tDec, r.2.2.1 / 10 ^ F.pDec,
    r.2.2.2 / 10 ^ F.dDec⟩

/-- The shipped files with the planet they are for; Uranus has two. -/
def shippedFiles : List (String × AtmFile) :=
  [("VENUS", venus), ("EARTH", earth), ("MARS", mars), ("JUPITER", jupiter), ("SATURN", saturn),
   ("TITAN", titan), ("NEPTUNE", neptune), ("URANUS", uranusAmes), ("URANUS", uranusGram)]

/-- Metres per unit of the height column. -/
def heightScale (F : AtmFile) : ℝ := (if F.km then 1e3 else 1) / 10 ^ F.hDec

theorem heightScale_pos (F : AtmFile) : 0 < heightScale F := by
  unfold heightScale
  split <;> positivity

theorem atmHeight_eq (F : AtmFile) (r : ℤ × ℤ × ℤ × ℤ) (t p d : ℝ) :
    atmHeight F.km ⟨r.1 / 10 ^ F.hDec, t, p, d⟩ = heightScale F * r.1 := by
  unfold atmHeight heightScale
  split <;> ring

/-- The nodes of one column, in the given order, with a certificate. -/
def nodesOf (S : List (ℤ × ℤ × ℤ × ℤ)) (col : ℤ × ℤ × ℤ × ℤ → ℤ) (C : List ℤ) : List Node :=
  List.zipWith (fun r m => (r.1, col r, m)) S C

/-- Everything that is computed about one column of a file: the certificate is valid, belongs to the
rows in ascending order, and the rows reach from `0` or below to `top`. -/
def columnCheck (F : AtmFile) (asc : Bool) (col : ℤ × ℤ × ℤ × ℤ → ℤ) (C : List ℤ) (κ e D top : ℤ) :
    Bool :=
  let S := if asc then F.rows else F.rows.reverse
  let L := nodesOf S col C
  decide (C.length = S.length) && certCheck κ e D L && decide ((L.getD 0 (0, 0, 0)).1 ≤ 0) &&
    decide (top ≤ (L.getD (L.length - 1) (0, 0, 0)).1)

/-- What a successful `columnCheck` says. -/
structure ColumnOK (F : AtmFile) (col : ℤ × ℤ × ℤ × ℤ → ℤ) (L : List Node) (κ e D top : ℤ) : Prop where
  checked : Checked κ e D L
  perm : ∀ hx ry : ℝ, (L.map (scaled hx ry)).Perm (F.rows.map fun r => (hx * r.1, ry * (col r : ℝ)))
  low : absc L 0 ≤ 0
  high : (top : ℝ) ≤ absc L (L.length - 1)

theorem nodesOf_map (S : List (ℤ × ℤ × ℤ × ℤ)) (col : ℤ × ℤ × ℤ × ℤ → ℤ) (C : List ℤ)
    (h : C.length = S.length) (hx ry : ℝ) :
    (nodesOf S col C).map (scaled hx ry) = S.map fun r => (hx * (r.1 : ℝ), ry * (col r : ℝ)) := by
  induction S generalizing C with
  | nil => simp [nodesOf]
  | cons r S ih =>
    cases C with
    | nil => simp at h
    | cons m C =>
      have := ih C (by simpa using h)
      simp only [nodesOf, List.zipWith_cons_cons, List.map_cons] at this ⊢
      rw [this]
      rfl

theorem columnCheck_ok {F : AtmFile} {asc : Bool} {col : ℤ × ℤ × ℤ × ℤ → ℤ} {C : List ℤ}
    {κ e D top : ℤ} (h : columnCheck F asc col C κ e D top = true) :
    ColumnOK F col (nodesOf (if asc then F.rows else F.rows.reverse) col C) κ e D top := by
  simp only [columnCheck, Bool.and_eq_true, decide_eq_true_eq] at h
  obtain ⟨⟨⟨hl, hc⟩, h0⟩, h1⟩ := h
  refine ⟨certCheck_sound hc, ?_, ?_, ?_⟩
  · intro hx ry
    rw [nodesOf_map _ _ _ hl]
    apply List.Perm.map
    cases asc
    · exact List.reverse_perm _
    · exact List.Perm.refl _
  · unfold absc; exact_mod_cast h0
  · unfold absc; exact_mod_cast h1

/-- The density column. -/
def densCol (r : ℤ × ℤ × ℤ × ℤ) : ℤ := r.2.2.2
/-- The pressure column. -/
def presCol (r : ℤ × ℤ × ℤ × ℤ) : ℤ := r.2.2.1
/-- The temperature column. -/
def tempCol (r : ℤ × ℤ × ℤ × ℤ) : ℤ := r.2.1

theorem venus_dens :
    columnCheck venus true densCol Cert.venusDens (10 ^ 6) 2 7 180000 = true := by
  decide +kernel

theorem venus_dens_mono :
    pairsCheck (monoCheck (10 ^ 6) (7 * 2)) (nodesOf (if true then venus.rows else venus.rows.reverse)
      densCol Cert.venusDens) = true := by
  decide +kernel

theorem venus_pres :
    columnCheck venus true presCol Cert.venusPres (10 ^ 6) 2 7 180000 = true := by
  decide +kernel

theorem venus_pres_mono :
    pairsCheck (monoCheck (10 ^ 6) (7 * 2)) (nodesOf (if true then venus.rows else venus.rows.reverse)
      presCol Cert.venusPres) = true := by
  decide +kernel

theorem venus_temp :
    columnCheck venus true tempCol Cert.venusTemp (10 ^ 4) 2 7 180000 = true := by
  decide +kernel

theorem earth_dens :
    columnCheck earth false densCol Cert.earthDens (10 ^ 4) 2 7 120000 = true := by
  decide +kernel

theorem earth_dens_mono :
    pairsCheck (monoCheck (10 ^ 4) (7 * 2)) (nodesOf (if false then earth.rows else earth.rows.reverse)
      densCol Cert.earthDens) = true := by
  decide +kernel

theorem earth_pres :
    columnCheck earth false presCol Cert.earthPres (10 ^ 4) 2 7 120000 = true := by
  decide +kernel

theorem earth_pres_mono :
    pairsCheck (monoCheck (10 ^ 4) (7 * 2)) (nodesOf (if false then earth.rows else earth.rows.reverse)
      presCol Cert.earthPres) = true := by
  decide +kernel

theorem earth_temp :
    columnCheck earth false tempCol Cert.earthTemp (10 ^ 4) 2 7 120000 = true := by
  decide +kernel

theorem mars_dens :
    columnCheck mars true densCol Cert.marsDens (10 ^ 6) 2 7 120000 = true := by
  decide +kernel

theorem mars_dens_mono :
    pairsCheck (monoCheck (10 ^ 6) (7 * 2)) (nodesOf (if true then mars.rows else mars.rows.reverse)
      densCol Cert.marsDens) = true := by
  decide +kernel

theorem mars_pres :
    columnCheck mars true presCol Cert.marsPres (10 ^ 6) 2 7 120000 = true := by
  decide +kernel

theorem mars_pres_mono :
    pairsCheck (monoCheck (10 ^ 6) (7 * 2)) (nodesOf (if true then mars.rows else mars.rows.reverse)
      presCol Cert.marsPres) = true := by
  decide +kernel

theorem mars_temp :
    columnCheck mars true tempCol Cert.marsTemp (10 ^ 4) 2 7 120000 = true := by
  decide +kernel

theorem jupiter_dens :
    columnCheck jupiter false densCol Cert.jupiterDens (10 ^ 4) 2 7 100000 = true := by
  decide +kernel

theorem jupiter_dens_mono :
    pairsCheck (monoCheck (10 ^ 4) (7 * 2)) (nodesOf (if false then jupiter.rows else jupiter.rows.reverse)
      densCol Cert.jupiterDens) = true := by
  decide +kernel

theorem jupiter_pres :
    columnCheck jupiter false presCol Cert.jupiterPres (10 ^ 4) 2 7 100000 = true := by
  decide +kernel

theorem jupiter_pres_mono :
    pairsCheck (monoCheck (10 ^ 4) (7 * 2)) (nodesOf (if false then jupiter.rows else jupiter.rows.reverse)
      presCol Cert.jupiterPres) = true := by
  decide +kernel

theorem jupiter_temp :
    columnCheck jupiter false tempCol Cert.jupiterTemp (10 ^ 4) 2 7 100000 = true := by
  decide +kernel

theorem saturn_dens :
    columnCheck saturn false densCol Cert.saturnDens (10 ^ 4) 2 10 100000 = true := by
  decide +kernel

theorem saturn_dens_mono :
    pairsCheck (monoCheck (10 ^ 4) (10 * 2)) (nodesOf (if false then saturn.rows else saturn.rows.reverse)
      densCol Cert.saturnDens) = true := by
  decide +kernel

theorem saturn_pres :
    columnCheck saturn false presCol Cert.saturnPres (10 ^ 4) 2 10 100000 = true := by
  decide +kernel

theorem saturn_pres_mono :
    pairsCheck (monoCheck (10 ^ 4) (10 * 2)) (nodesOf (if false then saturn.rows else saturn.rows.reverse)
      presCol Cert.saturnPres) = true := by
  decide +kernel

theorem saturn_temp :
    columnCheck saturn false tempCol Cert.saturnTemp (10 ^ 6) 2 10 100000 = true := by
  decide +kernel

theorem titan_dens :
    columnCheck titan false densCol Cert.titanDens (10 ^ 6) 2 7 1000000 = true := by
  decide +kernel

theorem titan_dens_mono :
    pairsCheck (monoCheck (10 ^ 6) (7 * 2)) (nodesOf (if false then titan.rows else titan.rows.reverse)
      densCol Cert.titanDens) = true := by
  decide +kernel

theorem titan_pres :
    columnCheck titan false presCol Cert.titanPres (10 ^ 6) 2 7 1000000 = true := by
  decide +kernel

theorem titan_pres_mono :
    pairsCheck (monoCheck (10 ^ 6) (7 * 2)) (nodesOf (if false then titan.rows else titan.rows.reverse)
      presCol Cert.titanPres) = true := by
  decide +kernel

theorem titan_temp :
    columnCheck titan false tempCol Cert.titanTemp (10 ^ 6) 2 7 1000000 = true := by
  decide +kernel

theorem neptune_dens :
    columnCheck neptune true densCol Cert.neptuneDens (10 ^ 4) 2 7 10000 = true := by
  decide +kernel

theorem neptune_dens_mono :
    pairsCheck (monoCheck (10 ^ 4) (7 * 2)) (nodesOf (if true then neptune.rows else neptune.rows.reverse)
      densCol Cert.neptuneDens) = true := by
  decide +kernel

theorem neptune_pres :
    columnCheck neptune true presCol Cert.neptunePres (10 ^ 2) 2 7 10000 = true := by
  decide +kernel

theorem neptune_pres_mono :
    pairsCheck (monoCheck (10 ^ 2) (7 * 2)) (nodesOf (if true then neptune.rows else neptune.rows.reverse)
      presCol Cert.neptunePres) = true := by
  decide +kernel

theorem neptune_temp :
    columnCheck neptune true tempCol Cert.neptuneTemp (10 ^ 2) 2 7 10000 = true := by
  decide +kernel

theorem uranusAmes_dens :
    columnCheck uranusAmes true densCol Cert.uranusAmesDens (10 ^ 10) 2 7 1500000 = true := by
  decide +kernel

theorem uranusAmes_pres :
    columnCheck uranusAmes true presCol Cert.uranusAmesPres (10 ^ 6) 2 7 1500000 = true := by
  decide +kernel

theorem uranusAmes_temp :
    columnCheck uranusAmes true tempCol Cert.uranusAmesTemp (10 ^ 6) 2 7 1500000 = true := by
  decide +kernel

theorem uranusGram_dens :
    columnCheck uranusGram true densCol Cert.uranusGramDens (10 ^ 0) 2 7 1500 = true := by
  decide +kernel

theorem uranusGram_pres :
    columnCheck uranusGram true presCol Cert.uranusGramPres (10 ^ 0) 2 7 1500 = true := by
  decide +kernel

theorem uranusGram_temp :
    columnCheck uranusGram true tempCol Cert.uranusGramTemp (10 ^ 0) 2 7 1500 = true := by
  decide +kernel

theorem uranusAmes_dens_rise :
    riseCheck (10 ^ 10) (7 * 2) 2 1 2
      ((nodesOf (if true then uranusAmes.rows else uranusAmes.rows.reverse) densCol
        Cert.uranusAmesDens).getD 99 (0, 0, 0))
      ((nodesOf (if true then uranusAmes.rows else uranusAmes.rows.reverse) densCol
        Cert.uranusAmesDens).getD (99 + 1) (0, 0, 0)) = true := by
  decide +kernel

theorem uranusAmes_dens_at_470000 : absc (nodesOf (if true then uranusAmes.rows else uranusAmes.rows.reverse) densCol
      Cert.uranusAmesDens) 99 = 470000 := by
  unfold absc
  have : ((nodesOf (if true then uranusAmes.rows else uranusAmes.rows.reverse) densCol
      Cert.uranusAmesDens).getD 99 (0, 0, 0)).1 = 470000 := by
    decide +kernel
  rw [this]; norm_num

theorem uranusAmes_dens_at_480000 : absc (nodesOf (if true then uranusAmes.rows else uranusAmes.rows.reverse) densCol
      Cert.uranusAmesDens) 100 = 480000 := by
  unfold absc
  have : ((nodesOf (if true then uranusAmes.rows else uranusAmes.rows.reverse) densCol
      Cert.uranusAmesDens).getD 100 (0, 0, 0)).1 = 480000 := by
    decide +kernel
  rw [this]; norm_num

theorem uranusGram_dens_rise :
    riseCheck (10 ^ 0) (7 * 2) 16 12 13
      ((nodesOf (if true then uranusGram.rows else uranusGram.rows.reverse) densCol
        Cert.uranusGramDens).getD 670 (0, 0, 0))
      ((nodesOf (if true then uranusGram.rows else uranusGram.rows.reverse) densCol
        Cert.uranusGramDens).getD (670 + 1) (0, 0, 0)) = true := by
  decide +kernel

theorem uranusGram_dens_at_470 : absc (nodesOf (if true then uranusGram.rows else uranusGram.rows.reverse) densCol
      Cert.uranusGramDens) 670 = 470 := by
  unfold absc
  have : ((nodesOf (if true then uranusGram.rows else uranusGram.rows.reverse) densCol
      Cert.uranusGramDens).getD 670 (0, 0, 0)).1 = 470 := by
    decide +kernel
  rw [this]; norm_num

theorem uranusGram_dens_at_471 : absc (nodesOf (if true then uranusGram.rows else uranusGram.rows.reverse) densCol
      Cert.uranusGramDens) 671 = 471 := by
  unfold absc
  have : ((nodesOf (if true then uranusGram.rows else uranusGram.rows.reverse) densCol
      Cert.uranusGramDens).getD 671 (0, 0, 0)).1 = 471 := by
    decide +kernel
  rw [this]; norm_num

theorem uranusGram_pres_rise :
    riseCheck (10 ^ 0) (7 * 2) 16 10 16
      ((nodesOf (if true then uranusGram.rows else uranusGram.rows.reverse) presCol
        Cert.uranusGramPres).getD 670 (0, 0, 0))
      ((nodesOf (if true then uranusGram.rows else uranusGram.rows.reverse) presCol
        Cert.uranusGramPres).getD (670 + 1) (0, 0, 0)) = true := by
  decide +kernel

theorem uranusGram_pres_at_470 : absc (nodesOf (if true then uranusGram.rows else uranusGram.rows.reverse) presCol
      Cert.uranusGramPres) 670 = 470 := by
  unfold absc
  have : ((nodesOf (if true then uranusGram.rows else uranusGram.rows.reverse) presCol
      Cert.uranusGramPres).getD 670 (0, 0, 0)).1 = 470 := by
    decide +kernel
  rw [this]; norm_num

theorem uranusGram_pres_at_471 : absc (nodesOf (if true then uranusGram.rows else uranusGram.rows.reverse) presCol
      Cert.uranusGramPres) 671 = 471 := by
  unfold absc
  have : ((nodesOf (if true then uranusGram.rows else uranusGram.rows.reverse) presCol
      Cert.uranusGramPres).getD 671 (0, 0, 0)).1 = 471 := by
    decide +kernel
  rw [this]; norm_num

theorem uranusAmes_dens_len : 99 < (nodesOf (if true then uranusAmes.rows else uranusAmes.rows.reverse)
    densCol Cert.uranusAmesDens).length - 1 := by
  decide +kernel

theorem uranusGram_dens_len : 670 < (nodesOf (if true then uranusGram.rows else uranusGram.rows.reverse)
    densCol Cert.uranusGramDens).length - 1 := by
  decide +kernel

theorem uranusGram_pres_len : 670 < (nodesOf (if true then uranusGram.rows else uranusGram.rows.reverse)
    presCol Cert.uranusGramPres).length - 1 := by
  decide +kernel

end AMAT.Props
