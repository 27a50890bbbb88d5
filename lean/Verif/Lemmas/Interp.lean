import Mathlib.Data.List.Sort
import Mathlib.Tactic.Linarith
import Mathlib.Tactic.FieldSimp
import Mathlib.Tactic.Ring
import Verif.Model.Numpy

/-
Helper lemmas about linear table interpolation.
-/

noncomputable section

open Classical

namespace AMAT

/-- The straight line through two nodes. -/
def lineThrough (a b : ℝ × ℝ) (x : ℝ) : ℝ := (b.2 - a.2) / (b.1 - a.1) * (x - a.1) + a.2

theorem lineThrough_left (a b : ℝ × ℝ) : lineThrough a b a.1 = a.2 := by
  simp [lineThrough]

theorem lineThrough_right {a b : ℝ × ℝ} (h : a.1 ≠ b.1) : lineThrough a b b.1 = b.2 := by
  have : b.1 - a.1 ≠ 0 := sub_ne_zero.mpr (Ne.symm h)
  simp only [lineThrough]
  field_simp
  ring

theorem lineThrough_bounds {a b : ℝ × ℝ} {x m M : ℝ} (h : a.1 < b.1) (hx : a.1 ≤ x ∧ x ≤ b.1)
    (ha : m ≤ a.2 ∧ a.2 ≤ M) (hb : m ≤ b.2 ∧ b.2 ≤ M) :
    m ≤ lineThrough a b x ∧ lineThrough a b x ≤ M := by
  have hd : 0 < b.1 - a.1 := by linarith
  set t := (x - a.1) / (b.1 - a.1) with ht
  have h0 : 0 ≤ t := div_nonneg (by linarith) hd.le
  have h1 : t ≤ 1 := by rw [ht, div_le_one hd]; linarith
  have e : lineThrough a b x = (1 - t) * a.2 + t * b.2 := by
    simp only [lineThrough, ht]; field_simp; ring
  rw [e]
  constructor
  · nlinarith [mul_le_mul_of_nonneg_left ha.1 (sub_nonneg.mpr h1), mul_le_mul_of_nonneg_left hb.1 h0]
  · nlinarith [mul_le_mul_of_nonneg_left ha.2 (sub_nonneg.mpr h1), mul_le_mul_of_nonneg_left hb.2 h0]

theorem interpSeg_adjacent (pre post : List (ℝ × ℝ)) (a b : ℝ × ℝ) (x : ℝ)
    (hs : (pre ++ a :: b :: post).Pairwise (fun p q => p.1 < q.1))
    (hx : a.1 ≤ x ∧ x ≤ b.1) :
    interpSeg (pre ++ a :: b :: post) x = lineThrough a b x := by
  induction pre with
  | nil =>
      simp only [List.nil_append, interpSeg]
      rw [if_pos (Or.inl hx.2)]; rfl
  | cons p pre' ih =>
      have hs' : (pre' ++ a :: b :: post).Pairwise (fun p q => p.1 < q.1) := by
        have := hs
        simp only [List.cons_append, List.pairwise_cons] at this
        exact this.2
      have ih := ih hs'
      cases pre' with
      | nil =>
          simp only [List.cons_append, List.nil_append, interpSeg]
          by_cases hxa : x ≤ a.1
          · have hxe : x = a.1 := le_antisymm hxa hx.1
            rw [if_pos (Or.inl hxa), hxe, lineThrough_left]
            have hpa : p.1 < a.1 := by
              simp only [List.cons_append, List.nil_append, List.pairwise_cons] at hs
              exact hs.1 a (by simp)
            exact lineThrough_right hpa.ne
          · rw [if_neg (by simp [hxa])]
            simpa [interpSeg] using ih
      | cons q pre'' =>
          simp only [List.cons_append] at ih ⊢
          rw [interpSeg]
          have hqa : q.1 < a.1 := by
            simp only [List.cons_append, List.pairwise_cons] at hs'
            exact hs'.1 a (by simp)
          rw [if_neg]
          · exact ih
          · rintro (h | h)
            · linarith [hx.1]
            · simp at h

theorem exists_adjacent (l : List (ℝ × ℝ)) (hs : l.Pairwise (fun p q => p.1 < q.1))
    (hlen : 2 ≤ l.length) (x : ℝ) {lo hi : ℝ × ℝ} (hlo : l.head? = some lo)
    (hhi : l.getLast? = some hi) (h1 : lo.1 ≤ x) (h2 : x ≤ hi.1) :
    ∃ pre a b post, l = pre ++ a :: b :: post ∧ a.1 ≤ x ∧ x ≤ b.1 := by
  induction l generalizing lo with
  | nil => simp at hlen
  | cons p l ih =>
      cases l with
      | nil => simp at hlen
      | cons q rest =>
          simp at hlo
          subst hlo
          by_cases hx : x ≤ q.1
          · exact ⟨[], p, q, rest, rfl, h1, hx⟩
          · have hlast : (q :: rest).getLast? = some hi := by
              rw [List.getLast?_cons_cons] at hhi; exact hhi
            cases rest with
            | nil => simp at hlast; subst hlast; exact absurd h2 hx
            | cons r rest' =>
                obtain ⟨pre, a, b, post, he, ha, hb⟩ :=
                  ih (by simp only [List.pairwise_cons] at hs ⊢; exact hs.2) (by simp) (lo := q) rfl hlast (by linarith)
                exact ⟨p :: pre, a, b, post, by simp [he], ha, hb⟩

theorem interpSeg_antitone (l : List (ℝ × ℝ)) (hs : l.Pairwise (fun p q => p.1 < q.1))
    (hv : l.Pairwise (fun p q => q.2 ≤ p.2)) (x y : ℝ) (hxy : x ≤ y)
    (hy : ∀ q, l.getLast? = some q → y ≤ q.1) :
    interpSeg l y ≤ interpSeg l x := by
  induction l generalizing x y with
  | nil => simp [interpSeg]
  | cons p l ih =>
      cases l with
      | nil => simp [interpSeg]
      | cons q rest =>
          have hpq : p.1 < q.1 := by simp only [List.pairwise_cons] at hs; exact hs.1 q (by simp)
          have hvpq : q.2 ≤ p.2 := by simp only [List.pairwise_cons] at hv; exact hv.1 q (by simp)
          have hd : 0 < q.1 - p.1 := by linarith
          have hslope : (q.2 - p.2) / (q.1 - p.1) ≤ 0 :=
            div_nonpos_of_nonpos_of_nonneg (by linarith) hd.le
          have hs' : (q :: rest).Pairwise (fun p q => p.1 < q.1) := by
            simp only [List.pairwise_cons] at hs ⊢; exact hs.2
          have hv' : (q :: rest).Pairwise (fun p q => q.2 ≤ p.2) := by
            simp only [List.pairwise_cons] at hv ⊢; exact hv.2
          have hy' : ∀ r, (q :: rest).getLast? = some r → y ≤ r.1 := by
            intro r hr; apply hy; rw [List.getLast?_cons_cons]; exact hr
          have line_mono : ∀ u w : ℝ, u ≤ w → lineThrough p q w ≤ lineThrough p q u := by
            intro u w huw
            simp only [lineThrough]
            nlinarith
          have unfoldL : ∀ u, u ≤ q.1 → interpSeg (p :: q :: rest) u = lineThrough p q u := by
            intro u hu; rw [interpSeg, if_pos (Or.inl hu)]; rfl
          by_cases hyq : y ≤ q.1
          · rw [unfoldL y hyq, unfoldL x (hxy.trans hyq)]; exact line_mono _ _ hxy
          · have hrest : rest ≠ [] := by
              rintro rfl; exact hyq (hy' q (by simp))
            have unfoldR : ∀ u, ¬ u ≤ q.1 → interpSeg (p :: q :: rest) u = interpSeg (q :: rest) u := by
              intro u hu; rw [interpSeg, if_neg (by simp [hu, hrest])]
            rw [unfoldR y hyq]
            by_cases hxq : x ≤ q.1
            · rw [unfoldL x hxq]
              have e1 : interpSeg (q :: rest) q.1 = q.2 := by
                cases rest with
                | nil => exact absurd rfl hrest
                | cons r rest' =>
                    have hqr : q.1 < r.1 := by
                      simp only [List.pairwise_cons] at hs'; exact hs'.1 r (by simp)
                    rw [interpSeg, if_pos (Or.inl hqr.le)]; simp
              calc interpSeg (q :: rest) y ≤ interpSeg (q :: rest) q.1 :=
                    ih hs' hv' q.1 y (by linarith) hy'
                _ = q.2 := e1
                _ = lineThrough p q q.1 := (lineThrough_right hpq.ne).symm
                _ ≤ lineThrough p q x := line_mono _ _ hxq
            · rw [unfoldR x hxq]; exact ih hs' hv' x y hxy hy'

/-- The sorted node list used by `interp1d`. -/
abbrev sortedNodes (nodes : List (ℝ × ℝ)) : List (ℝ × ℝ) :=
  nodes.mergeSort (fun a b => decide (a.1 ≤ b.1))

theorem sortedNodes_perm (nodes : List (ℝ × ℝ)) : (sortedNodes nodes).Perm nodes :=
  List.mergeSort_perm _ _

theorem sortedNodes_le (nodes : List (ℝ × ℝ)) :
    (sortedNodes nodes).Pairwise (fun a b => a.1 ≤ b.1) := by
  have := List.pairwise_mergeSort (le := fun a b : ℝ × ℝ => decide (a.1 ≤ b.1))
    (by intro a b c; simp; exact le_trans) (by intro a b; simp; exact le_total _ _) nodes
  simpa using this

theorem sortedNodes_lt (nodes : List (ℝ × ℝ)) (hd : nodes.Pairwise (fun a b => a.1 ≠ b.1)) :
    (sortedNodes nodes).Pairwise (fun a b => a.1 < b.1) := by
  have h1 := sortedNodes_le nodes
  have h2 : (sortedNodes nodes).Pairwise (fun a b => a.1 ≠ b.1) :=
    (sortedNodes_perm nodes).pairwise_iff (fun h => Ne.symm h) |>.mpr hd
  exact (h1.and h2).imp (fun h => lt_of_le_of_ne h.1 h.2)

theorem sortedNodes_mem {nodes : List (ℝ × ℝ)} {p : ℝ × ℝ} : p ∈ sortedNodes nodes ↔ p ∈ nodes :=
  (sortedNodes_perm nodes).mem_iff

theorem sortedNodes_length (nodes : List (ℝ × ℝ)) :
    (sortedNodes nodes).length = nodes.length := (sortedNodes_perm nodes).length_eq

theorem head_least {l : List (ℝ × ℝ)} (h : l.Pairwise (fun a b => a.1 ≤ b.1)) {a : ℝ × ℝ}
    (ha : l.head? = some a) : a ∈ l ∧ ∀ p ∈ l, a.1 ≤ p.1 := by
  cases l with
  | nil => simp at ha
  | cons x xs =>
      simp at ha; subst ha
      refine ⟨by simp, ?_⟩
      intro p hp
      rcases List.mem_cons.mp hp with rfl | hp
      · exact le_rfl
      · simp only [List.pairwise_cons] at h; exact h.1 p hp

theorem last_greatest {l : List (ℝ × ℝ)} (h : l.Pairwise (fun a b => a.1 ≤ b.1)) {b : ℝ × ℝ}
    (hb : l.getLast? = some b) : b ∈ l ∧ ∀ p ∈ l, p.1 ≤ b.1 := by
  obtain ⟨ys, rfl⟩ := List.getLast?_eq_some_iff.mp hb
  refine ⟨by simp, ?_⟩
  intro p hp
  rw [List.pairwise_append] at h
  rcases List.mem_append.mp hp with hp | hp
  · exact h.2.2 p hp b (by simp)
  · simp at hp; subst hp; exact le_rfl

/-- Structure of the value returned by `interp1d`. -/
theorem interp1d_ok_iff (nodes : List (ℝ × ℝ)) (lo hi : ℝ) (f : ℝ → ℝ) :
    interp1d nodes lo hi = .ok f ↔
      2 ≤ nodes.length ∧ f = interpSorted (sortedNodes nodes) lo hi := by
  unfold interp1d
  by_cases h : nodes.length < 2
  · simp [h]
  · simp [h, sortedNodes]
    constructor
    · rintro rfl; exact ⟨by omega, rfl⟩
    · rintro ⟨_, rfl⟩; rfl

theorem sortedNodes_ends {nodes : List (ℝ × ℝ)} (h : 2 ≤ nodes.length) :
    ∃ a b, (sortedNodes nodes).head? = some a ∧ (sortedNodes nodes).getLast? = some b := by
  have hl := sortedNodes_length nodes
  cases hh : sortedNodes nodes with
  | nil => rw [hh] at hl; simp at hl; omega
  | cons x xs =>
      refine ⟨x, (x :: xs).getLast (by simp), rfl, List.getLast?_eq_some_getLast (by simp)⟩

end AMAT

namespace AMAT

theorem interpSeg_neg (l : List (ℝ × ℝ)) (x : ℝ) :
    interpSeg (l.map (fun p => (p.1, -p.2))) x = - interpSeg l x := by
  induction l with
  | nil => simp [interpSeg]
  | cons p l ih =>
      cases l with
      | nil => simp [interpSeg]
      | cons q rest =>
          simp only [List.map_cons, interpSeg, List.map_eq_nil_iff] at ih ⊢
          split
          · ring
          · exact ih

theorem interpSeg_monotone (l : List (ℝ × ℝ)) (hs : l.Pairwise (fun p q => p.1 < q.1))
    (hv : l.Pairwise (fun p q => p.2 ≤ q.2)) (x y : ℝ) (hxy : x ≤ y)
    (hy : ∀ q, l.getLast? = some q → y ≤ q.1) :
    interpSeg l x ≤ interpSeg l y := by
  have h := interpSeg_antitone (l.map (fun p => (p.1, -p.2)))
    (by rw [List.pairwise_map]; exact hs) (by rw [List.pairwise_map]; simpa using hv) x y hxy
    (by
      intro q hq
      rw [List.getLast?_map] at hq
      rcases h' : l.getLast? with _ | r
      · simp [h'] at hq
      · simp [h'] at hq; subst hq; exact hy r h')
  rw [interpSeg_neg, interpSeg_neg] at h
  linarith

/-- In a strictly sorted list, two members with no member strictly between them are adjacent. -/
theorem adjacent_decomp (l : List (ℝ × ℝ)) (hs : l.Pairwise (fun p q => p.1 < q.1)) {a b : ℝ × ℝ}
    (ha : a ∈ l) (hb : b ∈ l) (hab : a.1 < b.1) (hbetw : ∀ c ∈ l, c.1 ≤ a.1 ∨ b.1 ≤ c.1) :
    ∃ pre post, l = pre ++ a :: b :: post := by
  obtain ⟨pre, tl, rfl⟩ := List.append_of_mem ha
  have hb' : b ∈ tl := by
    rcases List.mem_append.mp hb with h | h
    · rw [List.pairwise_append] at hs
      have := hs.2.2 b h a (by simp)
      exact absurd this (by linarith)
    · rcases List.mem_cons.mp h with rfl | h
      · exact absurd hab (lt_irrefl _)
      · exact h
  have hs2 : (a :: tl).Pairwise (fun p q => p.1 < q.1) := by
    rw [List.pairwise_append] at hs; exact hs.2.1
  cases tl with
  | nil => simp at hb'
  | cons c post =>
      refine ⟨pre, post, ?_⟩
      simp only [List.pairwise_cons] at hs2
      have hac : a.1 < c.1 := hs2.1 c (by simp)
      have hbc : b.1 ≤ c.1 := by
        rcases hbetw c (by simp) with h | h
        · linarith
        · exact h
      rcases List.mem_cons.mp hb' with rfl | h
      · rfl
      · have := hs2.2.1 b h; linarith

theorem interpSorted_inside {l : List (ℝ × ℝ)} {a b : ℝ × ℝ} (ha : l.head? = some a)
    (hb : l.getLast? = some b) (lo hi : ℝ) {x : ℝ} (h1 : a.1 ≤ x) (h2 : x ≤ b.1) :
    interpSorted l lo hi x = interpSeg l x := by
  simp [interpSorted, ha, hb, not_lt.mpr h1, not_lt.mpr h2]

end AMAT

namespace AMAT

theorem list_exists_min {α : Type} (g : α → ℝ) (l : List α) (h : l ≠ []) :
    ∃ q ∈ l, ∀ p ∈ l, g q ≤ g p := by
  induction l with
  | nil => exact absurd rfl h
  | cons x xs ih =>
      by_cases hx : xs = []
      · subst hx; exact ⟨x, by simp, by simp⟩
      · obtain ⟨q, hq, hmin⟩ := ih hx
        by_cases hle : g x ≤ g q
        · refine ⟨x, by simp, ?_⟩
          intro p hp
          rcases List.mem_cons.mp hp with rfl | hp
          · exact le_rfl
          · exact hle.trans (hmin p hp)
        · refine ⟨q, by simp [hq], ?_⟩
          intro p hp
          rcases List.mem_cons.mp hp with rfl | hp
          · exact (not_le.mp hle).le
          · exact hmin p hp

theorem list_exists_max {α : Type} (g : α → ℝ) (l : List α) (h : l ≠ []) :
    ∃ q ∈ l, ∀ p ∈ l, g p ≤ g q := by
  obtain ⟨q, hq, hm⟩ := list_exists_min (fun x => - g x) l h
  exact ⟨q, hq, fun p hp => by have := hm p hp; linarith⟩

end AMAT
