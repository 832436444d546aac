import Verif.CpGrid.Lemmas

/-! # Lemmas on planes of points, split tables and primary pillars -/

namespace Verif.CpGrid
open Verif.Py

/-! ## Tables of split pillars made of the lists of columns -/

theorem cumLengths_length (n : Nat) (ls : List (List Nat)) : (cumLengths n ls).length = ls.length := by
  induction ls generalizing n with
  | nil => rfl
  | cons l ls ih => rw [cumLengths, List.length_cons, ih, List.length_cons]

theorem cumLengths_get (n : Nat) (ls : List (List Nat)) (k : Nat) (h : k < ls.length) :
    (cumLengths n ls)[k]? = some (n + ((ls.take (k + 1)).map List.length).sum) := by
  induction ls generalizing n k with
  | nil => exact absurd h (Nat.not_lt_zero _)
  | cons l ls ih =>
    rw [cumLengths]
    cases k with
    | zero => simp
    | succ k =>
      rw [List.getElem?_cons_succ, ih _ k (by simpa using h), List.take_succ_cons, List.map_cons, List.sum_cons]
      congr 1
      omega

theorem readAll_range' (a l b : List Nat) : Pillars.readAll (a ++ l ++ b) (List.range' a.length l.length) = .ok l := by
  induction l generalizing a with
  | nil => rfl
  | cons x xs ih =>
    rw [List.length_cons, List.range'_succ, Pillars.readAll]
    have h1 : Pillars.at? (a ++ x :: xs ++ b) a.length = .ok x := by
      unfold Pillars.at?
      rw [List.append_assoc, List.getElem?_append_right (Nat.le_refl _), Nat.sub_self]
      rfl
    have h2 : Pillars.readAll (a ++ x :: xs ++ b) (List.range' (a.length + 1) xs.length) = .ok xs := by
      have := ih (a ++ [x])
      rw [List.length_append, List.length_singleton] at this
      rw [← this]
      congr 1
      simp
    rw [h1, h2]

theorem flatten_split (ls : List (List Nat)) (k : Nat) (l : List Nat) (h : ls[k]? = some l) :
    ls.flatten = (ls.take k).flatten ++ l ++ (ls.drop (k + 1)).flatten := by
  obtain ⟨hk, rfl⟩ := List.getElem?_eq_some_iff.mp h
  conv_lhs => rw [← List.take_append_drop k ls, List.drop_eq_getElem_cons hk]
  rw [List.flatten_append, List.flatten_cons, List.append_assoc]

/-- the columns read back for an extra pillar are those put in the tables for it -/
theorem segment_tables (nj ni : Nat) (b : Bool) (spi : List Nat) (ls : List (List Nat)) (k : Nat) (l : List Nat) (h : ls[k]? = some l) :
    Pillars.segment ⟨nj, ni, b, spi, ls.flatten, cumLengths 0 ls⟩ k = .ok l := by
  obtain ⟨hk, hl⟩ := List.getElem?_eq_some_iff.mp h
  have hstart : Pillars.segStart ⟨nj, ni, b, spi, ls.flatten, cumLengths 0 ls⟩ k = .ok ((ls.take k).flatten).length := by
    unfold Pillars.segStart Pillars.at?
    rw [List.length_flatten]
    split
    · rename_i h0
      subst h0
      rfl
    · rename_i h0
      rw [cumLengths_get 0 ls (k - 1) (by omega)]
      dsimp only
      rw [show k - 1 + 1 = k by omega, Nat.zero_add]
  have hend : Pillars.at? (cumLengths 0 ls) k = .ok (((ls.take k).flatten).length + l.length) := by
    unfold Pillars.at?
    rw [cumLengths_get 0 ls k hk]
    dsimp only
    rw [List.length_flatten, List.take_succ_eq_append_getElem hk, List.map_append, List.sum_append]
    simp [hl]
  unfold Pillars.segment
  rw [hstart]
  dsimp only
  rw [hend]
  dsimp only
  rw [Nat.add_sub_cancel_left, flatten_split ls k l h]
  exact readAll_range' _ _ _

/-! ## The mapping made from tables in order -/

theorem placeCols_ok {g : Pillars.Grid} (hni : g.ni ≠ 0) {P v : Nat} (cs : List Nat) (m : Pillars.Mapping)
    (h : ∀ c ∈ cs, (P / (g.ni + 1) = c / g.ni ∨ P / (g.ni + 1) = c / g.ni + 1) ∧
      (P % (g.ni + 1) = c % g.ni ∨ P % (g.ni + 1) = c % g.ni + 1) ∧ c / g.ni < g.nj) :
    ∃ m', Pillars.placeCols g P v cs m = .ok m' := by
  induction cs generalizing m with
  | nil => exact ⟨m, rfl⟩
  | cons c cs ih =>
    obtain ⟨h1, h2, h3⟩ := h c (by simp)
    rw [Pillars.placeCols]
    unfold Pillars.placeCol
    rw [if_neg hni]
    dsimp only
    rw [if_pos ⟨h1, h2⟩, if_pos h3]
    exact ih _ (fun x hx => h x (by simp [hx]))

theorem placeExtras_ok {g : Pillars.Grid} (hni : g.ni ≠ 0) (ps : List Nat) (n : Nat) (m : Pillars.Mapping)
    (h : ∀ k P, ps[k]? = some P → ∃ cs, Pillars.segment g (n + k) = .ok cs ∧
      ∀ c ∈ cs, (P / (g.ni + 1) = c / g.ni ∨ P / (g.ni + 1) = c / g.ni + 1) ∧
      (P % (g.ni + 1) = c % g.ni ∨ P % (g.ni + 1) = c % g.ni + 1) ∧ c / g.ni < g.nj) :
    ∃ m', Pillars.placeExtras g ps n m = .ok m' := by
  induction ps generalizing n m with
  | nil => exact ⟨m, rfl⟩
  | cons P ps ih =>
    obtain ⟨cs, h1, h2⟩ := h 0 P rfl
    rw [Nat.add_zero] at h1
    obtain ⟨m1, hm1⟩ := placeCols_ok hni (v := (g.nj + 1) * (g.ni + 1) + n) cs m h2
    rw [Pillars.placeExtras, h1]
    dsimp only
    rw [hm1]
    exact ih (n + 1) m1 (by
      intro k P' hk
      obtain ⟨cs, a, b⟩ := h (k + 1) P' (by simpa using hk)
      exact ⟨cs, by rw [← a]; congr 1; omega, b⟩)

/-! ## Primary pillars -/

/-- the primary column of a pillar exists -/
theorem primary_hasCol {nj ni : Nat} (hj : 0 < nj) (hi : 0 < ni) (active : Nat → Nat → Bool) {p : Nat × Nat} (h1 : p.1 ≤ nj)
    (h2 : p.2 ≤ ni) : hasCol nj ni p (primaryJip nj ni active p) ∧ primaryJip nj ni active p ∈ four := by
  unfold primaryJip hasCol four
  dsimp only
  by_cases a : p.1 = nj <;> by_cases b : p.2 = ni <;> simp only [a, b, if_true, if_false] <;>
    (repeat' split) <;> refine ⟨⟨?_, ?_, ?_, ?_⟩, ?_⟩ <;> first | decide | (dsimp only at *; omega)

/-! ## Planes of points -/

variable {K : Type} [Field K] [LinearOrder K] [IsStrictOrderedRing K]

/-- planes from layer `k0` on -/
def planesFrom (cp : Cp K) (k0 n : Nat) (gs : List Bool) : List (Plane K) :=
  topOf cp k0 :: (innerPlanes cp (List.range' k0 n) gs ++ [baseOf cp (k0 + n)])

theorem planesFrom_succ (cp : Cp K) (k0 n : Nat) (gs : List Bool) :
    planesFrom cp k0 (n + 1) gs =
      if gs.head? = some true then topOf cp k0 :: baseOf cp k0 :: planesFrom cp (k0 + 1) n gs.tail
      else topOf cp k0 :: planesFrom cp (k0 + 1) n gs.tail := by
  unfold planesFrom
  rw [List.range'_succ]
  cases gs with
  | nil =>
    rw [innerPlanes, if_neg (by simp), List.cons_append, List.tail_nil, show k0 + (n + 1) = k0 + 1 + n by omega]
  | cons g gs =>
    rw [innerPlanes, List.tail_cons, List.head?_cons, show k0 + (n + 1) = k0 + 1 + n by omega]
    cases g with
    | true => simp
    | false => simp

theorem rawIndexLoop_succ (gs : List Bool) (k g n : Nat) :
    Gcs.rawIndexLoop gs k g (n + 1 + 1) =
      (k + g) :: Gcs.rawIndexLoop gs.tail (k + 1) (if gs.head? = some true then g + 1 else g) (n + 1) := by
  cases gs with
  | nil => rfl
  | cons b gs =>
    rw [Gcs.rawIndexLoop.eq_def]
    dsimp only
    rw [List.tail_cons, List.head?_cons]
    cases b with
    | true => simp
    | false => simp

/-- the raw indices of layers lead to the planes at their top and base -/
theorem planes_get (cp : Cp K) (n k0 g0 : Nat) (gs : List Bool) (m : Nat) (hm : m ≤ n) :
    ∃ d, (Gcs.rawIndexLoop gs k0 g0 (n + 1))[m]? = some (k0 + g0 + d) ∧ (planesFrom cp k0 n gs)[d]? = some (topOf cp (k0 + m)) ∧
      (planesFrom cp k0 n gs)[d + 1]? = some (if m < n ∧ gs[m]? ≠ some true then topOf cp (k0 + m + 1) else baseOf cp (k0 + m)) := by
  induction n generalizing k0 g0 gs m with
  | zero =>
    obtain rfl : m = 0 := by omega
    refine ⟨0, by rw [Gcs.rawIndexLoop.eq_def]; rfl, rfl, ?_⟩
    rw [if_neg (by omega)]
    rfl
  | succ n ih =>
    rw [rawIndexLoop_succ, planesFrom_succ]
    cases m with
    | zero =>
      refine ⟨0, rfl, by split <;> rfl, ?_⟩
      by_cases hh : gs.head? = some true
      · rw [if_pos hh, if_neg]
        · rfl
        · rw [← List.head?_eq_getElem?]
          exact fun h => h.2 hh
      · rw [if_neg hh, if_pos]
        · rfl
        · rw [← List.head?_eq_getElem?]
          exact ⟨by omega, hh⟩
    | succ m =>
      obtain ⟨d, h1, h2, h3⟩ := ih (k0 + 1) (if gs.head? = some true then g0 + 1 else g0) gs.tail m (by omega)
      have e1 : k0 + 1 + m = k0 + (m + 1) := by omega
      have e2 : gs.tail[m]? = gs[m + 1]? := by
        cases gs <;> simp
      rw [e1] at h2 h3
      rw [e2] at h3
      have e3 : (m < n ∧ gs[m + 1]? ≠ some true) ↔ (m + 1 < n + 1 ∧ gs[m + 1]? ≠ some true) := by
        constructor <;> rintro ⟨a, b⟩ <;> exact ⟨by omega, b⟩
      simp only [e3] at h3
      by_cases hh : gs.head? = some true
      · rw [if_pos hh] at h1 ⊢
        rw [if_pos hh]
        refine ⟨d + 2, ?_, by simpa using h2, by simpa using h3⟩
        rw [List.getElem?_cons_succ, h1]
        congr 1
        omega
      · rw [if_neg hh] at h1 ⊢
        rw [if_neg hh]
        refine ⟨d + 1, ?_, by simpa using h2, by simpa using h3⟩
        rw [List.getElem?_cons_succ, h1]
        congr 1
        omega

theorem reducedPlanes_eq (nk : Nat) (h : 0 < nk) (after : List Bool) (cp : Cp K) :
    reducedPlanes nk after cp = planesFrom cp 0 (nk - 1) after := by
  unfold reducedPlanes planesFrom
  rw [Nat.zero_add, List.range_eq_range']

/-- raw indices without gaps -/
theorem rawIndexLoop_nil (n k g : Nat) : Gcs.rawIndexLoop [] k g n = List.range' (k + g) n := by
  induction n generalizing k with
  | zero => rfl
  | succ n ih =>
    rw [Gcs.rawIndexLoop.eq_def]
    dsimp only
    rw [ih, List.range'_succ]
    congr 2
    omega

/-! ## Largest voids -/

theorem le_foldl_max (l : List K) (a : K) : a ≤ l.foldl max a ∧ ∀ x ∈ l, x ≤ l.foldl max a := by
  induction l generalizing a with
  | nil => exact ⟨le_refl _, fun x hx => (by cases hx)⟩
  | cons y ys ih =>
    rw [List.foldl_cons]
    obtain ⟨h1, h2⟩ := ih (max a y)
    refine ⟨(le_max_left _ _).trans h1, ?_⟩
    intro x hx
    rcases List.mem_cons.mp hx with rfl | hx
    · exact (le_max_right _ _).trans h1
    · exact h2 x hx

theorem foldl_max_mem (l : List K) (a : K) : l.foldl max a = a ∨ l.foldl max a ∈ l := by
  induction l generalizing a with
  | nil => exact Or.inl rfl
  | cons y ys ih =>
    rw [List.foldl_cons]
    rcases ih (max a y) with h | h
    · rw [h]
      rcases max_choice a y with h | h
      · exact Or.inl h
      · rw [h]
        exact Or.inr (by simp)
    · exact Or.inr (by simp [h])

theorem foldl_max_le {l : List K} {a d : K} : l.foldl max a ≤ d ↔ a ≤ d ∧ ∀ x ∈ l, x ≤ d := by
  constructor
  · intro h
    exact ⟨(le_foldl_max l a).1.trans h, fun x hx => ((le_foldl_max l a).2 x hx).trans h⟩
  · rintro ⟨h1, h2⟩
    rcases foldl_max_mem l a with h | h
    · rw [h]
      exact h1
    · exact h2 _ h

theorem mem_corners {nj ni : Nat} {c : Nat × Nat × Nat × Nat} :
    c ∈ corners nj ni ↔ c.1 < nj ∧ c.2.1 < ni ∧ c.2.2.1 ≤ 1 ∧ c.2.2.2 ≤ 1 := by
  unfold corners
  obtain ⟨j, i, jp, ip⟩ := c
  simp only [List.mem_flatMap, List.mem_range, List.mem_cons, Prod.mk.injEq, List.not_mem_nil, or_false]
  constructor
  · rintro ⟨a, ha, b, hb, h⟩
    omega
  · rintro ⟨h1, h2, h3, h4⟩
    refine ⟨j, h1, i, h2, ?_⟩
    omega

/-- a layer gap is at most `d` iff the voids below the layer are within `d` -/
theorem layerGap_le {nj ni : Nat} {cp : Cp K} {k : Nat} {d : K} (hd : 0 ≤ d) :
    layerGap nj ni cp k ≤ d ↔
      ∀ j i jp ip, j < nj → i < ni → jp ≤ 1 → ip ≤ 1 → Within d (cp (k + 1) j i 0 jp ip) (cp k j i 1 jp ip) := by
  unfold layerGap
  rw [foldl_max_le]
  constructor
  · rintro ⟨_, h⟩ j i jp ip h1 h2 h3 h4
    rw [← dist_le_iff]
    exact h _ (List.mem_map.mpr ⟨(j, i, jp, ip), mem_corners.mpr ⟨h1, h2, h3, h4⟩, rfl⟩)
  · intro h
    refine ⟨hd, ?_⟩
    intro x hx
    obtain ⟨c, hc, rfl⟩ := List.mem_map.mp hx
    obtain ⟨h1, h2, h3, h4⟩ := mem_corners.mp hc
    rw [dist_le_iff]
    exact h _ _ _ _ h1 h2 h3 h4

theorem layerGap_nonneg (nj ni : Nat) (cp : Cp K) (k : Nat) : 0 ≤ layerGap nj ni cp k := (le_foldl_max _ 0).1

theorem maxGap_le {nk nj ni : Nat} {cp : Cp K} {d : K} (hd : 0 ≤ d) :
    maxGap nk nj ni cp ≤ d ↔ ∀ k, k + 1 < nk → layerGap nj ni cp k ≤ d := by
  unfold maxGap
  rw [foldl_max_le]
  constructor
  · rintro ⟨_, h⟩ k hk
    exact h _ (List.mem_map.mpr ⟨k, List.mem_range.mpr (by omega), rfl⟩)
  · intro h
    refine ⟨hd, ?_⟩
    intro x hx
    obtain ⟨k, hk, rfl⟩ := List.mem_map.mp hx
    exact h k (by have := List.mem_range.mp hk; omega)

theorem gapDetails_after (gap : Nat → K) (v : K) (ks : List Nat) (n : Nat) :
    (gapDetails gap v ks n).1 = ks.map fun k => decide (v < gap k) := by
  induction ks generalizing n with
  | nil => rfl
  | cons k ks ih => rw [gapDetails, List.map_cons, ← ih]

theorem gapDetails_count (gap : Nat → K) (v : K) (ks : List Nat) (n : Nat) :
    (gapDetails gap v ks n).2.2 = n + ((gapDetails gap v ks n).1.filter id).length := by
  induction ks generalizing n with
  | nil => rfl
  | cons k ks ih =>
    rw [gapDetails]
    dsimp only
    rw [ih]
    by_cases h : v < gap k
    · simp [h]
      omega
    · simp [h]

theorem within_mid_left (a b : Pt K) (d : K) (h : Within d b a) : Within (d / 2) (midPt a b) a := by
  obtain ⟨h1, h2, h3⟩ := h
  have key : ∀ x y : K, |y - x| ≤ d → |(x + y) * (1 / 2) - x| ≤ d / 2 := by
    intro x y hh
    rw [abs_le] at *
    constructor <;> linarith [hh.1, hh.2]
  exact ⟨key _ _ h1, key _ _ h2, key _ _ h3⟩

theorem within_mid_right (a b : Pt K) (d : K) (h : Within d b a) : Within (d / 2) (midPt a b) b := by
  obtain ⟨h1, h2, h3⟩ := h
  have key : ∀ x y : K, |y - x| ≤ d → |(x + y) * (1 / 2) - y| ≤ d / 2 := by
    intro x y hh
    rw [abs_le] at *
    constructor <;> linarith [hh.1, hh.2]
  exact ⟨key _ _ h1, key _ _ h2, key _ _ h3⟩

end Verif.CpGrid
