import Verif.Polygon.PropsScan

/-! # C61: maps from pixels to cells -/

namespace Verif.Polygon

variable {K : Type} [Field K] [LinearOrder K] [IsStrictOrderedRing K] [FloorRing K]

/-- the centre of a pixel -/
def centre (ox oy dx dy : K) (r c : Nat) : Pt K := ⟨ox + dx * c + 1 / 2 * dx, oy + dy * r + 1 / 2 * dy⟩

/-- the corners of a face of a column, given as `q jp ip`, in the order in which they are met going round it -/
def outline (q : Fin 2 → Fin 2 → Pt K) : List (Pt K) := [q 0 0, q 0 1, q 1 1, q 1 0]

theorem perimeter_eq (q : Fin 2 → Fin 2 → Pt K) : perimeter q = outline q := rfl

/-- the patch of pixels needed for the range from `lo` to `hi` is within the map -/
def Fits (lo hi o d : K) (size : Nat) : Prop := ⌊(lo - 1 / 2 * d - o) / d⌋ + ⌈(hi - lo + d) / d⌉ ≤ size

instance (lo hi o d : K) (size : Nat) : Decidable (Fits lo hi o d size) := by unfold Fits; infer_instance

/-- the four corners of a cell fit in the map -/
def CellFits (ox oy : K) (width height : Nat) (dx dy : K) (q : Fin 2 → Fin 2 → Pt K) : Prop :=
  Fits (least Pt.x (q 0 0) (outline q)) (greatest Pt.x (q 0 0) (outline q)) ox dx width ∧
    Fits (least Pt.y (q 0 0) (outline q)) (greatest Pt.y (q 0 0) (outline q)) oy dy height

instance (ox oy : K) (width height : Nat) (dx dy : K) (q : Fin 2 → Fin 2 → Pt K) :
    Decidable (CellFits ox oy width height dx dy q) := by unfold CellFits; infer_instance

theorem least_le (f : Pt K → K) (v : Pt K) (l : List (Pt K)) : ∀ w ∈ l, least f v l ≤ f w := by
  have mono : ∀ (l : List (Pt K)) (m : K), l.foldl (fun m w => min m (f w)) m ≤ m := by
    intro l
    induction l with
    | nil => intro m; exact le_refl _
    | cons a l ih => intro m; exact (ih _).trans (min_le_left _ _)
  have : ∀ (l : List (Pt K)) (m : K), ∀ w ∈ l, l.foldl (fun m w => min m (f w)) m ≤ f w := by
    intro l
    induction l with
    | nil => intro m w hw; cases hw
    | cons a l ih =>
      intro m w hw
      rcases List.mem_cons.1 hw with h | h
      · subst h; exact (mono l _).trans (min_le_right _ _)
      · exact ih _ w h
  exact this l _

theorem le_greatest (f : Pt K → K) (v : Pt K) (l : List (Pt K)) : ∀ w ∈ l, f w ≤ greatest f v l := by
  have mono : ∀ (l : List (Pt K)) (m : K), m ≤ l.foldl (fun m w => max m (f w)) m := by
    intro l
    induction l with
    | nil => intro m; exact le_refl _
    | cons a l ih => intro m; exact (le_max_left _ _).trans (ih _)
  have : ∀ (l : List (Pt K)) (m : K), ∀ w ∈ l, f w ≤ l.foldl (fun m w => max m (f w)) m := by
    intro l
    induction l with
    | nil => intro m w hw; cases hw
    | cons a l ih =>
      intro m w hw
      rcases List.mem_cons.1 hw with h | h
      · subst h; exact (le_max_right _ _).trans (mono l _)
      · exact ih _ w h
  exact this l _

theorem patch_eq (lo hi o d : K) (hd : 0 < d) (size : Nat) (h : o + 1 / 2 * d ≤ lo) :
    patch lo hi o d size =
      if Fits lo hi o d size then some (⌊(lo - 1 / 2 * d - o) / d⌋, ⌈(hi - lo + d) / d⌉) else none := by
  have hn : 0 ≤ (lo - 1 / 2 * d - o) / d := div_nonneg (by linarith) hd.le
  have hf : 0 ≤ ⌊(lo - 1 / 2 * d - o) / d⌋ := Int.floor_nonneg.2 hn
  have he : (hi + 1 / 2 * d - (lo - 1 / 2 * d)) / d = (hi - lo + d) / d := by congr 1; ring
  unfold patch
  dsimp only
  rw [truncI, if_pos hn, if_neg (not_lt.2 hf), he]
  by_cases hs : Fits lo hi o d size
  · rw [if_pos hs, if_neg (not_lt.2 hs)]
  · rw [if_neg hs, if_pos (not_le.1 hs)]

/-- a pixel centre between the limits is in the patch -/
theorem in_patch (lo hi o d : K) (hd : 0 < d) (n : Nat) (h1 : lo ≤ o + d * n + 1 / 2 * d)
    (h2 : o + d * n + 1 / 2 * d ≤ hi) :
    ⌊(lo - 1 / 2 * d - o) / d⌋ ≤ n ∧ (n : Int) < ⌊(lo - 1 / 2 * d - o) / d⌋ + ⌈(hi - lo + d) / d⌉ := by
  refine ⟨?_, ?_⟩
  · have : (lo - 1 / 2 * d - o) / d ≤ (n : K) := by
      rw [div_le_iff₀ hd]; linarith
    have := (Int.floor_le _).trans this
    exact_mod_cast this
  · have a := Int.lt_floor_add_one ((lo - 1 / 2 * d - o) / d)
    have b := Int.le_ceil ((hi - lo + d) / d)
    have e : (lo - 1 / 2 * d - o) / d + (hi - lo + d) / d = (hi - 1 / 2 * d - o) / d + 1 := by
      field_simp; ring
    have g : (n : K) ≤ (hi - 1 / 2 * d - o) / d := by
      rw [le_div_iff₀ hd]; linarith
    have : (n : K) < (⌊(lo - 1 / 2 * d - o) / d⌋ : K) + (⌈(hi - lo + d) / d⌉ : K) := by linarith
    exact_mod_cast this

/-- the first pixel centre of the patch is not beyond the lower limit -/
theorem patch_start (lo o d : K) (hd : 0 < d) : o + d * (⌊(lo - 1 / 2 * d - o) / d⌋ : Int) + 1 / 2 * d ≤ lo := by
  have := Int.floor_le ((lo - 1 / 2 * d - o) / d)
  rw [le_div_iff₀ hd] at this
  linarith

/-- an edge with one end above a level meets it between the x values of its ends -/
theorem xAt_between (y : K) (e : Pt K × Pt K) (hs : Straddles y e) (m : K) (h1 : m ≤ e.1.x) (h2 : m ≤ e.2.x) :
    m ≤ xAt y e.1 e.2 := by
  by_contra h
  rw [not_le] at h
  -- a point at that level just left of both ends meets the edge
  have key := (straddles_iff y e).1 hs
  let p : Pt K := ⟨xAt y e.1 e.2, y⟩
  have h1' : p.x < e.1.x := lt_of_lt_of_le h h1
  have h2' : p.x < e.2.x := lt_of_lt_of_le h h2
  rcases key with ⟨a, b⟩ | ⟨a, b⟩
  · have := up_imp p e.1 e.2 a b h1' h2'
    rw [← lt_xAt_up p e.1 e.2 a b] at this
    exact lt_irrefl _ this
  · have := dn_imp p e.1 e.2 a b h1' h2'
    rw [← lt_xAt_dn p e.1 e.2 a b] at this
    exact lt_irrefl _ this

/-- what the theorem asks of a cell, for the level and the place of a pixel centre `p` -/
structure Regular (ox oy dx dy : K) (p : Pt K) (q : Fin 2 → Fin 2 → Pt K) : Prop where
  /-- no corner is less than half a pixel from the west or south side of the map, or beyond it -/
  east : ∀ jp ip, ox + 1 / 2 * dx ≤ (q jp ip).x
  north : ∀ jp ip, oy + 1 / 2 * dy ≤ (q jp ip).y
  /-- at most two sides of the cell meet the level of the pixel -/
  two : ((edges (outline q)).filter (fun e => decide (Straddles p.y e))).length ≤ 2
  /-- the centre of the pixel is not exactly on a side -/
  off : ∀ e ∈ edges (outline q), Straddles p.y e → p.x ≠ xAt p.y e.1 e.2

theorem le_least (f : Pt K → K) (q : Fin 2 → Fin 2 → Pt K) (m : K) (h : ∀ jp ip, m ≤ f (q jp ip)) :
    m ≤ least f (q 0 0) (outline q) := by
  simp only [least, outline, List.foldl_cons, List.foldl_nil, le_min_iff]
  exact ⟨⟨⟨⟨h _ _, h _ _⟩, h _ _⟩, h _ _⟩, h _ _⟩

theorem pixelStep_eq (ox oy : K) (width height : Nat) (dx dy : K) (hdx : 0 < dx) (hdy : 0 < dy) (r c : Nat)
    (old : Option (Nat × Nat)) (cell : (Nat × Nat) × (Fin 2 → Fin 2 → Pt K))
    (hreg : Regular ox oy dx dy (centre ox oy dx dy r c) cell.2) :
    pixelStep ox oy width height dx dy r c old cell =
      if CellFits ox oy width height dx dy cell.2 ∧ pipCn (centre ox oy dx dy r c) (outline cell.2) = true
      then some cell.1 else old := by
  obtain ⟨idx, q⟩ := cell
  have hx := le_least Pt.x q _ hreg.east
  have hy := le_least Pt.y q _ hreg.north
  unfold pixelStep
  dsimp only
  rw [perimeter_eq]
  rw [patch_eq _ _ _ _ hdx _ hx, patch_eq _ _ _ _ hdy _ hy]
  by_cases hf : CellFits ox oy width height dx dy q
  · rw [if_pos hf.1, if_pos hf.2]
    dsimp only
    have lx := least_le Pt.x (q 0 0) (outline q)
    have gx := le_greatest Pt.x (q 0 0) (outline q)
    have ly := least_le Pt.y (q 0 0) (outline q)
    have gy := le_greatest Pt.y (q 0 0) (outline q)
    generalize least Pt.x (q 0 0) (outline q) = x0 at *
    generalize greatest Pt.x (q 0 0) (outline q) = x1 at *
    generalize least Pt.y (q 0 0) (outline q) = y0 at *
    generalize greatest Pt.y (q 0 0) (outline q) = y1 at *
    -- a pixel inside the polygon is in the patch
    have hin : pipCn (centre ox oy dx dy r c) (outline q) = true →
        (x0 ≤ ox + dx * c + 1 / 2 * dx ∧ ox + dx * c + 1 / 2 * dx ≤ x1) ∧
          (y0 ≤ oy + dy * r + 1 / 2 * dy ∧ oy + dy * r + 1 / 2 * dy ≤ y1) := by
      intro hp
      by_contra hno
      have hout := C36_outside_box (centre ox oy dx dy r c) (outline q)
      have : (∀ v ∈ outline q, v.x ≤ (centre ox oy dx dy r c).x) ∨ (∀ v ∈ outline q, (centre ox oy dx dy r c).x < v.x) ∨
          (∀ v ∈ outline q, v.y ≤ (centre ox oy dx dy r c).y) ∨ (∀ v ∈ outline q, (centre ox oy dx dy r c).y < v.y) := by
        simp only [not_and_or, not_le] at hno
        rcases hno with (h | h) | (h | h)
        · right; left; intro v hv; exact lt_of_lt_of_le h (lx v hv)
        · left; intro v hv; exact ((gx v hv).trans_lt h).le
        · right; right; right; intro v hv; exact lt_of_lt_of_le h (ly v hv)
        · right; right; left; intro v hv; exact ((gy v hv).trans_lt h).le
      rw [(hout this).1] at hp
      cases hp
    by_cases hpatch : ⌊(y0 - 1 / 2 * dy - oy) / dy⌋ ≤ r ∧ (r : Int) < ⌊(y0 - 1 / 2 * dy - oy) / dy⌋ + ⌈(y1 - y0 + dy) / dy⌉ ∧
        ⌊(x0 - 1 / 2 * dx - ox) / dx⌋ ≤ c ∧ (c : Int) < ⌊(x0 - 1 / 2 * dx - ox) / dx⌋ + ⌈(x1 - x0 + dx) / dx⌉
    · rw [if_pos hpatch]
      obtain ⟨p1, p2, p3, p4⟩ := hpatch
      have sx := patch_start x0 ox dx hdx
      generalize ⌊(y0 - 1 / 2 * dy - oy) / dy⌋ = py at *
      generalize ⌈(y1 - y0 + dy) / dy⌉ = ey at *
      generalize ⌊(x0 - 1 / 2 * dx - ox) / dx⌋ = px at *
      generalize ⌈(x1 - x0 + dx) / dx⌉ = ex at *
      have cr : (((r - py).toNat : Nat) : K) = (r : K) - (py : K) := by
        have : (((r - py).toNat : Nat) : Int) = r - py := Int.toNat_of_nonneg (by omega)
        have h2 : ((((r - py).toNat : Nat) : Int) : K) = ((r - py : Int) : K) := by rw [this]
        push_cast at h2
        exact h2
      have cc : (((c - px).toNat : Nat) : K) = (c : K) - (px : K) := by
        have : (((c - px).toNat : Nat) : Int) = c - px := Int.toNat_of_nonneg (by omega)
        have h2 : ((((c - px).toNat : Nat) : Int) : K) = ((c - px : Int) : K) := by rw [this]
        push_cast at h2
        exact h2
      have ey' : oy + dy * (py : K) + 1 / 2 * dy + dy * (((r - py).toNat : Nat) : K) = oy + dy * r + 1 / 2 * dy := by
        rw [cr]; ring
      have ex' : ox + dx * (px : K) + 1 / 2 * dx + dx * (((c - px).toNat : Nat) : K) = ox + dx * c + 1 / 2 * dx := by
        rw [cc]; ring
      have hs := scanAt_eq (ox + dx * px + 1 / 2 * dx) (oy + dy * py + 1 / 2 * dy) dx dy hdx ex.toNat
        (outline q) (r - py).toNat (c - px).toNat (by omega)
        (by rw [ey']; exact hreg.two)
        (by
          rw [ey']
          intro e he hs
          have m1 := lx _ (mem_edges he).1
          have m2 := lx _ (mem_edges he).2
          exact sx.trans (xAt_between _ e hs x0 m1 m2))
        (by rw [ey', ex']; exact hreg.off)
      rw [ey', ex'] at hs
      rw [hs]
      show (if pipCn (centre ox oy dx dy r c) (outline q) = true then some idx else old) = _
      by_cases hp : pipCn (centre ox oy dx dy r c) (outline q) = true
      · rw [if_pos hp, if_pos ⟨hf, hp⟩]
      · rw [if_neg hp, if_neg (fun h => hp h.2)]
    · rw [if_neg hpatch, if_neg]
      rintro ⟨_, hp⟩
      apply hpatch
      obtain ⟨⟨a, b⟩, a', b'⟩ := hin hp
      have i1 := in_patch x0 x1 ox dx hdx c a b
      have i2 := in_patch y0 y1 oy dy hdy r a' b'
      exact ⟨i2.1, i2.2, i1.1, i1.2⟩
  · rw [if_neg (fun h : CellFits ox oy width height dx dy q ∧ _ => hf h.1)]
    by_cases h1 : Fits (least Pt.x (q 0 0) (outline q)) (greatest Pt.x (q 0 0) (outline q)) ox dx width
    · rw [if_neg (fun h2 : Fits (least Pt.y (q 0 0) (outline q)) (greatest Pt.y (q 0 0) (outline q)) oy dy height =>
        hf ⟨h1, h2⟩), if_pos h1]
    · rw [if_neg h1]

/-- Each element of the map is the last of the cells, in the order of the grid, which fit in the map and have the centre
of the pixel inside them, or null if there is none; provided that no cell comes within half a pixel of the west
and south sides of the map or lies beyond them, that at most two sides of a cell meet a row of pixel centres, and that
no pixel centre is exactly on a side.
Full statement wanted: the same for all grids, and with every cell containing the centre of a pixel taken
into account whether or not it fits in the map; see `C61_pixel_map_violated`. -/
theorem C61_pixel_map_partial (ox oy : K) (width height : Nat) (dx dy : K) (hdx : 0 < dx) (hdy : 0 < dy)
    (cells : List ((Nat × Nat) × (Fin 2 → Fin 2 → Pt K))) (r c : Nat)
    (hreg : ∀ cell ∈ cells, Regular ox oy dx dy (centre ox oy dx dy r c) cell.2) :
    pixelMap ox oy width height dx dy cells r c =
      (cells.reverse.find? (fun cell => decide (CellFits ox oy width height dx dy cell.2) &&
        pipCn (centre ox oy dx dy r c) (outline cell.2))).map Prod.fst := by
  unfold pixelMap
  have : ∀ old : Option (Nat × Nat), cells.foldl (pixelStep ox oy width height dx dy r c) old =
      ((cells.reverse.find? (fun cell => decide (CellFits ox oy width height dx dy cell.2) &&
        pipCn (centre ox oy dx dy r c) (outline cell.2))).map Prod.fst).or old := by
    induction cells with
    | nil => intro old; simp
    | cons cell cells ih =>
      intro old
      rw [List.foldl_cons, ih (fun x hx => hreg x (List.mem_cons_of_mem _ hx)), List.reverse_cons, List.find?_append,
        pixelStep_eq ox oy width height dx dy hdx hdy r c old cell (hreg cell (List.mem_cons_self ..))]
      cases h : cells.reverse.find? (fun cell => decide (CellFits ox oy width height dx dy cell.2) &&
        pipCn (centre ox oy dx dy r c) (outline cell.2)) with
      | some x => simp
      | none =>
        by_cases hc : CellFits ox oy width height dx dy cell.2 ∧
            pipCn (centre ox oy dx dy r c) (outline cell.2) = true
        · simp [hc.1, hc.2]
        · rw [if_neg hc]
          have : (decide (CellFits ox oy width height dx dy cell.2) &&
              pipCn (centre ox oy dx dy r c) (outline cell.2)) = false := by
            rw [Bool.and_eq_false_iff, decide_eq_false_iff_not]
            by_cases h1 : CellFits ox oy width height dx dy cell.2
            · right; rw [← Bool.not_eq_true]; exact fun h2 => hc ⟨h1, h2⟩
            · left; exact h1
          simp [this]
  rw [this none, Option.or_none]

/-- a square cell -/
def square (x y s : ℚ) (jp ip : Fin 2) : Pt ℚ := ⟨x + s * ip.val, y + s * jp.val⟩

/-- A pixel is null although its centre is inside a cell, because the cell reaches beyond the east side of the map; and a pixel is
given a cell that its centre is not in, because the cell lies less than a pixel to the west of it. -/
theorem C61_pixel_map_violated :
    (pixelMap (0 : ℚ) 0 10 10 1 1 [((0, 0), square 8 2 4)] 3 9 = none ∧
      pipCn (centre (0 : ℚ) 0 1 1 3 9) (outline (square 8 2 4)) = true) ∧
    (pixelMap (0 : ℚ) 0 10 10 1 1 [((0, 0), square (-2 / 5) 2 (4 / 5))] 2 0 = some (0, 0) ∧
      pipCn (centre (0 : ℚ) 0 1 1 2 0) (outline (square (-2 / 5) 2 (4 / 5))) = false) := by
  decide +kernel

/-- the hypotheses are met by two neighbouring cells -/
example : ∀ cell ∈ [((0, 0), square (3 / 4) 1 2), ((0, 1), square (11 / 4) 1 2)],
    Regular (0 : ℚ) 0 1 1 (centre 0 0 1 1 1 3) cell.2 := by
  intro cell hc
  rcases List.mem_cons.1 hc with h | h
  · subst h
    exact ⟨by decide +kernel, by decide +kernel, by decide +kernel, by decide +kernel⟩
  · rw [List.mem_singleton] at h
    subst h
    exact ⟨by decide +kernel, by decide +kernel, by decide +kernel, by decide +kernel⟩

example : pixelMap (0 : ℚ) 0 10 10 1 1 [((0, 0), square (3 / 4) 1 2), ((0, 1), square (11 / 4) 1 2)] 1 3 = some (0, 1) := by
  decide +kernel

end Verif.Polygon
