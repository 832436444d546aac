import Verif.Mesh.Props
import Verif.RegGrid.Spec

/-!
# C171 to C173: meshes from properties of columns and from files
-/

namespace Verif.Mesh
open Verif.Py

/-! ### C171 -/

/-- **C171** the mesh made from a property of the columns of an aligned grid with its origin at nought, as grids are loaded, has the centres of the
columns for its x and y, and the values of the property for its z -/
theorem C171_columns (f : Nat) (s : Store) (u crs : Nat) (g : RegGrid.RegGrid ℝ) (hg : RegGrid.Fit g) (ha : g.aligned = true) (ho : ∀ c, g.origin c = 0)
    (hx : g.d 2 0 ≠ 0) (hy : g.d 1 1 ≠ 0) (z : Zs) :
    ∃ a m p, columnArgs g crs (g.nj, g.ni, z) = .ok a ∧ make (f + 1) s a = .ok m ∧ m.flavour = .regz ∧ m.nj = g.nj ∧ m.ni = g.ni ∧ m.crs = crs ∧
      fullArray (f + 1) s u m = .ok p ∧
      ∀ k, Holds p g.nj g.ni (fun j i => some (RegGrid.centre g (k, j, i) 0)) (fun j i => some (RegGrid.centre g (k, j, i) 1)) z := by
  obtain ⟨m, hm⟩ := ((C169_accepted (f + 1) s "map" (Or.inl rfl) crs g.ni g.nj ![1 / 2 * g.d 2 0, 1 / 2 * g.d 1 1, 0] ![g.d 2 0, 0, 0]
    ![0, g.d 1 1, 0]).2.1 g.nj g.ni z).mpr ⟨hg.nj, hg.ni, rfl, rfl⟩
  obtain ⟨p, hp, hc, hr, -, h⟩ := C169_points f s u _ m hm
  obtain ⟨hj, hi, -, h, -⟩ := h rfl
  have hh := h _ _ _ _ rfl rfl rfl rfl
  have hj : g.nj = m.nj := Option.some.inj hj
  have hi : g.ni = m.ni := Option.some.inj hi
  have hc : crs = m.crs := Option.some.inj hc
  refine ⟨_, m, p, ?_, hm, ?_, hj.symm, hi.symm, hc.symm, hp, ?_⟩
  · unfold columnArgs
    rw [if_pos ha, if_pos ⟨rfl, rfl⟩, if_pos ⟨hx, hy⟩]
  · obtain ⟨hmade, _, _⟩ := made_of_make hm
    cases hmade with
    | explicit _ _ _ _ e => cases e
    | regular _ _ _ _ _ _ _ e => cases e
    | regz => rfl
    | refz _ _ _ _ _ _ _ _ _ _ _ e => cases e
  · intro k
    rw [hj, hi]
    refine ⟨hh.1, ?_⟩
    intro j i h1 h2
    obtain ⟨e1, e2, e3⟩ := hh.2 j i h1 h2
    obtain ⟨a1, a2, a3, a4, a5, a6⟩ := hg.axes ha
    refine ⟨?_, ?_, e3⟩
    · refine e1.trans (congrArg some ?_)
      show 1 / 2 * g.d 2 0 + (i : ℝ) * g.d 2 0 + (j : ℝ) * 0 = _
      unfold RegGrid.centre RegGrid.corner RegGrid.node
      simp only [ho, a1, a3, Fin.val_zero, Fin.val_one]
      push_cast
      ring
    · refine e2.trans (congrArg some ?_)
      show 1 / 2 * g.d 1 1 + (i : ℝ) * 0 + (j : ℝ) * g.d 1 1 = _
      unfold RegGrid.centre RegGrid.corner RegGrid.node
      simp only [ho, a2, a5, Fin.val_zero, Fin.val_one]
      push_cast
      ring

/-! ### C172 -/

theorem dropWhile_all {α : Type} {p : α → Bool} {l t : List α} (h : ∀ c ∈ l, p c = true) : (l ++ t).dropWhile p = t.dropWhile p := by
  induction l with
  | nil => rfl
  | cons c l ih =>
    rw [List.cons_append, List.dropWhile_cons, if_pos (h c (List.mem_cons_self ..))]
    exact ih fun d hd => h d (List.mem_cons_of_mem _ hd)

theorem dropWhile_bare {α : Type} {p : α → Bool} {l : List α} (h : ∀ c, l.head? = some c → p c = false) : l.dropWhile p = l := by
  cases l with
  | nil => rfl
  | cons c l => rw [List.dropWhile_cons, if_neg (by rw [h c rfl]; decide)]

theorem trim_around {p : Char → Bool} {b1 s b2 : List Char} (h1 : ∀ c ∈ b1, p c = true) (h2 : ∀ c ∈ b2, p c = true) (hs : Bare p s) :
    trim p (b1 ++ s ++ b2) = s := by
  unfold trim
  rw [List.append_assoc, dropWhile_all h1]
  cases s with
  | nil =>
    have : ([] ++ b2 : List Char).dropWhile p = [] := by
      have := dropWhile_all (t := []) h2
      rw [List.append_nil] at this
      exact this
    rw [this]
    rfl
  | cons c s =>
    rw [dropWhile_bare (l := c :: s ++ b2) (by intro d hd; exact hs.1 d hd), List.reverse_append,
      dropWhile_all (fun d hd => h2 d (List.mem_reverse.mp hd)), dropWhile_bare, List.reverse_reverse]
    intro d hd
    rw [List.head?_reverse] at hd
    exact hs.2 d hd

theorem splitComma_ne (s : List Char) : splitComma s ≠ [] := by
  induction s with
  | nil => simp [splitComma]
  | cons c s ih =>
    unfold splitComma
    cases h : splitComma s with
    | nil => exact absurd h ih
    | cons w ws => dsimp only; split_ifs <;> simp

theorem splitComma_word (w : List Char) (h : ',' ∉ w) (t : List Char) :
    splitComma (w ++ t) = match splitComma t with
      | [] => [w]
      | v :: vs => (w ++ v) :: vs := by
  induction w with
  | nil =>
    cases ht : splitComma t with
    | nil => exact absurd ht (splitComma_ne t)
    | cons v vs => exact ht
  | cons c w ih =>
    rw [List.mem_cons, not_or] at h
    have := ih h.2
    cases ht : splitComma t with
    | nil => exact absurd ht (splitComma_ne t)
    | cons v vs =>
      rw [ht] at this
      rw [List.cons_append, splitComma, this]
      dsimp only
      rw [if_neg (Ne.symm h.1), List.cons_append]

theorem splitComma_join : ∀ ws : List (List Char), ws ≠ [] → (∀ w ∈ ws, ',' ∉ w) → splitComma (joinComma ws) = ws
  | [], h, _ => absurd rfl h
  | [w], _, h => by
    have := splitComma_word w (h w (List.mem_cons_self ..)) []
    rw [List.append_nil] at this
    rw [joinComma, this]
    simp [splitComma]
  | w :: v :: ws, _, h => by
    rw [joinComma, splitComma_word w (h w (List.mem_cons_self ..))]
    have ih := splitComma_join (v :: ws) (by simp) fun x hx => h x (List.mem_cons_of_mem _ hx)
    rw [splitComma, ih]
    dsimp only
    rw [if_pos rfl]
    dsimp only
    rw [List.append_nil]

/-- fields are read as written -/
theorem C172_fields (l : Line) (ws : List (List Char)) (h : Row l ws) : fields l = ws := by
  obtain ⟨hne, hc, hb, ha, b1, a1, a2, b2, hbl, hat, rfl⟩ := h
  unfold fields stripAt strip
  have h1 : trim isWS (b1 ++ a1 ++ joinComma ws ++ a2 ++ b2) = a1 ++ joinComma ws ++ a2 := by
    have e : b1 ++ a1 ++ joinComma ws ++ a2 ++ b2 = b1 ++ (a1 ++ joinComma ws ++ a2) ++ b2 := by simp
    rw [e]
    refine trim_around (fun c h => hbl c (List.mem_append_left _ h)) (fun c h => hbl c (List.mem_append_right _ h)) ⟨?_, ?_⟩
    · intro c hc
      cases a1 with
      | cons d a1 =>
        cases hc
        rw [hat c (List.mem_append_left _ (List.mem_cons_self ..))]
        decide
      | nil =>
        cases hj : joinComma ws with
        | cons d j =>
          rw [hj] at hc hb
          cases hc
          exact hb.1 c rfl
        | nil =>
          rw [hj] at hc
          cases a2 with
          | nil => cases hc
          | cons d a2 =>
            cases hc
            rw [hat c (List.mem_append_right _ (List.mem_cons_self ..))]
            decide
    · intro c hc
      rw [List.getLast?_append] at hc
      cases hl2 : a2.getLast? with
      | some d =>
        rw [hl2] at hc
        cases hc
        rw [hat c (List.mem_append_right _ (List.mem_of_getLast? hl2))]
        decide
      | none =>
        rw [hl2] at hc
        rw [List.getLast?_append] at hc
        cases hlj : (joinComma ws).getLast? with
        | some d =>
          rw [hlj] at hc
          cases hc
          exact hb.2 c hlj
        | none =>
          rw [hlj] at hc
          have hl1 : a1.getLast? = some c := by simpa using hc
          rw [hat c (List.mem_append_left _ (List.mem_of_getLast? hl1))]
          decide
  rw [h1, trim_around (fun c h => by simpa using hat c (List.mem_append_left _ h)) (fun c h => by simpa using hat c (List.mem_append_right _ h)) ha]
  exact splitComma_join ws hne hc

theorem zmapRows_mid (mid : List Line) (last : Line) (rest : List Line) (hmid : ∀ l ∈ mid, l.head? ≠ some '@') (hlast : last.head? = some '@') :
    zmapRows 1 (mid ++ last :: rest) = some (.ok ((mid.filter isRow).map fields ++ [fields last], mid.length + 1, rest)) := by
  induction mid with
  | nil =>
    rw [List.nil_append, zmapRows]
    simp [hlast]
  | cons l mid ih =>
    have hl := hmid l (List.mem_cons_self ..)
    have ih := ih fun x hx => hmid x (List.mem_cons_of_mem _ hx)
    rw [List.cons_append, zmapRows]
    simp only [hl, if_false, ih]
    by_cases hb : l.head? = some '!'
    · rw [if_pos hb]
      have : isRow l = false := by simp [isRow, hb]
      rw [List.filter_cons_of_neg (by simp [this])]
      rfl
    · rw [if_neg hb]
      have : isRow l = true := by simp [isRow, hb]
      rw [List.filter_cons_of_pos this]
      rfl

theorem zmapRows_pre (pre : List Line) (hpre : ∀ l ∈ pre, l.head? = some '!') (t : List Line) :
    zmapRows 0 (pre ++ t) = (zmapRows 0 t).map fun r => r.map fun x => (x.1, x.2.1 + pre.length, x.2.2) := by
  induction pre with
  | nil =>
    cases h : zmapRows 0 t with
    | none => rw [List.nil_append, h]; rfl
    | some r => cases r <;> (rw [List.nil_append, h]; rfl)
  | cons l pre ih =>
    have hl := hpre l (List.mem_cons_self ..)
    rw [List.cons_append, zmapRows]
    simp only [hl]
    have h0 : (if some '!' = some '@' then 0 + 1 else 0) = 0 := by decide
    rw [h0, ih fun x hx => hpre x (List.mem_cons_of_mem _ hx)]
    cases h : zmapRows 0 t with
    | none => rfl
    | some r => cases r <;> rfl

theorem zmapRows_all (pre mid rest : List Line) (first last : Line) (hpre : ∀ l ∈ pre, l.head? = some '!') (hfirst : first.head? = some '@')
    (hmid : ∀ l ∈ mid, l.head? ≠ some '@') (hlast : last.head? = some '@') :
    zmapRows 0 (pre ++ first :: (mid ++ last :: rest)) =
      some (.ok (fields first :: ((mid.filter isRow).map fields ++ [fields last]), mid.length + 2 + pre.length, rest)) := by
  rw [zmapRows_pre pre hpre, zmapRows]
  simp only [hfirst, if_true]
  rw [if_neg (by decide), if_pos (Or.inl trivial), if_neg (by decide), zmapRows_mid mid last rest hmid hlast]
  rfl

theorem linspace_spaced (a b : ℝ) (n i : Nat) (h : i < n) : linspace a b n i = spaced a b n i := by
  unfold linspace spaced
  split_ifs with h1
  · have : i = 0 := by omega
    simp [this]
  · ring

theorem values_stand (num : List Char → Option ℝ) (null : List Char) : ∀ (words : List (List Char)) (vs : List (Option ℝ)),
    List.Forall₂ (Stands num null) words vs → words.mapM (valueOf num null) = .ok vs := by
  intro words vs h
  induction h with
  | nil => rfl
  | cons hw _ ih =>
    rename_i w v ws vs _
    rw [List.mapM_cons, ih]
    have : valueOf num null w = .ok v := by
      unfold valueOf
      rcases hw with ⟨e, rfl⟩ | ⟨e, x, y, hx, hy, hv⟩
      · rw [if_pos e]
      · rw [if_neg e, hx, hy]
        dsimp only
        rcases hv with ⟨rfl, rfl⟩ | ⟨hne, rfl⟩
        · rw [if_pos rfl]
        · rw [if_neg hne]
    rw [this]
    rfl

/-- the header as it is to be read -/
theorem zmap_header (num : List Char → Option ℝ) (file data : List Line) (k : Facts) (h : ZmapFile num file data k) :
    ∃ n, file.drop n = data ∧ readZmapHeader num file = some (.ok ⟨n, k.rows, k.cols, k.minx, k.maxx, k.miny, k.maxy, k.null⟩) := by
  obtain ⟨pre, first, mid, last, rest, rfl, hpre, hfirst, hmid, hlast, hrest, l1, l2, more, r1, r2, hl, hr1, hr2, ⟨w0, w1, w2, ws, rfl, hnull⟩,
    t0, t1, t2, t3, t4, t5, ts, rfl, e0, e1, e2, e3, e4, e5⟩ := h
  unfold readZmapHeader
  rw [zmapRows_all pre mid rest first last hpre hfirst hmid hlast, hl]
  rw [List.map_cons, List.map_cons, C172_fields l1 _ hr1, C172_fields l2 _ hr2]
  have hn : ∃ n, plusLine (mid.length + 2 + pre.length) rest = .ok n ∧ (pre ++ first :: (mid ++ last :: rest)).drop n = data := by
    have hd : (pre ++ first :: (mid ++ last :: rest)).drop (mid.length + 2 + pre.length) = rest := by
      have : pre ++ first :: (mid ++ last :: rest) = (pre ++ first :: (mid ++ [last])) ++ rest := by simp
      rw [this, List.drop_left']
      simp
      omega
    rcases hrest with ⟨plus, rfl, hp⟩ | ⟨rfl, l, ls, rfl, hp⟩
    · refine ⟨mid.length + 2 + pre.length + 1, ?_, ?_⟩
      · simp [plusLine, hp]
      · rw [← List.drop_drop, hd]
        rfl
    · exact ⟨mid.length + 2 + pre.length, by simp [plusLine, hp], hd⟩
  obtain ⟨n, hn1, hn2⟩ := hn
  refine ⟨n, hn2, ?_⟩
  show some (zmapHead num _ _ _) = _
  congr 1
  unfold zmapHead
  rw [hn1]
  simp only [Verif.Box.ok_bind, item, List.cons_append, List.getElem?_cons_zero, List.getElem?_cons_succ, Except.bind, intField, intOf, floatField,
    floatOf, e0, e1, e2, e3, e4, e5]
  rw [hnull]

theorem rms_header (num : List Char → Option ℝ) (file data : List Line) (k : Facts) (h : RmsFile num file data k) :
    file.drop 4 = data ∧ readRmsHeader num file = .ok ⟨4, k.rows, k.cols, k.minx, k.maxx, k.miny, k.maxy, k.null⟩ := by
  obtain ⟨l0, l1, l2, l3, rfl, hnull, ⟨t, ts, h0, e⟩, ⟨t0, t1, t2, t3, ts', h1, e0, e1, e2, e3⟩, ⟨tc, ts'', h2, ec⟩⟩ := h
  refine ⟨rfl, ?_⟩
  unfold readRmsHeader
  simp only [word, List.getD_cons_zero, List.getD_cons_succ, h0, h1, h2, List.getElem?_cons_zero, List.getElem?_cons_succ, Verif.Box.ok_bind, if_true,
    Except.bind, intOf, floatOf, e, e0, e1, e2, e3, ec]
  rw [hnull]

theorem readBody_ok (num : List Char → Option ℝ) (zmap : Bool) (file data : List Line) (k : Facts) (n : Nat) (hd : file.drop n = data)
    (vs : List (Option ℝ)) (hvs : List.Forall₂ (Stands num k.null) (data.flatMap splitWS) vs) :
    (k.rows * k.cols < vs.length → readBody num zmap file ⟨n, k.rows, k.cols, k.minx, k.maxx, k.miny, k.maxy, k.null⟩ = .error .index) ∧
    (vs.length ≤ k.rows * k.cols → ∃ t, readBody num zmap file ⟨n, k.rows, k.cols, k.minx, k.maxx, k.miny, k.maxy, k.null⟩ = .ok t ∧
      t.rows = k.rows ∧ t.cols = k.cols ∧ ∀ r c, r < k.rows → c < k.cols → t.x r c = spaced k.minx k.maxx k.cols c ∧
        t.y r c = (if zmap then spaced k.maxy k.miny k.rows r else spaced k.miny k.maxy k.rows r) ∧
        t.f r c = (vs[if zmap then c * k.rows + r else r * k.cols + c]?).getD (some 0)) := by
  unfold readBody
  dsimp only
  rw [if_neg (by omega)]
  unfold wordsAfter values
  rw [hd, values_stand num k.null _ vs hvs]
  rw [Verif.Box.ok_bind, Int.toNat_natCast, Int.toNat_natCast]
  constructor
  · intro hlt
    rw [if_neg (by rw [Nat.mul_comm]; omega)]
    rfl
  · intro hle
    rw [if_pos (by rw [Nat.mul_comm]; exact hle)]
    refine ⟨_, rfl, rfl, rfl, ?_⟩
    intro r c hr hc
    refine ⟨linspace_spaced _ _ _ _ hc, ?_, ?_⟩
    · cases zmap
      · exact linspace_spaced _ _ _ _ hr
      · exact linspace_spaced _ _ _ _ hr
    · cases zmap
      · exact List.getD_eq_getElem?_getD ..
      · exact List.getD_eq_getElem?_getD ..

/-- **C172** a zmap file with as many values as nodes is read with its rows and columns, x from the least to the greatest along columns, y from the
greatest to the least along rows, and values column by column; a null value is no value -/
theorem C172_zmap (num : List Char → Option ℝ) (file data : List Line) (k : Facts) (h : ZmapFile num file data k) (vs : List (Option ℝ))
    (hvs : List.Forall₂ (Stands num k.null) (data.flatMap splitWS) vs) (hn : vs.length = k.rows * k.cols) :
    ∃ t, readMesh num true file = some (.ok t) ∧ t.rows = k.rows ∧ t.cols = k.cols ∧ ∀ r c, r < k.rows → c < k.cols →
      t.x r c = spaced k.minx k.maxx k.cols c ∧ t.y r c = spaced k.maxy k.miny k.rows r ∧ some (t.f r c) = vs[c * k.rows + r]? := by
  obtain ⟨n, hd, he⟩ := zmap_header num file data k h
  obtain ⟨t, ht, h1, h2, h3⟩ := (readBody_ok num true file data k n hd vs hvs).2 hn.le
  refine ⟨t, ?_, h1, h2, ?_⟩
  · unfold readMesh
    rw [if_pos rfl, he]
    exact congrArg some ht
  · intro r c hr hc
    obtain ⟨g1, g2, g3⟩ := h3 r c hr hc
    refine ⟨g1, g2, ?_⟩
    rw [g3]
    have : c * k.rows + r < vs.length := by
      rw [hn]
      calc c * k.rows + r < c * k.rows + k.rows := by omega
        _ = (c + 1) * k.rows := by ring
        _ ≤ k.cols * k.rows := Nat.mul_le_mul_right _ hc
        _ = k.rows * k.cols := Nat.mul_comm ..
    simp [List.getElem?_eq_getElem this]

/-- **C172** an RMS text file with as many values as nodes is read with its rows and columns, x and y from the least to the greatest, and values row
by row -/
theorem C172_rms (num : List Char → Option ℝ) (file data : List Line) (k : Facts) (h : RmsFile num file data k) (vs : List (Option ℝ))
    (hvs : List.Forall₂ (Stands num k.null) (data.flatMap splitWS) vs) (hn : vs.length = k.rows * k.cols) :
    ∃ t, readMesh num false file = some (.ok t) ∧ t.rows = k.rows ∧ t.cols = k.cols ∧ ∀ r c, r < k.rows → c < k.cols →
      t.x r c = spaced k.minx k.maxx k.cols c ∧ t.y r c = spaced k.miny k.maxy k.rows r ∧ some (t.f r c) = vs[r * k.cols + c]? := by
  obtain ⟨hd, he⟩ := rms_header num file data k h
  obtain ⟨t, ht, h1, h2, h3⟩ := (readBody_ok num false file data k 4 hd vs hvs).2 hn.le
  refine ⟨t, ?_, h1, h2, ?_⟩
  · unfold readMesh
    rw [if_neg (by decide), he]
    exact congrArg some ht
  · intro r c hr hc
    obtain ⟨g1, g2, g3⟩ := h3 r c hr hc
    refine ⟨g1, g2, ?_⟩
    rw [g3]
    have : r * k.cols + c < vs.length := by
      rw [hn]
      calc r * k.cols + c < r * k.cols + k.cols := by omega
        _ = (r + 1) * k.cols := by ring
        _ ≤ k.rows * k.cols := Nat.mul_le_mul_right _ hr
    simp [List.getElem?_eq_getElem this]

/-- **C172** a file with more values than nodes is refused -/
theorem C172_long (num : List Char → Option ℝ) (file data : List Line) (k : Facts) (vs : List (Option ℝ))
    (hvs : List.Forall₂ (Stands num k.null) (data.flatMap splitWS) vs) (hn : k.rows * k.cols < vs.length) :
    (ZmapFile num file data k → readMesh num true file = some (.error .index)) ∧
    (RmsFile num file data k → readMesh num false file = some (.error .index)) := by
  constructor
  · intro h
    obtain ⟨n, hd, he⟩ := zmap_header num file data k h
    unfold readMesh
    rw [if_pos rfl, he]
    exact congrArg some ((readBody_ok num true file data k n hd vs hvs).1 hn)
  · intro h
    obtain ⟨hd, he⟩ := rms_header num file data k h
    unfold readMesh
    rw [if_neg (by decide), he]
    exact congrArg some ((readBody_ok num false file data k 4 hd vs hvs).1 hn)

/-- **C172 fails** for every file which ends before all values are given: it is read without an error, with noughts for the values missing -/
theorem C172_short_violated (num : List Char → Option ℝ) (file data : List Line) (k : Facts) (vs : List (Option ℝ))
    (hvs : List.Forall₂ (Stands num k.null) (data.flatMap splitWS) vs) (hn : vs.length < k.rows * k.cols) :
    (ZmapFile num file data k → ∃ t, readMesh num true file = some (.ok t) ∧ t.f (k.rows - 1) (k.cols - 1) = some 0) ∧
    (RmsFile num file data k → ∃ t, readMesh num false file = some (.ok t) ∧ t.f (k.rows - 1) (k.cols - 1) = some 0) := by
  have hr : 0 < k.rows := Nat.pos_of_ne_zero fun e => by rw [e] at hn; omega
  have hc : 0 < k.cols := Nat.pos_of_ne_zero fun e => by rw [e] at hn; omega
  constructor
  · intro h
    obtain ⟨n, hd, he⟩ := zmap_header num file data k h
    obtain ⟨t, ht, -, -, h3⟩ := (readBody_ok num true file data k n hd vs hvs).2 hn.le
    refine ⟨t, ?_, ?_⟩
    · unfold readMesh
      rw [if_pos rfl, he]
      exact congrArg some ht
    · rw [(h3 (k.rows - 1) (k.cols - 1) (by omega) (by omega)).2.2, if_pos rfl, List.getElem?_eq_none]
      · rfl
      · obtain ⟨c, hc'⟩ : ∃ c, k.cols = c + 1 := ⟨k.cols - 1, by omega⟩
        rw [hc'] at hn ⊢
        rw [Nat.add_sub_cancel, Nat.mul_comm c]
        rw [Nat.mul_add] at hn
        omega
  · intro h
    obtain ⟨hd, he⟩ := rms_header num file data k h
    obtain ⟨t, ht, -, -, h3⟩ := (readBody_ok num false file data k 4 hd vs hvs).2 hn.le
    refine ⟨t, ?_, ?_⟩
    · unfold readMesh
      rw [if_neg (by decide), he]
      exact congrArg some ht
    · rw [(h3 (k.rows - 1) (k.cols - 1) (by omega) (by omega)).2.2, if_neg (by decide), List.getElem?_eq_none]
      · rfl
      · obtain ⟨r, hr'⟩ : ∃ r, k.rows = r + 1 := ⟨k.rows - 1, by omega⟩
        rw [hr'] at hn ⊢
        rw [Nat.add_sub_cancel]
        rw [Nat.add_mul] at hn
        omega

/-- **C172** a zmap file with a line which is neither a comment nor begins with '@' before any which does is refused, as is one with comments only -/
theorem C172_unmarked (num : List Char → Option ℝ) (pre t : List Line) (hpre : ∀ l ∈ pre, l.head? = some '!')
    (ht : t = [] ∨ ∃ l ls, t = l :: ls ∧ l.head? ≠ some '!' ∧ l.head? ≠ some '@') : readMesh num true (pre ++ t) = some (.error .value) := by
  have : zmapRows 0 t = some (.error .value) := by
    rcases ht with rfl | ⟨l, ls, rfl, h1, h2⟩
    · rfl
    · rw [zmapRows]
      simp [h1, h2]
  unfold readMesh readZmapHeader
  rw [if_pos rfl, zmapRows_pre pre hpre, this]
  rfl

/-- **C172 fails** for every zmap file which breaks off in its header: reading never ends -/
theorem C172_endless_violated (num : List Char → Option ℝ) (pre : List Line) (first : Line) (mid : List Line) (hpre : ∀ l ∈ pre, l.head? = some '!')
    (hfirst : first.head? = some '@') (hmid : ∀ l ∈ mid, l.head? ≠ some '@') : readMesh num true (pre ++ first :: mid) = none := by
  have hm : zmapRows 1 mid = none := by
    induction mid with
    | nil => rfl
    | cons l mid ih =>
      have hl := hmid l (List.mem_cons_self ..)
      have ih := ih fun x hx => hmid x (List.mem_cons_of_mem _ hx)
      rw [zmapRows]
      simp [hl, ih]
  have hf : zmapRows 0 (first :: mid) = none := by
    rw [zmapRows]
    simp [hfirst, hm]
  unfold readMesh readZmapHeader
  rw [if_pos rfl, zmapRows_pre pre hpre, hf]
  rfl

/-! ### C173 -/

/-- what is read from a file is evenly spaced -/
def Even (t : XYF) (x0 x1 y0 y1 : ℝ) : Prop :=
  ∀ r c, r < t.rows → c < t.cols → t.x r c = spaced x0 x1 t.cols c ∧ t.y r c = spaced y0 y1 t.rows r

theorem fileLat_node (t : XYF) (x0 x1 y0 y1 : ℝ) (h : Even t x0 x1 y0 y1) (hr : 1 < t.rows) (hc : 1 < t.cols) (j i : Nat) (hj : j < t.rows) (hi : i < t.cols) :
    node (fileLat t) j i 0 = t.x j i ∧ node (fileLat t) j i 1 = t.y j i ∧ node (fileLat t) j i 2 = 0 := by
  obtain ⟨a1, a2⟩ := h 0 0 (by omega) (by omega)
  obtain ⟨b1, b2⟩ := h (t.rows - 1) (t.cols - 1) (by omega) (by omega)
  obtain ⟨c1, c2⟩ := h j i hj hi
  have hr0 : (t.rows : ℝ) - 1 ≠ 0 := by
    have : (1 : ℝ) < t.rows := by exact_mod_cast hr
    linarith
  have hc0 : (t.cols : ℝ) - 1 ≠ 0 := by
    have : (1 : ℝ) < t.cols := by exact_mod_cast hc
    linarith
  have er : ((t.rows - 1 : Nat) : ℝ) = (t.rows : ℝ) - 1 := by rw [Nat.cast_sub hr.le]; norm_num
  have ec : ((t.cols - 1 : Nat) : ℝ) = (t.cols : ℝ) - 1 := by rw [Nat.cast_sub hc.le]; norm_num
  refine ⟨?_, ?_, ?_⟩
  · show t.x 0 0 + (i : ℝ) * ((t.x (t.rows - 1) (t.cols - 1) - t.x 0 0) / ((t.cols : ℝ) - 1)) + (j : ℝ) * 0 = _
    rw [a1, b1, c1]
    unfold spaced
    rw [ec]
    field_simp
    push_cast
    ring
  · show t.y 0 0 + (i : ℝ) * 0 + (j : ℝ) * ((t.y (t.rows - 1) (t.cols - 1) - t.y 0 0) / ((t.rows : ℝ) - 1)) = _
    rw [a2, b2, c2]
    unfold spaced
    rw [er]
    field_simp
    push_cast
    ring
  · show (0 : ℝ) + (i : ℝ) * 0 + (j : ℝ) * 0 = 0
    ring

theorem fileLat_steps (t : XYF) (x0 x1 y0 y1 : ℝ) (h : Even t x0 x1 y0 y1) (hr : 1 < t.rows) (hc : 1 < t.cols) :
    (fileLat t).di 0 = (x1 - x0) / ((t.cols : ℝ) - 1) ∧ (fileLat t).dj 1 = (y1 - y0) / ((t.rows : ℝ) - 1) := by
  obtain ⟨a1, a2⟩ := h 0 0 (by omega) (by omega)
  obtain ⟨b1, b2⟩ := h (t.rows - 1) (t.cols - 1) (by omega) (by omega)
  have hr0 : (t.rows : ℝ) - 1 ≠ 0 := by
    have : (1 : ℝ) < t.rows := by exact_mod_cast hr
    linarith
  have hc0 : (t.cols : ℝ) - 1 ≠ 0 := by
    have : (1 : ℝ) < t.cols := by exact_mod_cast hc
    linarith
  have er : ((t.rows - 1 : Nat) : ℝ) = (t.rows : ℝ) - 1 := by rw [Nat.cast_sub hr.le]; norm_num
  have ec : ((t.cols - 1 : Nat) : ℝ) = (t.cols : ℝ) - 1 := by rw [Nat.cast_sub hc.le]; norm_num
  constructor
  · show (t.x (t.rows - 1) (t.cols - 1) - t.x 0 0) / ((t.cols : ℝ) - 1) = _
    rw [a1, b1]
    unfold spaced
    rw [ec]
    field_simp
    push_cast
    ring
  · show (t.y (t.rows - 1) (t.cols - 1) - t.y 0 0) / ((t.rows : ℝ) - 1) = _
    rw [a2, b2]
    unfold spaced
    rw [er]
    field_simp
    push_cast
    ring

/-- **C173** a mesh from a file, explicit or regular with z values, has the points of the file, when made and when stored and loaded -/
theorem C173_file (t : XYF) (x0 x1 y0 y1 : ℝ) (h : Even t x0 x1 y0 y1) (hr : 1 < t.rows) (hc : 1 < t.cols) (hx : x0 ≠ x1) (hy : y0 ≠ y1)
    (role : String) (crs : Nat) (fl : Flavour) (hfl : fl = .explicit ∨ fl = .regz) (f g : Nat) (s : Store) (u : Nat) :
    ∃ m p s' m' p', ofFile role crs fl t = .ok m ∧ (m.nj, m.ni) = (t.rows, t.cols) ∧ m.flavour = fl ∧ fullArray (f + 1) s u m = .ok p ∧
      Holds p t.rows t.cols (fun j i => some (t.x j i)) (fun j i => some (t.y j i)) t.f ∧
      store (f + 1) s u m false = .ok s' ∧ load (g + 1) s' u = .ok m' ∧ look m' = look m ∧ fullArray (g + 1) s' u m' = .ok p' ∧
      Holds p' t.rows t.cols (fun j i => some (t.x j i)) (fun j i => some (t.y j i)) t.f := by
  have hp : Holds (filePts t) t.rows t.cols (fun j i => some (t.x j i)) (fun j i => some (t.y j i)) t.f := ⟨rfl, fun _ _ _ _ => ⟨rfl, rfl, rfl⟩⟩
  rcases hfl with rfl | rfl
  · refine ⟨⟨role, t.cols, t.rows, .explicit, some (filePts t), none, none, crs⟩, filePts t,
      ⟨(u, ⟨role, some t.cols, some t.rows, some crs, some (.coords true)⟩) :: s.nodes, (u, filePts t) :: s.points, s.zs⟩,
      ⟨role, t.cols, t.rows, .explicit, none, none, none, crs⟩, filePts t, ?_, rfl, rfl, rfl, hp, rfl, ?_, rfl, ?_, hp⟩
    · unfold ofFile
      rw [if_pos ⟨hr, hc⟩]
    · unfold load
      dsimp only
      rw [lookup_cons_self]
    · unfold fullArray
      dsimp only
      rw [lookup_cons_self]
  · have hr0 : (t.rows : ℝ) - 1 ≠ 0 := by
      have : (1 : ℝ) < t.rows := by exact_mod_cast hr
      linarith
    have hc0 : (t.cols : ℝ) - 1 ≠ 0 := by
      have : (1 : ℝ) < t.cols := by exact_mod_cast hc
      linarith
    obtain ⟨d1, d2⟩ := fileLat_steps t x0 x1 y0 y1 h hr hc
    obtain ⟨lx, hlx⟩ := (storeLat_iff t.cols t.rows (fileLat t)).mpr ⟨fun e => by
        rw [e] at d1
        exact div_ne_zero (sub_ne_zero.mpr hx.symm) hc0 d1.symm, fun e => by
        rw [e] at d2
        exact div_ne_zero (sub_ne_zero.mpr hy.symm) hr0 d2.symm⟩
    refine ⟨⟨role, t.cols, t.rows, .regz, some (filePts t), some (fileLat t), none, crs⟩, filePts t,
      ⟨(u, ⟨role, some t.cols, some t.rows, some crs, some (.zLattice lx)⟩) :: s.nodes, s.points, (u, fun j i => (filePts t).val j i 2) :: s.zs⟩,
      ⟨role, t.cols, t.rows, .regz, none, some (fileLat t), none, crs⟩,
      ⟨3, fun j i c => if c = 2 then (filePts t).val j i 2 else (regularPts (fileLat t) t.cols t.rows).val j i c⟩, ?_, rfl, rfl, rfl, hp, ?_, ?_, rfl, ?_, ?_⟩
    · unfold ofFile
      rw [if_pos ⟨hr, hc⟩]
    · unfold store writeArrays storeNode storePoints fullArray
      dsimp only
      rw [hlx]
      rfl
    · unfold load
      dsimp only
      rw [lookup_cons_self]
      dsimp only
      rw [loadLat_storeLat _ _ _ _ hlx]
      rfl
    · unfold fullArray
      dsimp only
      rw [lookup_cons_self]
      rfl
    · refine ⟨rfl, ?_⟩
      intro j i hj hi
      obtain ⟨n1, n2, _⟩ := fileLat_node t x0 x1 y0 y1 h hr hc j i hj hi
      obtain ⟨q1, q2, _⟩ := (regularPts_holds (fileLat t) t.cols t.rows).2 j i hj hi
      refine ⟨?_, ?_, rfl⟩
      · show (regularPts (fileLat t) t.cols t.rows).val j i 0 = _
        exact q1.trans (congrArg some n1)
      · show (regularPts (fileLat t) t.cols t.rows).val j i 1 = _
        exact q2.trans (congrArg some n2)

/-- **C173 fails** for regular meshes from files: until stored they have the z values of the file, once loaded z is nought throughout -/
theorem C173_regular_violated (t : XYF) (x0 x1 y0 y1 : ℝ) (h : Even t x0 x1 y0 y1) (hr : 1 < t.rows) (hc : 1 < t.cols) (hx : x0 ≠ x1) (hy : y0 ≠ y1)
    (role : String) (crs : Nat) (f g : Nat) (s : Store) (u : Nat) :
    ∃ m p s' m' p', ofFile role crs .regular t = .ok m ∧ fullArray (f + 1) s u m = .ok p ∧
      Holds p t.rows t.cols (fun j i => some (t.x j i)) (fun j i => some (t.y j i)) t.f ∧
      store (f + 1) s u m false = .ok s' ∧ load (g + 1) s' u = .ok m' ∧ look m' = look m ∧ fullArray (g + 1) s' u m' = .ok p' ∧
      Holds p' t.rows t.cols (fun j i => some (t.x j i)) (fun j i => some (t.y j i)) (fun _ _ => some 0) := by
  have hp : Holds (filePts t) t.rows t.cols (fun j i => some (t.x j i)) (fun j i => some (t.y j i)) t.f := ⟨rfl, fun _ _ _ _ => ⟨rfl, rfl, rfl⟩⟩
  have hr0 : (t.rows : ℝ) - 1 ≠ 0 := by
    have : (1 : ℝ) < t.rows := by exact_mod_cast hr
    linarith
  have hc0 : (t.cols : ℝ) - 1 ≠ 0 := by
    have : (1 : ℝ) < t.cols := by exact_mod_cast hc
    linarith
  obtain ⟨d1, d2⟩ := fileLat_steps t x0 x1 y0 y1 h hr hc
  obtain ⟨lx, hlx⟩ := (storeLat_iff t.cols t.rows (fileLat t)).mpr ⟨fun e => by
      rw [e] at d1
      exact div_ne_zero (sub_ne_zero.mpr hx.symm) hc0 d1.symm, fun e => by
      rw [e] at d2
      exact div_ne_zero (sub_ne_zero.mpr hy.symm) hr0 d2.symm⟩
  refine ⟨⟨role, t.cols, t.rows, .regular, some (filePts t), some (fileLat t), none, crs⟩, filePts t,
    ⟨(u, ⟨role, some t.cols, some t.rows, some crs, some (.lattice lx)⟩) :: s.nodes, s.points, s.zs⟩,
    ⟨role, t.cols, t.rows, .regular, none, some (fileLat t), none, crs⟩, regularPts (fileLat t) t.cols t.rows, ?_, rfl, hp, ?_, ?_, rfl, rfl, rfl, ?_⟩
  · unfold ofFile
    rw [if_pos ⟨hr, hc⟩]
  · unfold store writeArrays storeNode storePoints
    dsimp only
    rw [hlx]
    rfl
  · unfold load
    dsimp only
    rw [lookup_cons_self]
    dsimp only
    rw [loadLat_storeLat _ _ _ _ hlx]
    rfl
  · intro j i hj hi
    obtain ⟨n1, n2, n3⟩ := fileLat_node t x0 x1 y0 y1 h hr hc j i hj hi
    obtain ⟨q1, q2, q3⟩ := (regularPts_holds (fileLat t) t.cols t.rows).2 j i hj hi
    exact ⟨q1.trans (congrArg some n1), q2.trans (congrArg some n2), q3.trans (congrArg some n3)⟩

/-- **C173 fails** for meshes with a reference mesh: none can be made from any file -/
theorem C173_reference_violated (t : XYF) (role : String) (crs : Nat) : ofFile role crs .refz t = .error .assertion := by
  unfold ofFile
  split_ifs <;> rfl

/-! ### The hypotheses can be met -/

example : Row " 15, 1.0E+30, , 7, 1".toList ["15".toList, " 1.0E+30".toList, " ".toList, " 7".toList, " 1".toList] := by
  refine ⟨by decide, by decide, ⟨?_, ?_⟩, ⟨?_, ?_⟩, [' '], [], [], [], by decide, by decide, by decide⟩ <;> (intro c h; cases h; decide)

/-- a reader of whole numbers, for examples -/
noncomputable def wholeNum (w : List Char) : Option ℝ := (readInt? w).map fun n => (n : ℝ)

theorem wholeNum_eq {w : List Char} {n : Int} (h : readInt? w = some n) : wholeNum w = some (n : ℝ) := by
  unfold wholeNum
  rw [h]
  rfl

/-- two rows and three columns -/
noncomputable def exampleFacts : Facts := ⟨2, 3, ((0 : Int) : ℝ), ((100 : Int) : ℝ), ((-50 : Int) : ℝ), ((50 : Int) : ℝ), "999".toList⟩

example : ZmapFile wholeNum
    ["! made by hand".toList, "@ a, GRID, 3".toList, "15, 999, , 0, 1".toList, "! extent".toList, "2, 3, 0, 100, -50, 50".toList, "0, 0, 0".toList,
      "@".toList, "+ ".toList, "1 2 3".toList, "4 999 6".toList]
    ["1 2 3".toList, "4 999 6".toList] exampleFacts := by
  refine ⟨["! made by hand".toList], "@ a, GRID, 3".toList, ["15, 999, , 0, 1".toList, "! extent".toList, "2, 3, 0, 100, -50, 50".toList, "0, 0, 0".toList],
    "@".toList, ["+ ".toList, "1 2 3".toList, "4 999 6".toList], rfl, by decide, by decide, by decide, by decide, Or.inl ⟨"+ ".toList, rfl, by decide⟩,
    "15, 999, , 0, 1".toList, "2, 3, 0, 100, -50, 50".toList, ["0, 0, 0".toList],
    ["15".toList, " 999".toList, " ".toList, " 0".toList, " 1".toList],
    ["2".toList, " 3".toList, " 0".toList, " 100".toList, " -50".toList, " 50".toList], by decide, ?_, ?_, ?_, ?_⟩
  · refine ⟨by decide, by decide, ⟨?_, ?_⟩, ⟨?_, ?_⟩, [], [], [], [], by decide, by decide, by decide⟩ <;> (intro c h; cases h; decide)
  · refine ⟨by decide, by decide, ⟨?_, ?_⟩, ⟨?_, ?_⟩, [], [], [], [], by decide, by decide, by decide⟩ <;> (intro c h; cases h; decide)
  · exact ⟨_, _, _, _, rfl, by rw [if_neg (by decide)]; rfl⟩
  · exact ⟨_, _, _, _, _, _, _, rfl, by decide, by decide, wholeNum_eq (by decide), wholeNum_eq (by decide), wholeNum_eq (by decide),
      wholeNum_eq (by decide)⟩

example : RmsFile wholeNum
    ["-996 2 50 100".toList, "0 100 -50 50".toList, "3 0 0 0".toList, "0 0 0 0 0 0 0".toList, "1 2 3 4 5 6".toList] ["1 2 3 4 5 6".toList]
    { exampleFacts with null := "9999900.0000".toList } :=
  ⟨_, _, _, _, rfl, rfl, ⟨_, _, rfl, by decide⟩, ⟨_, _, _, _, _, rfl, wholeNum_eq (by decide), wholeNum_eq (by decide), wholeNum_eq (by decide),
    wholeNum_eq (by decide)⟩, ⟨_, _, rfl, by decide⟩⟩

example : List.Forall₂ (Stands wholeNum "999".toList) ["4".toList, "999".toList, "0999".toList] [some ((4 : Int) : ℝ), none, none] := by
  refine .cons (Or.inr ⟨by decide, _, _, wholeNum_eq (n := 4) (by decide), wholeNum_eq (n := 999) (by decide), Or.inr ⟨by norm_num, rfl⟩⟩)
    (.cons (Or.inl ⟨rfl, rfl⟩) (.cons (Or.inr ⟨by decide, _, _, wholeNum_eq (n := 999) (by decide), wholeNum_eq (n := 999) (by decide), Or.inl ⟨rfl, rfl⟩⟩) .nil))

example : Even ⟨2, 3, fun _ c => spaced 0 10 3 c, fun r _ => spaced 5 1 2 r, fun _ _ => none⟩ 0 10 5 1 := fun _ _ _ _ => ⟨rfl, rfl⟩

end Verif.Mesh
