import Verif.Lines.Model
import Mathlib.Tactic.Linarith
import Mathlib.Data.Rat.Cast.Order
import Mathlib.Algebra.Order.Ring.Rat
import Mathlib.Data.List.Chain

/-! # C35: thinning of polylines; C62: reading of polylines -/

namespace Verif.Lines

section
variable {K : Type} [Field K] [LinearOrder K]

/-! ## C35 -/

theorem whittle_sublist (t : K) (c : List K) (l : List (List K)) : (whittle t c l).Sublist l := by
  induction l generalizing c with
  | nil => exact List.Sublist.refl _
  | cons v l ih =>
    rw [whittle]
    split
    · exact (ih v).cons_cons v
    · exact (ih c).cons v

theorem whittle_chain (t : K) (c : List K) (l : List (List K)) :
    (c :: whittle t c l).IsChain (fun a b => manhattan b a > t) := by
  induction l generalizing c with
  | nil => simp [whittle]
  | cons v l ih =>
    rw [whittle]
    split
    · rename_i h
      exact List.IsChain.cons_cons h (ih v)
    · exact ih c

theorem whittle_cover (t : K) (c : List K) (l : List (List K)) :
    ∀ v ∈ l, v ∈ whittle t c l ∨ ∃ w ∈ c :: whittle t c l, manhattan v w ≤ t := by
  induction l generalizing c with
  | nil => intro v hv; cases hv
  | cons a l ih =>
    intro v hv
    rw [whittle]
    split
    · rename_i h
      rcases List.mem_cons.1 hv with rfl | hv
      · left; exact List.mem_cons_self ..
      · rcases ih a v hv with h1 | ⟨w, hw, h2⟩
        · left; exact List.mem_cons_of_mem _ h1
        · right; exact ⟨w, List.mem_cons_of_mem _ hw, h2⟩
    · rename_i h
      rcases List.mem_cons.1 hv with rfl | hv
      · right; exact ⟨c, List.mem_cons_self .., not_lt.1 h⟩
      · exact ih c v hv

theorem dropLast_last_sublist {α : Type} (v : α) (k l : List α) (h : k.Sublist l) (hne : k.length < l.length) :
    ((v :: k).dropLast ++ [(v :: l).getLast (List.cons_ne_nil v l)]).Sublist (v :: l) := by
  have hl : l ≠ [] := by intro h0; subst h0; simp at hne
  have h1 : (v :: l) = (v :: l).dropLast ++ [(v :: l).getLast (List.cons_ne_nil v l)] :=
    (List.dropLast_append_getLast (List.cons_ne_nil v l)).symm
  conv_rhs => rw [h1]
  refine List.Sublist.append ?_ (List.Sublist.refl _)
  have := (h.cons_cons v).reverse.tail.reverse
  rwa [List.tail_reverse, List.tail_reverse, List.reverse_reverse, List.reverse_reverse] at this

/-- The result is the line with some vertices left out, and ends with the last vertex of the line. -/
theorem C35_sublist_last (line : List (List K)) (t : K) :
    (duplicateVerticesRemoved line t).Sublist line ∧
      (duplicateVerticesRemoved line t).getLast? = line.getLast? := by
  unfold duplicateVerticesRemoved
  split
  · exact ⟨List.Sublist.refl _, rfl⟩
  · cases line with
    | nil => exact ⟨List.Sublist.refl _, rfl⟩
    | cons v l =>
      dsimp only
      split
      · exact ⟨List.Sublist.refl _, rfl⟩
      · rename_i hlen
        have hs := whittle_sublist t v l
        have hle := hs.length_le
        refine ⟨dropLast_last_sublist v _ l hs ?_, ?_⟩
        · simp only [List.length_cons] at hlen; omega
        · rw [List.getLast?_append]
          simp [List.getLast?_eq_getLast_of_ne_nil (List.cons_ne_nil v l)]

/-- The first vertex is kept when some vertex of the line is further than the tolerance from it.
Full statement wanted: the first vertex is always kept; see `C35_first_violated`. -/
theorem C35_first_partial (v : List K) (l : List (List K)) (t : K) (h : ∃ w ∈ l, manhattan w v > t) :
    (duplicateVerticesRemoved (v :: l) t).head? = some v := by
  unfold duplicateVerticesRemoved
  split
  · rfl
  · dsimp only
    split
    · rfl
    · have : whittle t v l ≠ [] := by
        obtain ⟨w, hw, hm⟩ := h
        clear * - hw hm
        induction l with
        | nil => cases hw
        | cons a l ih =>
          rw [whittle]
          split
          · exact List.cons_ne_nil _ _
          · rename_i hn
            rcases List.mem_cons.1 hw with rfl | hw
            · exact absurd hm hn
            · exact ih hw
      cases hk : whittle t v l with
      | nil => exact absurd hk this
      | cons a k => simp [List.dropLast]

/-- With the exception of the last pair, neighbouring vertices of a result which differs from the line are further apart than
the tolerance.
Full statement wanted: all neighbouring vertices of the result are; see `C35_neighbours_violated`. -/
theorem C35_neighbours_partial (line : List (List K)) (t : K) (h : 3 ≤ line.length) :
    ((duplicateVerticesRemoved line t).dropLast).IsChain (fun a b => manhattan b a > t) := by
  unfold duplicateVerticesRemoved
  rw [if_neg (by omega)]
  cases line with
  | nil => simp
  | cons v l =>
    have hc := whittle_chain t v l
    dsimp only
    split
    · rename_i hlen
      have : whittle t v l = l := (whittle_sublist t v l).eq_of_length (by simpa using hlen)
      rw [this] at hc
      exact hc.dropLast
    · rw [List.dropLast_concat]
      exact hc.dropLast

variable [IsStrictOrderedRing K]

theorem manhattan_comm : ∀ a b : List K, manhattan a b = manhattan b a
  | [], [] => rfl
  | [], _ :: _ => rfl
  | _ :: _, [] => rfl
  | a :: l, b :: m => by simp only [manhattan, manhattan_comm l m, abs_sub_comm]

theorem manhattan_nonneg : ∀ a b : List K, 0 ≤ manhattan a b
  | [], [] => le_refl _
  | [], _ :: _ => le_refl _
  | _ :: _, [] => le_refl _
  | a :: l, b :: m => by
    simp only [manhattan]
    have := manhattan_nonneg l m
    have := abs_nonneg (a - b)
    linarith

theorem manhattan_self : ∀ a : List K, manhattan a a = 0
  | [] => rfl
  | a :: l => by simp [manhattan, manhattan_self l]

theorem manhattan_triangle : ∀ a b c : List K, a.length = b.length → b.length = c.length →
    manhattan a c ≤ manhattan a b + manhattan b c
  | [], [], [], _, _ => by simp [manhattan]
  | a :: l, b :: m, c :: n, h1, h2 => by
    simp only [manhattan]
    have := manhattan_triangle l m n (by simpa using h1) (by simpa using h2)
    have := abs_sub_le a b c
    linarith

/-- No vertex of the line is further from all the vertices of the result than twice the tolerance. -/
theorem C35_cover (line : List (List K)) (t : K) (ht : 0 ≤ t) (n : Nat) (hdim : ∀ v ∈ line, v.length = n) :
    ∀ v ∈ line, ∃ w ∈ duplicateVerticesRemoved line t, manhattan v w ≤ 2 * t := by
  have self : ∀ v : List K, manhattan v v ≤ 2 * t := by intro v; rw [manhattan_self]; linarith
  unfold duplicateVerticesRemoved
  split
  · intro v hv; exact ⟨v, hv, self v⟩
  · cases line with
    | nil => intro v hv; cases hv
    | cons a l =>
      dsimp only
      split
      · intro v hv; exact ⟨v, hv, self v⟩
      · rename_i hlen
        intro v hv
        have hsub := whittle_sublist t a l
        -- the vertex is within tolerance of a vertex kept by the loop
        have hk : ∃ w ∈ a :: whittle t a l, manhattan v w ≤ t := by
          rcases List.mem_cons.1 hv with rfl | hv
          · exact ⟨v, List.mem_cons_self .., by rw [manhattan_self]; exact ht⟩
          · rcases whittle_cover t a l v hv with h | h
            · exact ⟨v, List.mem_cons_of_mem _ h, by rw [manhattan_self]; exact ht⟩
            · exact h
        -- the last vertex of the line is within tolerance of the last vertex kept
        have hlast : ∀ (c : List K) (l : List (List K)) (hl : (whittle t c l).length < l.length),
            (c :: l).getLast (List.cons_ne_nil c l) = (c :: whittle t c l).getLast (List.cons_ne_nil _ _) ∨
              manhattan ((c :: l).getLast (List.cons_ne_nil c l))
                ((c :: whittle t c l).getLast (List.cons_ne_nil _ _)) ≤ t := by
          intro c l hl
          clear hl
          induction l generalizing c with
          | nil => left; simp [whittle]
          | cons b l ih =>
            rw [List.getLast_cons (List.cons_ne_nil b l)]
            by_cases hb : manhattan b c > t
            · have : whittle t c (b :: l) = b :: whittle t b l := by rw [whittle, if_pos hb]
              simp only [this]
              rw [List.getLast_cons (List.cons_ne_nil b _)]
              exact ih b
            · have hw : whittle t c (b :: l) = whittle t c l := by rw [whittle, if_neg hb]
              simp only [hw]
              cases l with
              | nil =>
                right
                simp only [whittle, List.getLast_singleton]
                exact not_lt.1 hb
              | cons d l =>
                have := ih c
                rw [List.getLast_cons (List.cons_ne_nil d l)] at this
                rw [List.getLast_cons (List.cons_ne_nil d l)]
                exact this
        obtain ⟨w, hw, hwv⟩ := hk
        rw [← List.dropLast_append_getLast (List.cons_ne_nil a (whittle t a l)), List.mem_append, List.mem_singleton] at hw
        rcases hw with hw | hw
        · exact ⟨w, List.mem_append_left _ hw, by linarith⟩
        · refine ⟨_, List.mem_append_right _ (List.mem_singleton.2 rfl), ?_⟩
          have hlen' : (whittle t a l).length < l.length := by
            have := hsub.length_le
            simp only [List.length_cons] at hlen
            omega
          have dw : w.length = n := by
            rw [hw]
            have : (a :: whittle t a l).getLast (List.cons_ne_nil _ _) ∈ a :: whittle t a l := List.getLast_mem _
            exact hdim _ ((hsub.cons_cons a).subset this)
          have dl : ((a :: l).getLast (List.cons_ne_nil a l)).length = n := hdim _ (List.getLast_mem _)
          have dv : v.length = n := hdim v hv
          rcases hlast a l hlen' with h | h
          · rw [h, ← hw]; linarith
          · rw [← hw] at h
            have := manhattan_triangle v w ((a :: l).getLast (List.cons_ne_nil a l)) (by omega) (by omega)
            rw [manhattan_comm w] at this
            linarith

omit [IsStrictOrderedRing K] in
/-- The last vertex is left out exactly when there are at least two and the last is within tolerance of the first; nothing else
is changed. -/
theorem C35_polygon_line (line : List (List K)) (t : K) :
    (∀ (a b : List K) (m : List (List K)), line = a :: m ++ [b] → manhattan a b ≤ t → polygonLine line t = a :: m) ∧
      (∀ (a b : List K) (m : List (List K)), line = a :: m ++ [b] → manhattan a b > t → polygonLine line t = line) ∧
      (line.length < 2 → polygonLine line t = line) := by
  refine ⟨?_, ?_, ?_⟩
  · rintro a b m rfl h
    cases m with
    | nil =>
      simp only [polygonLine, List.cons_append, List.nil_append, List.getLast?_singleton]
      rw [if_neg (not_lt.2 h)]; rfl
    | cons c m =>
      simp only [polygonLine, List.cons_append]
      rw [← List.cons_append, List.getLast?_append]
      simp only [List.getLast?_singleton, Option.some_or]
      rw [if_neg (not_lt.2 h)]
      have : (a :: (c :: m ++ [b])) = (a :: c :: m) ++ [b] := rfl
      rw [this, List.dropLast_concat]
  · rintro a b m rfl h
    cases m with
    | nil =>
      simp only [polygonLine, List.cons_append, List.nil_append, List.getLast?_singleton]
      rw [if_pos h]
    | cons c m =>
      simp only [polygonLine, List.cons_append]
      rw [← List.cons_append, List.getLast?_append]
      simp only [List.getLast?_singleton, Option.some_or]
      rw [if_pos h]
  · intro h
    match line, h with
    | [], _ => rfl
    | [_], _ => rfl
    | _ :: _ :: _, h => simp at h; omega

/-- The first vertex of a line is lost when all its vertices are within tolerance of it, the result being the last vertex
alone, although the documentation says that the first and last points are always preserved. -/
theorem C35_first_violated :
    duplicateVerticesRemoved [[(0 : ℚ), 0], [1, 0], [2, 0]] 3 = [[2, 0]] ∧
      duplicateVerticesRemoved [[(0 : ℚ), 0], [0, 0], [0, 0]] (1 / 1000) = [[0, 0]] := by
  decide +kernel

/-- Two neighbouring vertices of the result are within tolerance of each other. -/
theorem C35_neighbours_violated :
    duplicateVerticesRemoved [[(0 : ℚ)], [3 / 2], [1 / 2]] 1 = [[0], [1 / 2]] ∧
      manhattan [(0 : ℚ)] [1 / 2] ≤ 1 := by
  decide +kernel

/-- the hypotheses are met -/
example : duplicateVerticesRemoved [[(0 : ℚ), 0], [0, 0], [1, 0], [1, 1], [1, 1]] (1 / 1000) = [[0, 0], [1, 0], [1, 1]] ∧
    polygonLine [[(0 : ℚ), 0], [1, 0], [1, 1], [0, 0]] (1 / 1000) = [[0, 0], [1, 0], [1, 1]] := by
  decide +kernel

end

/-! ## C62: reading -/

section read
variable {K : Type}

/-- the lines of a file holding some polylines, each followed by the null marker; `fmt` writes a number and `marker` is the
null marker -/
def render (fmt : K → String) (marker : List String) (ls : List (List (List K))) : List (List String) :=
  ls.flatMap fun l => l.map (fun p => p.map fmt) ++ [marker]

theorem readLoop_blank (parse : String → Option K) (isEnd : List K → Bool) (file : List (List String)) (s : ReadState K) :
    readLoop parse isEnd s (file.filter (fun w => w.length ≠ 0)) = readLoop parse isEnd s file := by
  induction file generalizing s with
  | nil => rfl
  | cons w file ih =>
    by_cases hw : w.length = 0
    · rw [List.filter_cons_of_neg (by simpa using hw), ih]
      conv_rhs => rw [readLoop, readStep, if_pos hw]
    · rw [List.filter_cons_of_pos (by simpa using hw), readLoop, readLoop]
      cases readStep parse isEnd s w with
      | none => rfl
      | some s' => exact ih s'

/-- Blank lines make no difference. -/
theorem C62_blank_lines (parse : String → Option K) (isEnd : List K → Bool) (file : List (List String)) :
    readLines parse isEnd (file.filter (fun w => w.length ≠ 0)) = readLines parse isEnd file := by
  unfold readLines
  rw [readLoop_blank]

theorem mapM_fmt (parse : String → Option K) (fmt : K → String) (h : ∀ x, parse (fmt x) = some x) (p : List K) :
    (p.map fmt).mapM parse = some p := by
  induction p with
  | nil => rfl
  | cons a p ih => simp [List.mapM_cons, h, ih]

theorem readLoop_points (parse : String → Option K) (isEnd : List K → Bool) (fmt : K → String)
    (hf : ∀ x, parse (fmt x) = some x) (rest : List (List String)) (l : List (List K))
    (h3 : ∀ p ∈ l, p.length = 3) (hend : ∀ p ∈ l, isEnd p = false) (s : ReadState K) :
    readLoop parse isEnd s (l.map (fun p => p.map fmt) ++ rest) =
      readLoop parse isEnd ⟨s.lines, s.points ++ l⟩ rest := by
  induction l generalizing s with
  | nil => simp
  | cons p l ih =>
    have hp3 := h3 p (List.mem_cons_self ..)
    have hpe := hend p (List.mem_cons_self ..)
    rw [List.map_cons, List.cons_append, readLoop]
    have : readStep parse isEnd s (p.map fmt) = some ⟨s.lines, s.points ++ [p]⟩ := by
      unfold readStep
      rw [if_neg (by simp [hp3]), if_pos (by simp [hp3]), mapM_fmt parse fmt hf p]
      simp [hpe]
    rw [this]
    dsimp only
    rw [ih (fun q hq => h3 q (List.mem_cons_of_mem _ hq)) (fun q hq => hend q (List.mem_cons_of_mem _ hq))]
    simp

/-- Reading a file holding any number of polylines, each with its three coordinates per line and followed by the null
marker, gives back those polylines with all their points in order; polylines without points are left out. -/
theorem C62_read_back (parse : String → Option K) (isEnd : List K → Bool) (fmt : K → String)
    (hf : ∀ x, parse (fmt x) = some x) (marker : List String) (hm3 : marker.length = 3)
    (hm : ∃ q, marker.mapM parse = some q ∧ isEnd q = true)
    (ls : List (List (List K))) (h3 : ∀ l ∈ ls, ∀ p ∈ l, p.length = 3) (hend : ∀ l ∈ ls, ∀ p ∈ l, isEnd p = false) :
    readLines parse isEnd (render fmt marker ls) = ls.filter (fun l => l.length ≠ 0) := by
  obtain ⟨q, hq, hqe⟩ := hm
  have key : ∀ done : List (List (List K)), readLoop parse isEnd ⟨done, []⟩ (render fmt marker ls) =
      some (done ++ ls.filter (fun l => l.length ≠ 0)) := by
    induction ls with
    | nil => intro done; simp [render, readLoop]
    | cons l ls ih =>
      intro done
      have : render fmt marker (l :: ls) = l.map (fun p => p.map fmt) ++ (marker :: render fmt marker ls) := by
        simp [render]
      rw [this, readLoop_points parse isEnd fmt hf _ l (h3 l (List.mem_cons_self ..)) (hend l (List.mem_cons_self ..)),
        readLoop]
      have hstep : readStep parse isEnd ⟨done, [] ++ l⟩ marker =
          some (if l.length ≠ 0 then ⟨done ++ [l], []⟩ else ⟨done, []⟩) := by
        unfold readStep
        rw [if_neg (by omega), if_pos hm3, hq]
        cases l with
        | nil => simp [hqe]
        | cons a l => simp [hqe]
      rw [hstep]
      dsimp only
      have ih' := ih (fun l hl => h3 l (List.mem_cons_of_mem _ hl)) (fun l hl => hend l (List.mem_cons_of_mem _ hl))
      by_cases hl : l.length ≠ 0
      · rw [if_pos hl, ih', List.filter_cons_of_pos (by simpa using hl)]
        simp
      · rw [if_neg hl, ih', List.filter_cons_of_neg (by simpa using hl)]
  unfold readLines
  rw [key []]
  simp

/-- A file whose last polyline lacks its null marker, or which has a line of some other number of words or a word which is
not a number, gives no polylines at all. -/
theorem C62_all_or_nothing (parse : String → Option K) (isEnd : List K → Bool) (file : List (List String)) :
    (∀ w ∈ file, w.length ≠ 0 → w.length ≠ 3 → readLines parse isEnd file = []) ∧
      (∀ w ∈ file, w.length = 3 → w.mapM parse = none → readLines parse isEnd file = []) ∧
      (∀ (f : List (List String)) (w : List String) (q : List K), file = f ++ [w] → w.length = 3 → w.mapM parse = some q →
        isEnd q = false → readLines parse isEnd file = []) := by
  have step : ∀ w : List String, (∀ s, readStep parse isEnd s w = none) → ∀ (file : List (List String)), w ∈ file →
      ∀ s, readLoop parse isEnd s file = none := by
    intro w hw file
    induction file with
    | nil => intro h; cases h
    | cons a file ih =>
      intro h s
      rw [readLoop]
      rcases List.mem_cons.1 h with rfl | h
      · rw [hw s]
      · cases readStep parse isEnd s a with
        | none => rfl
        | some s' => exact ih h s'
  have last : ∀ (f : List (List String)) (w : List String) (q : List K), w.length = 3 → w.mapM parse = some q →
      isEnd q = false → ∀ s, readLoop parse isEnd s (f ++ [w]) = none := by
    intro f w q h3 hq he
    induction f with
    | nil =>
      intro s
      rw [List.nil_append, readLoop, readStep, if_neg (by omega), if_pos h3, hq]
      simp [he, readLoop]
    | cons a f ih =>
      intro s
      rw [List.cons_append, readLoop]
      cases readStep parse isEnd s a with
      | none => rfl
      | some s' => exact ih s'
  refine ⟨?_, ?_, ?_⟩
  · intro w hw h0 h3
    unfold readLines
    rw [step w (fun s => by rw [readStep, if_neg h0, if_neg h3]) file hw]
  · intro w hw h3 hn
    unfold readLines
    rw [step w (fun s => by rw [readStep, if_neg (by omega), if_pos h3, hn]) file hw]
  · rintro f w q rfl h3 hq he
    unfold readLines
    rw [last f w q h3 hq he]

/-- the hypotheses are met, with a toy format for numbers -/
example : readLines (fun s => if s = "end" then some 999 else some s.length) (fun p => p == [999, 999, 999])
    [["-", "--", "---"], ["----", "-", "-"], ["end", "end", "end"], [], ["-", "-", "-"], ["end", "end", "end"]] =
      [[[1, 2, 3], [4, 1, 1]], [[1, 1, 1]]] := by
  decide +kernel

end read

end Verif.Lines
