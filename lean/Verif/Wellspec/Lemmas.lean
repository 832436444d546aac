import Verif.Wellspec.Spec
import Verif.Keywords.Lemmas
import Mathlib.Data.List.Induction

/-! # Lemmas: WELLSPEC files -/

namespace Verif.Wellspec
open Verif.Py Verif.Keywords

section
variable {upper : Word → Word}

/-! ### Marked lines -/

/-- The lines marked, from a line on. -/
def markedFrom (upper : Word → Word) (k : Word) : List Line → Nat → List (Nat × Line)
  | [], _ => []
  | l :: rest, pos => if startsWith upper k l then (pos, l) :: markedFrom upper k rest (pos + 1) else markedFrom upper k rest (pos + 1)

theorem marked_eq (k : Word) (file : File) : marked upper k file = markedFrom upper k (wordsOf file) 0 := by
  unfold marked wordsOf
  have : ∀ (l : File) n, (((l.zipIdx n).map fun li => (li.2, splitWS li.1)).filter fun x => firstWordIs upper k x.2) = markedFrom upper k (l.map splitWS) n := by
    intro l
    induction l with
    | nil => intro n; rfl
    | cons a l ih =>
      intro n
      simp only [List.zipIdx_cons, List.map_cons, markedFrom, List.filter_cons]
      rw [startsWith_eq, ih]
  exact this file 0

theorem markedFrom_ge (k : Word) : ∀ (ls : List Line) (pos : Nat), ∀ x ∈ markedFrom upper k ls pos, pos ≤ x.1 := by
  intro ls
  induction ls with
  | nil => intro pos x hx; simp [markedFrom] at hx
  | cons l ls ih =>
    intro pos x hx
    unfold markedFrom at hx
    split_ifs at hx with h
    · rcases List.mem_cons.1 hx with rfl | hx
      · exact le_refl _
      · have := ih _ x hx
        omega
    · have := ih _ x hx
      omega

theorem markedFrom_sorted (k : Word) : ∀ (ls : List Line) (pos : Nat), (markedFrom upper k ls pos).Pairwise fun x y => x.1 < y.1 := by
  intro ls
  induction ls with
  | nil => intro pos; simp [markedFrom]
  | cons l ls ih =>
    intro pos
    unfold markedFrom
    split_ifs with h
    · refine List.pairwise_cons.2 ⟨fun y hy => ?_, ih _⟩
      have := markedFrom_ge k ls (pos + 1) y hy
      dsimp only
      omega
    · exact ih _

theorem find_marked (k : Word) (file : List Line) : ∀ (ls : List Line) (pos : Nat), file.drop pos = ls →
    match markedFrom upper k ls pos with
    | [] => findLoop upper k ls pos none = none
    | (p, l) :: rest => findLoop upper k ls pos none = some p ∧ file[p]? = some l ∧ pos ≤ p ∧ p < file.length ∧
        markedFrom upper k (file.drop (p + 1)) (p + 1) = rest := by
  intro ls
  induction ls with
  | nil => intro pos _; simp [markedFrom, findLoop]
  | cons l ls ih =>
    intro pos hd
    have hl : file[pos]? = some l := by
      have := congrArg List.head? hd
      simpa using this
    have hd' : file.drop (pos + 1) = ls := by
      have := congrArg List.tail hd
      simpa using this
    have hlt : pos < file.length := by
      by_contra hc
      rw [List.drop_eq_nil_of_le (by omega)] at hd
      simp at hd
    rw [markedFrom, findLoop]
    by_cases h : startsWith upper k l = true
    · rw [if_pos h, if_pos h]
      exact ⟨rfl, hl, le_refl _, hlt, by rw [hd']⟩
    · rw [if_neg h, if_neg h]
      have := ih (pos + 1) hd'
      revert this
      cases hm : markedFrom upper k ls (pos + 1) with
      | nil => exact id
      | cons x rest =>
        obtain ⟨p, w⟩ := x
        dsimp only
        rintro ⟨h1, h2, h3, h4, h5⟩
        exact ⟨h1, h2, by omega, h4, h5⟩

theorem place_loop (file : List Line) : ∀ (fuel pos : Nat) acc, file.length < fuel + pos →
    placeLoop upper file fuel pos acc =
      if ∀ x ∈ markedFrom upper "WELLSPEC".toList (file.drop pos) pos, x.2[1]?.isSome then
        .ok ((markedFrom upper "WELLSPEC".toList (file.drop pos) pos).foldl (fun a x => addPlace (x.2[1]?.getD []) (x.1 + 1) a) acc)
      else .error .assertion := by
  intro fuel
  induction fuel with
  | zero =>
    intro pos acc h
    rw [List.drop_eq_nil_of_le (by omega)]
    simp [placeLoop, markedFrom]
  | succ fuel ih =>
    intro pos acc h
    unfold placeLoop findKeyword
    have hf := find_marked (upper := upper) "WELLSPEC".toList file _ pos rfl
    revert hf
    cases hm : markedFrom upper "WELLSPEC".toList (file.drop pos) pos with
    | nil =>
      dsimp only
      intro hf
      rw [hf]
      simp
    | cons x rest =>
      obtain ⟨p, l⟩ := x
      dsimp only
      rintro ⟨h1, h2, h3, h4, h5⟩
      rw [h1]
      simp only [h2]
      match l, h2 with
      | [], _ => simp
      | [_], _ => simp
      | w0 :: name :: tl, _ =>
        dsimp only
        rw [ih (p + 1) _ (by omega), h5]
        have e : (∀ x ∈ rest, x.2[1]?.isSome) ↔ ∀ x ∈ (p, w0 :: name :: tl) :: rest, x.2[1]?.isSome := by simp
        simp only [List.foldl_cons, ← e]
        rfl

theorem time_loop {D : Type} [LinearOrder D] (parse : Word → Option D) (zero : Option D) (file : List Line) : ∀ (fuel pos : Nat) acc, file.length < fuel + pos →
    (∀ ts, timeLoop upper parse zero file fuel pos acc = .ok ts → ∃ l : List (Nat × D), ts = acc ++ l ∧
      List.Forall₂ (fun x td => td.1 = x.1 + 1 ∧ dateIn parse x.2 = some td.2) (markedFrom upper "TIME".toList (file.drop pos) pos) l) ∧
    ((∃ e, timeLoop upper parse zero file fuel pos acc = .error e) ↔
      ∃ x ∈ markedFrom upper "TIME".toList (file.drop pos) pos, ∀ d, dateIn parse x.2 = some d → ∃ z, zero = some z ∧ d < z) := by
  intro fuel
  induction fuel with
  | zero =>
    intro pos acc h
    rw [List.drop_eq_nil_of_le (by omega)]
    simp [timeLoop, markedFrom]
  | succ fuel ih =>
    intro pos acc h
    unfold timeLoop findKeyword
    have hf := find_marked (upper := upper) "TIME".toList file _ pos rfl
    revert hf
    cases hm : markedFrom upper "TIME".toList (file.drop pos) pos with
    | nil =>
      dsimp only
      intro hf
      rw [hf]
      simp
    | cons x rest =>
      obtain ⟨p, l⟩ := x
      dsimp only
      rintro ⟨h1, h2, h3, h4, h5⟩
      rw [h1]
      simp only [h2]
      match l, h2 with
      | [], _ => simp [dateIn]
      | [_], _ => simp [dateIn]
      | w0 :: w :: tl, _ =>
        have hdi : dateIn parse (w0 :: w :: tl) = parse (w.takeWhile fun c => c ≠ '(') := rfl
        dsimp only
        cases hp : parse (w.takeWhile fun c => c ≠ '(') with
        | none =>
          dsimp only
          refine ⟨fun ts hts => by simp at hts, fun _ => ⟨_, List.mem_cons_self, fun d hd => ?_⟩, fun _ => ⟨_, rfl⟩⟩
          rw [hdi, hp] at hd
          simp at hd
        | some d =>
          dsimp only
          by_cases hz : (zero.any fun z => d < z) = true
          · rw [if_pos hz]
            refine ⟨fun ts hts => by simp at hts, fun _ => ⟨_, List.mem_cons_self, fun d' hd => ?_⟩, fun _ => ⟨_, rfl⟩⟩
            rw [hdi, hp, Option.some.injEq] at hd
            subst hd
            cases zero with
            | none => simp at hz
            | some z => exact ⟨z, rfl, by simpa using hz⟩
          · rw [if_neg hz]
            obtain ⟨i1, i2⟩ := ih (p + 1) (acc ++ [(p + 1, d)]) (by omega)
            rw [h5] at i1 i2
            refine ⟨fun ts hts => ?_, i2.trans ⟨?_, ?_⟩⟩
            · obtain ⟨l', e1, e2⟩ := i1 ts hts
              refine ⟨(p + 1, d) :: l', by rw [e1]; simp, List.Forall₂.cons ⟨rfl, ?_⟩ e2⟩
              rw [hdi, hp]
            · rintro ⟨x, hx, hx2⟩
              exact ⟨x, List.mem_cons_of_mem _ hx, hx2⟩
            · rintro ⟨x, hx, hx2⟩
              rcases List.mem_cons.1 hx with rfl | hx
              · obtain ⟨z, hz1, hz2⟩ := hx2 d (by rw [hdi, hp])
                rw [hz1] at hz
                simp [hz2] at hz
              · exact ⟨x, hx, hx2⟩

/-! ### Grouping by name -/

theorem firsts_mem (l : List Word) (b : Word) : b ∈ firsts l ↔ b ∈ l := by
  induction l with
  | nil => simp [firsts]
  | cons a l ih =>
    simp only [firsts, List.mem_cons, List.mem_filter, ih, decide_eq_true_eq]
    by_cases h : b = a <;> simp [h]

theorem firsts_append (l : List Word) (a : Word) : firsts (l ++ [a]) = if a ∈ l then firsts l else firsts l ++ [a] := by
  induction l with
  | nil => simp [firsts]
  | cons b l ih =>
    simp only [List.cons_append, firsts, ih, List.mem_cons]
    by_cases h1 : a = b
    · subst h1
      by_cases h2 : a ∈ l <;> simp [h2]
    · by_cases h2 : a ∈ l <;> simp [h1, h2]

theorem firsts_nodup (l : List Word) : (firsts l).Nodup := by
  induction l with
  | nil => simp [firsts]
  | cons a l ih =>
    simp only [firsts, List.nodup_cons]
    exact ⟨by simp, ih.filter _⟩

/-- Places by name. -/
def grouped (l : List (Word × Nat)) : List (Word × List Nat) :=
  (firsts (l.map Prod.fst)).map fun n => (n, (l.filter fun x => x.1 = n).map Prod.snd)

theorem addPlace_map (n : Word) (p : Nat) (g : Word → List Nat) : ∀ ns : List Word, ns.Nodup →
    addPlace n p (ns.map fun m => (m, g m)) = if n ∈ ns then ns.map (fun m => (m, if m = n then g m ++ [p] else g m)) else ns.map (fun m => (m, g m)) ++ [(n, [p])] := by
  intro ns
  induction ns with
  | nil => intro _; simp [addPlace]
  | cons m ns ih =>
    intro hn
    obtain ⟨h1, h2⟩ := List.nodup_cons.1 hn
    simp only [List.map_cons, addPlace]
    by_cases h : m = n
    · subst h
      rw [if_pos rfl, if_pos (by simp)]
      simp only [if_true]
      congr 1
      apply List.map_congr_left
      intro k hk
      have : k ≠ m := fun e => h1 (e ▸ hk)
      simp [this]
    · rw [if_neg h, ih h2]
      by_cases h3 : n ∈ ns
      · rw [if_pos h3, if_pos (by simp [h3])]
        simp [h]
      · rw [if_neg h3, if_neg (by simp [h3, Ne.symm h])]
        simp

theorem grouped_append (l : List (Word × Nat)) (x : Word × Nat) : grouped (l ++ [x]) = addPlace x.1 x.2 (grouped l) := by
  unfold grouped
  rw [addPlace_map _ _ (fun n => (l.filter fun x => x.1 = n).map Prod.snd) _ (firsts_nodup _), List.map_append, List.map_cons, List.map_nil, firsts_append]
  simp only [firsts_mem]
  by_cases h : x.1 ∈ l.map Prod.fst
  · rw [if_pos h, if_pos h]
    apply List.map_congr_left
    intro n _
    by_cases hn : n = x.1
    · subst hn
      simp
    · have : ¬ x.1 = n := fun e => hn e.symm
      simp [hn, this]
  · rw [if_neg h, if_neg h, List.map_append]
    congr 1
    · apply List.map_congr_left
      intro n hn
      have : ¬ x.1 = n := fun e => h (e ▸ (firsts_mem _ _).1 hn)
      simp [this]
    · have : l.filter (fun y => y.1 = x.1) = [] := by
        rw [List.filter_eq_nil_iff]
        intro y hy
        simp only [decide_eq_true_eq]
        intro e
        exact h (List.mem_map.2 ⟨y, hy, e⟩)
      simp [this]

theorem fold_grouped (l : List (Word × Nat)) : l.foldl (fun a x => addPlace x.1 x.2 a) [] = grouped l := by
  induction l using List.reverseRecOn with
  | nil => rfl
  | append_singleton l x ih => rw [List.foldl_append, List.foldl_cons, List.foldl_nil, ih, grouped_append]

/-! ### Dates -/

theorem dateAt_eq {D : Type} : ∀ (times : List (Nat × D)) (p : Nat) (c : Option D), (times.Pairwise fun x y => x.1 < y.1) →
    dateAt times p c = ((((times.filter fun x => x.1 < p).getLast?).map Prod.snd).or c) := by
  intro times p
  induction times with
  | nil => intro c _; rfl
  | cons x times ih =>
    intro c hs
    obtain ⟨h1, h2⟩ := List.pairwise_cons.1 hs
    obtain ⟨t, d⟩ := x
    unfold dateAt
    by_cases h : p > t
    · rw [if_pos h, ih _ h2, List.filter_cons_of_pos (by simpa using h)]
      cases hl : (times.filter fun x => x.1 < p) with
      | nil => rfl
      | cons y l =>
        rw [List.getLast?_cons_cons]
        cases hg : (y :: l).getLast? with
        | none => simp at hg
        | some z => rfl
    · rw [if_neg h, List.filter_cons_of_neg (by simpa using h)]
      have : (times.filter fun x => x.1 < p) = [] := by
        rw [List.filter_eq_nil_iff]
        intro y hy
        have := h1 y hy
        simp only [decide_eq_true_eq]
        omega
      rw [this]
      rfl

/-- The dates along a list of places, and the last of them. -/
theorem dateList_eq {D : Type} (times : List (Nat × D)) : ∀ (ps : List Nat) (c : Option D),
    (dateList times ps c).1.map Prod.fst = ps ∧ (∀ x ∈ (dateList times ps c).1, ∃ c', x.2 = dateAt times x.1 c' ) := by
  intro ps
  induction ps with
  | nil => intro c; simp [dateList]
  | cons p ps ih =>
    intro c
    unfold dateList
    obtain ⟨h1, h2⟩ := ih (dateAt times p c)
    refine ⟨by simp [h1], fun x hx => ?_⟩
    rcases List.mem_cons.1 hx with rfl | hx
    · exact ⟨c, rfl⟩
    · exact h2 x hx

theorem dateWells_eq {D : Type} (times : List (Nat × D)) : ∀ (ws : List (Word × List Nat)) (c : Option D),
    (dateWells times ws c).map (fun w => (w.1, w.2.map Prod.fst)) = ws ∧ ∀ w ∈ dateWells times ws c, ∀ x ∈ w.2, ∃ c', x.2 = dateAt times x.1 c' := by
  intro ws
  induction ws with
  | nil => intro c; simp [dateWells]
  | cons w ws ih =>
    intro c
    obtain ⟨n, ps⟩ := w
    unfold dateWells
    obtain ⟨h1, h2⟩ := ih (dateList times ps c).2
    obtain ⟨h3, h4⟩ := dateList_eq times ps c
    refine ⟨by simp [h1, h3], fun w hw => ?_⟩
    rcases List.mem_cons.1 hw with rfl | hw
    · exact h4
    · exact h2 w hw

/-- In order along the file, the dates handed on do no harm. -/
theorem dateList_sorted {D : Type} (times : List (Nat × D)) (hs : times.Pairwise fun x y => x.1 < y.1) (c : Option D) : ∀ (ps : List Nat) (c0 : Option D) (q : Nat),
    c0 = dateAt times q c → (∀ p ∈ ps, q ≤ p) → ps.Pairwise (· < ·) →
    (∀ x ∈ (dateList times ps c0).1, x.2 = dateAt times x.1 c) ∧ (dateList times ps c0).2 = dateAt times (ps.getLast?.getD q) c := by
  have step : ∀ q p, q ≤ p → dateAt times p (dateAt times q c) = dateAt times p c := by
    intro q p hqp
    rw [dateAt_eq _ _ _ hs, dateAt_eq _ _ _ hs, dateAt_eq _ _ _ hs]
    cases hp : (times.filter fun x => x.1 < p).getLast? with
    | some z => rfl
    | none =>
      have : (times.filter fun x => x.1 < q) = [] := by
        rw [List.getLast?_eq_none_iff, List.filter_eq_nil_iff] at hp
        rw [List.filter_eq_nil_iff]
        intro y hy
        have := hp y hy
        simp only [decide_eq_true_eq] at this ⊢
        omega
      rw [this]
      rfl
  intro ps
  induction ps with
  | nil => intro c0 q h _ _; simp [dateList, h]
  | cons p ps ih =>
    intro c0 q h hq hps
    obtain ⟨h1, h2⟩ := List.pairwise_cons.1 hps
    have e : dateAt times p c0 = dateAt times p c := by
      rw [h]
      exact step q p (hq p (by simp))
    unfold dateList
    obtain ⟨i1, i2⟩ := ih (dateAt times p c0) p e (fun p' hp' => (h1 p' hp').le) h2
    refine ⟨fun x hx => ?_, ?_⟩
    · rcases List.mem_cons.1 hx with rfl | hx
      · exact e
      · exact i1 x hx
    · dsimp only
      rw [i2]
      cases ps with
      | nil => rfl
      | cons a l => rw [List.getLast?_cons_cons, List.getLast?_eq_some_getLast (by simp)]; rfl

end
end Verif.Wellspec
