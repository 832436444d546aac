import Verif.Multi.Spec

/-! # Lemmas: many workers -/

namespace Verif.Multi
open Verif.Py

theorem tries_ok {ok : Nat → Bool} {e : PyErr} : ∀ (left k : Nat), tries ok e left k = .ok () ↔ ∃ j, k ≤ j ∧ j ≤ k + left ∧ ok j = true := by
  intro left
  induction left with
  | zero =>
    intro k
    unfold tries
    by_cases h : ok k = true
    · rw [if_pos h]
      exact ⟨fun _ => ⟨k, le_refl _, by omega, h⟩, fun _ => rfl⟩
    · rw [if_neg h]
      simp only [reduceCtorEq, false_iff]
      rintro ⟨j, h1, h2, h3⟩
      obtain rfl : j = k := by omega
      exact h h3
  | succ left ih =>
    intro k
    unfold tries
    by_cases h : ok k = true
    · rw [if_pos h]
      exact ⟨fun _ => ⟨k, le_refl _, by omega, h⟩, fun _ => rfl⟩
    · rw [if_neg h, ih]
      constructor
      · rintro ⟨j, h1, h2, h3⟩
        exact ⟨j, by omega, by omega, h3⟩
      · rintro ⟨j, h1, h2, h3⟩
        refine ⟨j, ?_, by omega, h3⟩
        by_contra hc
        obtain rfl : j = k := by omega
        exact h h3

theorem tries_fail {ok : Nat → Bool} {e : PyErr} : ∀ (left k : Nat), (¬ ∃ j, k ≤ j ∧ j ≤ k + left ∧ ok j = true) → tries ok e left k = .error e := by
  intro left
  induction left with
  | zero =>
    intro k h
    unfold tries
    rw [if_neg]
    intro h'
    exact h ⟨k, le_refl _, by omega, h'⟩
  | succ left ih =>
    intro k h
    unfold tries
    rw [if_neg]
    · apply ih
      rintro ⟨j, h1, h2, h3⟩
      exact h ⟨j, by omega, by omega, h3⟩
    · intro h'
      exact h ⟨k, le_refl _, by omega, h'⟩

section
variable {M E U : Type} [LinearOrder U]

theorem pairs_ok {typeOf : U → Option String} : ∀ {us : List U} {l : List (Nat × U)}, pairs typeOf us = .ok l →
    l.map Prod.snd = us ∧ ∀ x ∈ l, ordering (typeOf x.2) = .ok x.1 := by
  intro us
  induction us with
  | nil => intro l h; cases h; simp
  | cons u us ih =>
    intro l h
    rw [pairs] at h
    cases h1 : ordering (typeOf u) with
    | error e => rw [h1] at h; cases h
    | ok n =>
      rw [h1] at h
      dsimp only at h
      cases h2 : pairs typeOf us with
      | error e => rw [h2] at h; cases h
      | ok l' =>
        rw [h2] at h
        cases h
        obtain ⟨i1, i2⟩ := ih h2
        refine ⟨by simp [i1], ?_⟩
        intro x hx
        rcases List.mem_cons.1 hx with rfl | hx
        · exact h1
        · exact i2 x hx

theorem sortUuids_ok {typeOf : U → Option String} {uuids : Option (List U)} {l : List U} (h : sortUuids typeOf uuids = .ok l) :
    ∃ us, uuids = some us ∧ l.Perm us ∧ l.Pairwise fun a b => ∃ m n, ordering (typeOf a) = .ok m ∧ ordering (typeOf b) = .ok n ∧ (m < n ∨ m = n ∧ a ≤ b) := by
  unfold sortUuids at h
  cases uuids with
  | none => cases h
  | some us =>
    dsimp only at h
    cases hp : pairs typeOf us with
    | error e => rw [hp] at h; cases h
    | ok ps =>
      rw [hp] at h
      injection h with h
      obtain ⟨h1, h2⟩ := pairs_ok hp
      refine ⟨us, rfl, ?_, ?_⟩
      · rw [← h, ← h1]
        exact (List.perm_insertionSort _ _).map _
      · rw [← h, List.pairwise_map]
        have hs : (ps.insertionSort fun a b => toLex a ≤ toLex b).Pairwise fun a b => toLex a ≤ toLex b := List.pairwise_insertionSort _ _
        have hm : ∀ x ∈ ps.insertionSort (fun a b => toLex a ≤ toLex b), ordering (typeOf x.2) = .ok x.1 := by
          intro x hx
          exact h2 x ((List.perm_insertionSort _ _).mem_iff.1 hx)
        refine hs.imp_of_mem ?_
        intro a b ha hb hab
        refine ⟨a.1, b.1, hm a ha, hm b hb, ?_⟩
        rw [Prod.Lex.le_iff] at hab
        exact hab

/-- Objects in the order in which they are copied. -/
def sortedWants (typeOf : E → U → Option String) : List (Result E U) → List (E × U)
  | [] => []
  | r :: rs =>
    match r.epc with
    | none => sortedWants typeOf rs
    | some e =>
      match sortUuids (typeOf e) r.uuids with
      | .error _ => sortedWants typeOf rs
      | .ok us => us.map (fun u => (e, u)) ++ sortedWants typeOf rs

theorem copyAll_ok {copy : M → E → U → Res M} {luck : Luck E U} {e : E} : ∀ {us : List U} {m m' : M} {acts : List (Act M)}, copyAll copy luck e us m = (.ok m', acts) →
    (∃ ms : List M, acts = ms.map Act.live ∧ ms.getLast?.getD m = m') ∧ copyInTurn copy (us.map fun u => (e, u)) m = .ok m' := by
  intro us
  induction us with
  | nil =>
    intro m m' acts h
    rw [copyAll] at h
    injection h with h1 h2
    injection h1 with h1
    subst h1 h2
    exact ⟨⟨[], rfl, rfl⟩, rfl⟩
  | cons u us ih =>
    intro m m' acts h
    rw [copyAll] at h
    cases ht : tries (luck.copies e u) .custom 4 0 with
    | error x => rw [ht] at h; cases h
    | ok _ =>
      rw [ht] at h
      dsimp only at h
      cases hc : copy m e u with
      | error x => rw [hc] at h; cases h
      | ok m1 =>
        rw [hc] at h
        dsimp only at h
        injection h with h1 h2
        obtain ⟨⟨ms, i1, i2⟩, i3⟩ := ih (m := m1) (m' := m') (acts := (copyAll copy luck e us m1).2) (by rw [← h1])
        refine ⟨⟨m1 :: ms, by rw [← h2, i1]; rfl, ?_⟩, ?_⟩
        · rw [← i2]
          cases ms with
          | nil => rfl
          | cons a b => simp [List.getLast?_cons_cons, List.getLast?_cons]
        · rw [List.map_cons, copyInTurn, hc]
          exact i3

theorem copyAll_live {copy : M → E → U → Res M} {luck : Luck E U} {e : E} : ∀ (us : List U) (m : M), ∃ ms : List M, (copyAll copy luck e us m).2 = ms.map Act.live := by
  intro us
  induction us with
  | nil => intro m; exact ⟨[], rfl⟩
  | cons u us ih =>
    intro m
    rw [copyAll]
    cases tries (luck.copies e u) .custom 4 0 with
    | error x => exact ⟨[], rfl⟩
    | ok _ =>
      dsimp only
      cases copy m e u with
      | error x => exact ⟨[], rfl⟩
      | ok m1 =>
        obtain ⟨ms, h⟩ := ih m1
        exact ⟨m1 :: ms, by dsimp only; rw [h]; rfl⟩

theorem copyInTurn_append (copy : M → E → U → Res M) : ∀ (a b : List (E × U)) (m : M), copyInTurn copy (a ++ b) m =
    match copyInTurn copy a m with | .error x => .error x | .ok m' => copyInTurn copy b m' := by
  intro a
  induction a with
  | nil => intro b m; rfl
  | cons x a ih =>
    intro b m
    obtain ⟨e, u⟩ := x
    rw [List.cons_append, copyInTurn, copyInTurn]
    cases copy m e u with
    | error x => rfl
    | ok m' => exact ih b m'

theorem recombine_ok {copy : M → E → U → Res M} {typeOf : E → U → Option String} {luck : Luck E U} : ∀ {rs : List (Result E U)} {m m' : M} {acts : List (Act M)},
    recombine copy typeOf luck rs m = (.ok m', acts) →
    (∃ ms : List M, acts = ms.map Act.live ∧ ms.getLast?.getD m = m') ∧ copyInTurn copy (sortedWants typeOf rs) m = .ok m' ∧
    (∀ r ∈ rs, ∀ e, r.epc = some e → ∃ us l, r.uuids = some us ∧ sortUuids (typeOf e) r.uuids = .ok l) := by
  intro rs
  induction rs with
  | nil =>
    intro m m' acts h
    rw [recombine] at h
    injection h with h1 h2
    injection h1 with h1
    subst h1 h2
    exact ⟨⟨[], rfl, rfl⟩, rfl, by simp⟩
  | cons r rs ih =>
    intro m m' acts h
    rw [recombine] at h
    rw [sortedWants]
    cases he : r.epc with
    | none =>
      rw [he] at h
      obtain ⟨i1, i2, i3⟩ := ih h
      refine ⟨i1, i2, ?_⟩
      intro r' hr' e he'
      rcases List.mem_cons.1 hr' with rfl | hr'
      · rw [he] at he'; cases he'
      · exact i3 r' hr' e he'
    | some e =>
      rw [he] at h
      dsimp only at h
      cases ht : tries (luck.there e) .custom 300 0 with
      | error x => rw [ht] at h; cases h
      | ok _ =>
        rw [ht] at h
        dsimp only at h
        cases ho : tries (luck.opens e) .custom 9 0 with
        | error x => rw [ho] at h; cases h
        | ok _ =>
          rw [ho] at h
          dsimp only at h
          cases hs : sortUuids (typeOf e) r.uuids with
          | error x => rw [hs] at h; cases h
          | ok us =>
            rw [hs] at h
            dsimp only at h
            cases hc : copyAll copy luck e us m with
            | mk r1 a1 =>
              rw [hc] at h
              cases r1 with
              | error x => cases h
              | ok m1 =>
                dsimp only at h
                injection h with h1 h2
                obtain ⟨⟨ms1, j1, j2⟩, j3⟩ := copyAll_ok hc
                obtain ⟨⟨ms2, i1, i2⟩, i3, i4⟩ := ih (m := m1) (m' := m') (acts := (recombine copy typeOf luck rs m1).2) (by rw [← h1])
                refine ⟨⟨ms1 ++ ms2, by rw [← h2, j1, i1, List.map_append], ?_⟩, ?_, ?_⟩
                · rw [List.getLast?_append, ← i2, ← j2]
                  cases ms2.getLast? <;> simp
                · dsimp only
                  rw [hs]
                  dsimp only
                  rw [copyInTurn_append, j3]
                  exact i3
                · intro r' hr' e' he'
                  rcases List.mem_cons.1 hr' with rfl | hr'
                  · rw [he] at he'
                    injection he' with he'
                    subst he'
                    obtain ⟨us', hu, -⟩ := sortUuids_ok hs
                    exact ⟨us', us, hu, hs⟩
                  · exact i4 r' hr' e' he'

theorem recombine_live {copy : M → E → U → Res M} {typeOf : E → U → Option String} {luck : Luck E U} : ∀ (rs : List (Result E U)) (m : M),
    ∃ ms : List M, (recombine copy typeOf luck rs m).2 = ms.map Act.live := by
  intro rs
  induction rs with
  | nil => intro m; exact ⟨[], rfl⟩
  | cons r rs ih =>
    intro m
    rw [recombine]
    cases r.epc with
    | none => exact ih m
    | some e =>
      dsimp only
      cases tries (luck.there e) .custom 300 0 with
      | error x => exact ⟨[], rfl⟩
      | ok _ =>
        dsimp only
        cases tries (luck.opens e) .custom 9 0 with
        | error x => exact ⟨[], rfl⟩
        | ok _ =>
          dsimp only
          cases sortUuids (typeOf e) r.uuids with
          | error x => exact ⟨[], rfl⟩
          | ok us =>
            dsimp only
            obtain ⟨ms1, h1⟩ := copyAll_live (copy := copy) (luck := luck) (e := e) us m
            cases hc : copyAll copy luck e us m with
            | mk r1 a1 =>
              rw [hc] at h1
              cases r1 with
              | error x => exact ⟨ms1, h1⟩
              | ok m1 =>
                obtain ⟨ms2, h2⟩ := ih m1
                refine ⟨ms1 ++ ms2, ?_⟩
                dsimp only at h1 ⊢
                rw [h1, h2, List.map_append]

theorem copyAll_luck {copy : M → E → U → Res M} {l1 l2 : Luck E U} (h1 : Passing l1) (h2 : Passing l2) (e : E) : ∀ (us : List U) (m : M),
    copyAll copy l1 e us m = copyAll copy l2 e us m := by
  intro us
  induction us with
  | nil => intro m; rfl
  | cons u us ih =>
    intro m
    have p : ∀ l : Luck E U, Passing l → tries (l.copies e u) .custom 4 0 = .ok () := by
      intro l hl
      rw [tries_ok]
      obtain ⟨k, hk, ho⟩ := hl.copies e u
      exact ⟨k, by omega, by omega, ho⟩
    rw [copyAll, copyAll, p l1 h1, p l2 h2]
    dsimp only
    cases copy m e u with
    | error x => rfl
    | ok m' => dsimp only; rw [ih]

theorem recombine_luck {copy : M → E → U → Res M} {typeOf : E → U → Option String} {l1 l2 : Luck E U} (h1 : Passing l1) (h2 : Passing l2) : ∀ (rs : List (Result E U)) (m : M),
    recombine copy typeOf l1 rs m = recombine copy typeOf l2 rs m := by
  intro rs
  induction rs with
  | nil => intro m; rfl
  | cons r rs ih =>
    intro m
    rw [recombine, recombine]
    cases r.epc with
    | none => exact ih m
    | some e =>
      dsimp only
      have p : ∀ l : Luck E U, Passing l → tries (l.there e) .custom 300 0 = .ok () ∧ tries (l.opens e) .custom 9 0 = .ok () := by
        intro l hl
        rw [tries_ok, tries_ok]
        obtain ⟨k, hk, ho⟩ := hl.there e
        obtain ⟨j, hj, hp⟩ := hl.opens e
        exact ⟨⟨k, by omega, by omega, ho⟩, ⟨j, by omega, by omega, hp⟩⟩
      rw [(p l1 h1).1, (p l1 h1).2, (p l2 h2).1, (p l2 h2).2]
      dsimp only
      cases sortUuids (typeOf e) r.uuids with
      | error x => rfl
      | ok us =>
        dsimp only
        rw [copyAll_luck h1 h2]
        cases copyAll copy l2 e us m with
        | mk a b =>
          cases a with
          | error x => rfl
          | ok m' => dsimp only; rw [ih]

end

/-! ### The order of results -/

theorem outcomes_sorted {K E U : Type} {work : Nat → K → Result E U} (hw : GivesIndex work) (kwargs : List K) :
    (outcomes work kwargs).Pairwise fun a b => a.index < b.index := by
  unfold outcomes
  rw [List.pairwise_map]
  have : (kwargs.zipIdx).Pairwise fun a b => a.2 < b.2 := by
    have h : (kwargs.zipIdx.map Prod.snd).Pairwise (· < ·) := by
      rw [List.zipIdx_map_snd]
      exact List.pairwise_lt_range'
    rwa [List.pairwise_map] at h
  exact this.imp fun h => by rw [hw, hw]; exact h

theorem sorted_results {K E U : Type} {work : Nat → K → Result E U} (hw : GivesIndex work) (kwargs : List K) {arrived : List (Result E U)}
    (hp : arrived.Perm (outcomes work kwargs)) : (arrived.insertionSort fun a b => a.index ≤ b.index) = outcomes work kwargs := by
  have hs := outcomes_sorted hw kwargs
  have hinj : ∀ a ∈ outcomes work kwargs, ∀ b ∈ outcomes work kwargs, a.index = b.index → a = b := by
    intro a ha b hb hab
    obtain ⟨i, hi, rfl⟩ := List.getElem_of_mem ha
    obtain ⟨j, hj, rfl⟩ := List.getElem_of_mem hb
    rw [List.pairwise_iff_getElem] at hs
    rcases Nat.lt_trichotomy i j with h | rfl | h
    · have := hs i j hi hj h
      omega
    · rfl
    · have := hs j i hj hi h
      omega
  haveI : Std.Total (fun a b : Result E U => a.index ≤ b.index) := ⟨fun a b => le_total _ _⟩
  haveI : IsTrans (Result E U) (fun a b => a.index ≤ b.index) := ⟨fun a b c => le_trans⟩
  refine List.Perm.eq_of_pairwise (le := fun a b => a.index ≤ b.index) ?_ (List.pairwise_insertionSort _ _) (hs.imp fun h => le_of_lt h) ((List.perm_insertionSort _ _).trans hp)
  intro a b ha hb h1 h2
  have ha' := hp.mem_iff.1 ((List.perm_insertionSort _ _).mem_iff.1 ha)
  exact hinj a ha' b hb (le_antisymm h1 h2)

end Verif.Multi
