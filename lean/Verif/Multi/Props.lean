import Verif.Multi.Lemmas

/-! # Properties of many workers: C185, C186 -/

namespace Verif.Multi
open Verif.Py

section
variable {K M E U : Type} [LinearOrder U]

/-! ### C185: whatever the schedule -/

/-- **C185 (schedule).**  All that is done, and what is returned, is the same in whatever order the results of the workers come in. -/
theorem C185_schedule (copy : M → E → U → Res M) (typeOf : E → U → Option String) (luck : Luck E U) (m0 : M) (requireSuccess cleanUp : Bool)
    {work : Nat → K → Result E U} (hw : GivesIndex work) (kwargs : List K) {arrived : List (Result E U)} (hp : arrived.Perm (outcomes work kwargs)) :
    multiprocess copy typeOf luck m0 requireSuccess cleanUp arrived = multiprocess copy typeOf luck m0 requireSuccess cleanUp (outcomes work kwargs) := by
  unfold multiprocess
  rw [sorted_results hw kwargs hp, sorted_results hw kwargs (List.Perm.refl _)]

/-- What comes of a run with success. -/
theorem run_ok {copy : M → E → U → Res M} {typeOf : E → U → Option String} {luck : Luck E U} {m0 : M} {requireSuccess cleanUp : Bool} {work : Nat → K → Result E U}
    (hw : GivesIndex work) {kwargs : List K} {arrived : List (Result E U)} (hp : arrived.Perm (outcomes work kwargs)) {s : List Bool} {acts : List (Act M)}
    (h : multiprocess copy typeOf luck m0 requireSuccess cleanUp arrived = (.ok s, acts)) :
    s = (outcomes work kwargs).map Result.success ∧ ∃ m' ms, recombine copy typeOf luck (outcomes work kwargs) m0 = (.ok m', ms) ∧
      acts = .mkTmp :: .run :: .live m0 :: ms ++ (if cleanUp then [.rmTmp] else []) ++ [.store] := by
  unfold multiprocess at h
  rw [sorted_results hw kwargs hp] at h
  dsimp only at h
  by_cases hr : requireSuccess = true ∧ (((outcomes work kwargs).map Result.success).filter id).length < (outcomes work kwargs).length
  · rw [if_pos hr] at h
    cases h
  · rw [if_neg hr] at h
    cases he : recombine copy typeOf luck (outcomes work kwargs) m0 with
    | mk r ms =>
      rw [he] at h
      cases r with
      | error x => cases h
      | ok m' =>
        injection h with h1 h2
        injection h1 with h1
        exact ⟨h1.symm, m', ms, rfl, h2.symm⟩

/-- **C185 (success).**  What is returned tells, for each set of arguments in order, if its worker had success. -/
theorem C185_success {copy : M → E → U → Res M} {typeOf : E → U → Option String} {luck : Luck E U} {m0 : M} {requireSuccess cleanUp : Bool}
    {work : Nat → K → Result E U} (hw : GivesIndex work) {kwargs : List K} {arrived : List (Result E U)} (hp : arrived.Perm (outcomes work kwargs)) {s : List Bool}
    {acts : List (Act M)} (h : multiprocess copy typeOf luck m0 requireSuccess cleanUp arrived = (.ok s, acts)) :
    s.length = kwargs.length ∧ ∀ i k, kwargs[i]? = some k → s[i]? = some (work i k).success := by
  obtain ⟨rfl, -⟩ := run_ok hw hp h
  refine ⟨by simp [outcomes], ?_⟩
  intro i k hk
  simp [outcomes, hk]

/-- **C185 (required).**  If success is required and a worker has none, this fails, and the recombined model is left alone. -/
theorem C185_required (copy : M → E → U → Res M) (typeOf : E → U → Option String) (luck : Luck E U) (m0 : M) (cleanUp : Bool) {work : Nat → K → Result E U}
    (hw : GivesIndex work) {kwargs : List K} {arrived : List (Result E U)} (hp : arrived.Perm (outcomes work kwargs)) {i : Nat} {k : K} (hk : kwargs[i]? = some k)
    (hf : (work i k).success = false) :
    (multiprocess copy typeOf luck m0 true cleanUp arrived).1 = .error .custom ∧
    ∀ n, (crash m0 (multiprocess copy typeOf luck m0 true cleanUp arrived).2 n).saved = m0 ∧ (crash m0 (multiprocess copy typeOf luck m0 true cleanUp arrived).2 n).inMemory = m0 := by
  have hmem : work i k ∈ outcomes work kwargs := by
    unfold outcomes
    exact List.mem_map.2 ⟨(k, i), by rw [List.mem_zipIdx_iff_getElem?]; exact hk, rfl⟩
  have hlt : (((outcomes work kwargs).map Result.success).filter id).length < (outcomes work kwargs).length := by
    rw [← List.length_map (f := Result.success) (as := outcomes work kwargs)]
    rw [List.length_filter_lt_length_iff_exists]
    exact ⟨false, List.mem_map.2 ⟨_, hmem, hf⟩, by simp⟩
  have e : multiprocess copy typeOf luck m0 true cleanUp arrived = (.error .custom, [.mkTmp, .run]) := by
    unfold multiprocess
    rw [sorted_results hw kwargs hp]
    dsimp only
    rw [if_pos ⟨rfl, hlt⟩]
  rw [e]
  refine ⟨rfl, fun n => ?_⟩
  unfold crash
  match n with
  | 0 => exact ⟨rfl, rfl⟩
  | 1 => exact ⟨rfl, rfl⟩
  | n + 2 => simp [act]

theorem sortedWants_spec {typeOf : E → U → Option String} : ∀ {rs : List (Result E U)},
    (∀ r ∈ rs, ∀ e, r.epc = some e → ∃ us l, r.uuids = some us ∧ sortUuids (typeOf e) r.uuids = .ok l) →
    ∃ ls : List (List (E × U)), ls.flatten = sortedWants typeOf rs ∧ List.Forall₂ (fun r l => l.Perm (wanted [r]) ∧
      l.Pairwise fun a b => ∃ m n, ordering (typeOf a.1 a.2) = .ok m ∧ ordering (typeOf b.1 b.2) = .ok n ∧ (m < n ∨ m = n ∧ a.2 ≤ b.2)) rs ls := by
  intro rs
  induction rs with
  | nil => intro _; exact ⟨[], rfl, List.Forall₂.nil⟩
  | cons r rs ih =>
    intro h
    obtain ⟨ls, h1, h2⟩ := ih (fun r' hr' => h r' (by simp [hr']))
    rw [sortedWants]
    cases he : r.epc with
    | none => exact ⟨[] :: ls, by simp [h1], List.Forall₂.cons ⟨by simp [wanted, he], List.Pairwise.nil⟩ h2⟩
    | some e =>
      obtain ⟨us, l, hu, hl⟩ := h r (by simp) e he
      dsimp only
      rw [hl]
      refine ⟨l.map (fun u => (e, u)) :: ls, by simp [h1], List.Forall₂.cons ⟨?_, ?_⟩ h2⟩
      · obtain ⟨us', hu', hperm, -⟩ := sortUuids_ok hl
        simp only [wanted, he, hu', List.flatMap_cons, List.flatMap_nil, Option.toList_some, Option.getD_some, List.append_nil]
        exact hperm.map _
      · obtain ⟨us', hu', -, hs⟩ := sortUuids_ok hl
        rw [List.pairwise_map]
        exact hs

/-- **C185 (recombined).**  After a run with success the recombined epc file holds what it held before, with the objects named by all workers copied to it, worker
by worker in the order of arguments, those of one worker in order of their kind; none is left out, and those of workers without success are there too, if they
have a file. -/
theorem C185_recombined {copy : M → E → U → Res M} {typeOf : E → U → Option String} {luck : Luck E U} {m0 : M} {requireSuccess cleanUp : Bool}
    {work : Nat → K → Result E U} (hw : GivesIndex work) {kwargs : List K} {arrived : List (Result E U)} (hp : arrived.Perm (outcomes work kwargs)) {s : List Bool}
    {acts : List (Act M)} (h : multiprocess copy typeOf luck m0 requireSuccess cleanUp arrived = (.ok s, acts)) :
    ∃ ls : List (List (E × U)), List.Forall₂ (fun r l => l.Perm (wanted [r]) ∧
      l.Pairwise fun a b => ∃ m n, ordering (typeOf a.1 a.2) = .ok m ∧ ordering (typeOf b.1 b.2) = .ok n ∧ (m < n ∨ m = n ∧ a.2 ≤ b.2)) (outcomes work kwargs) ls ∧
      copyInTurn copy ls.flatten m0 = .ok (crash m0 acts acts.length).saved := by
  obtain ⟨-, m', ms, hr, ha⟩ := run_ok hw hp h
  obtain ⟨⟨ms', h1, h2⟩, h3, h4⟩ := recombine_ok hr
  obtain ⟨ls, h5, h6⟩ := sortedWants_spec h4
  refine ⟨ls, h6, ?_⟩
  rw [h5, h3]
  congr 1
  unfold crash
  rw [List.take_length, ha, h1]
  have key : ∀ (l : List M) (st : State M), (l.map Act.live).foldl act st = ⟨st.tmp, st.saved, l.getLast?.getD st.inMemory⟩ := by
    intro l
    induction l with
    | nil => intro st; rfl
    | cons a l ih =>
      intro st
      rw [List.map_cons, List.foldl_cons, ih]
      simp only [act]
      cases l with
      | nil => rfl
      | cons b l => simp [List.getLast?_cons_cons, List.getLast?_cons]
  simp only [List.cons_append, List.foldl_cons, List.foldl_append, key]
  cases cleanUp <;> simp [act, h2]

/-- **C185 (in the way).**  Files which come late, cannot be opened or are blocked for fewer attempts than are made, make no difference. -/
theorem C185_transient (copy : M → E → U → Res M) (typeOf : E → U → Option String) {luck : Luck E U} (hl : Passing luck) (m0 : M) (requireSuccess cleanUp : Bool)
    (arrived : List (Result E U)) :
    multiprocess copy typeOf luck m0 requireSuccess cleanUp arrived = multiprocess copy typeOf clear m0 requireSuccess cleanUp arrived := by
  have hc : Passing (clear : Luck E U) := ⟨fun _ => ⟨0, by omega, rfl⟩, fun _ => ⟨0, by omega, rfl⟩, fun _ _ => ⟨0, by omega, rfl⟩⟩
  unfold multiprocess
  dsimp only
  rw [recombine_luck hl hc]

/-- **C185 (never there).**  A file which does not come in time is an error. -/
theorem C185_never {copy : M → E → U → Res M} {typeOf : E → U → Option String} {luck : Luck E U} {m0 : M} {requireSuccess cleanUp : Bool}
    {work : Nat → K → Result E U} (hw : GivesIndex work) {kwargs : List K} {arrived : List (Result E U)} (hp : arrived.Perm (outcomes work kwargs)) {r : Result E U}
    (hr : r ∈ outcomes work kwargs) {e : E} (he : r.epc = some e) (hn : ∀ k ≤ 300, luck.there e k = false) (s : List Bool) :
    (multiprocess copy typeOf luck m0 requireSuccess cleanUp arrived).1 ≠ .ok s := by
  intro h
  obtain ⟨-, m', ms, hrec, -⟩ := run_ok (s := s) (acts := (multiprocess copy typeOf luck m0 requireSuccess cleanUp arrived).2) hw hp (by rw [← h])
  clear hp h hw
  generalize outcomes work kwargs = rs at hr hrec
  clear work kwargs
  induction rs generalizing m0 ms with
  | nil => cases hr
  | cons q rs ih =>
    rw [recombine] at hrec
    rcases List.mem_cons.1 hr with rfl | hr
    · rw [he] at hrec
      dsimp only at hrec
      rw [tries_fail] at hrec
      · cases hrec
      · rintro ⟨j, -, h1, h2⟩
        rw [hn j (by omega)] at h2
        cases h2
    · cases hq : q.epc with
      | none =>
        rw [hq] at hrec
        exact ih _ hr hrec
      | some e' =>
        rw [hq] at hrec
        dsimp only at hrec
        split at hrec
        · cases hrec
        split at hrec
        · cases hrec
        split at hrec
        · cases hrec
        split at hrec
        · cases hrec
        · rename_i m1 acts' hc
          injection hrec with h1 h2
          exact ih (recombine copy typeOf luck rs m1).2 hr (by rw [← h1])

/-- **C185 is violated** for workers which return no list of uuids, for which the code would copy all of the worker's objects: this fails. -/
theorem C185_no_list_violated {copy : M → E → U → Res M} {typeOf : E → U → Option String} {luck : Luck E U} {m0 : M} {requireSuccess cleanUp : Bool}
    {work : Nat → K → Result E U} (hw : GivesIndex work) {kwargs : List K} {arrived : List (Result E U)} (hp : arrived.Perm (outcomes work kwargs)) {r : Result E U}
    (hr : r ∈ outcomes work kwargs) (he : r.epc ≠ none) (hn : r.uuids = none) (s : List Bool) :
    (multiprocess copy typeOf luck m0 requireSuccess cleanUp arrived).1 ≠ .ok s := by
  intro h
  obtain ⟨-, m', ms, hrec, -⟩ := run_ok (s := s) (acts := (multiprocess copy typeOf luck m0 requireSuccess cleanUp arrived).2) hw hp (by rw [← h])
  obtain ⟨e, he⟩ := Option.ne_none_iff_exists'.1 he
  obtain ⟨us, l, h1, -⟩ := (recombine_ok hrec).2.2 r hr e he
  rw [hn] at h1
  cases h1

end

/-- **C185 (kinds).**  Kinds named in the list come in its order; then all others, of which interpretations come before representations and these before
properties. -/
theorem C185_kinds (t : String) :
    (∀ i, orderingList[i]? = some t → ordering (some t) = .ok i) ∧
    (t ∉ orderingList → ∃ n, ordering (some t) = .ok n ∧ 30 ≤ n ∧ (endsWith t "Interpretation" = true → n = 31) ∧
      (endsWith t "Interpretation" = false → endsWith t "Representation" = true → n = 32) ∧
      (endsWith t "Interpretation" = false → endsWith t "Representation" = false → endsWith t "Property" = true → n = 33)) := by
  have hlen : orderingList.length = 30 := by decide
  constructor
  · intro i hi
    have hm := List.mem_of_getElem? hi
    unfold ordering
    dsimp only
    rw [if_pos hm]
    obtain ⟨hlt, rfl⟩ := List.getElem?_eq_some_iff.1 hi
    have hnd : orderingList.Nodup := by decide
    rw [hnd.idxOf_getElem]
  · intro hn
    unfold ordering
    dsimp only
    rw [if_neg hn, hlen]
    cases h1 : endsWith t "Interpretation" with
    | true => exact ⟨31, by simp⟩
    | false =>
      cases h2 : endsWith t "Representation" with
      | true => exact ⟨32, by simp⟩
      | false =>
        cases h3 : endsWith t "Property" with
        | true => exact ⟨33, by simp⟩
        | false => exact ⟨30, by simp⟩

theorem endsWith_append (a b : String) : endsWith (a ++ b) b = true := by
  unfold endsWith
  rw [String.toList_append]
  simp

theorem endsWith_other {a b c : String} (hl : b.toList.length ≤ c.toList.length) (hn : ¬ b.toList <:+ c.toList) : endsWith (a ++ b) c = false := by
  unfold endsWith
  rw [decide_eq_false_iff_not, String.toList_append]
  intro h
  exact hn (List.suffix_of_suffix_length_le (List.suffix_append _ _) h hl)

/-- **C185 (names of kinds).**  What kind a name is of is told by its end. -/
theorem C185_kinds_named (a : String) :
    (a ++ "Interpretation" ∉ orderingList → ordering (some (a ++ "Interpretation")) = .ok 31) ∧
    (a ++ "Representation" ∉ orderingList → ordering (some (a ++ "Representation")) = .ok 32) ∧
    (a ++ "Property" ∉ orderingList → ordering (some (a ++ "Property")) = .ok 33) := by
  refine ⟨fun h => ?_, fun h => ?_, fun h => ?_⟩
  · obtain ⟨n, h1, -, h2, -⟩ := (C185_kinds _).2 h
    rw [h1, h2 (endsWith_append _ _)]
  · obtain ⟨n, h1, -, -, h2, -⟩ := (C185_kinds _).2 h
    rw [h1, h2 (endsWith_other (by decide) (by decide)) (endsWith_append _ _)]
  · obtain ⟨n, h1, -, -, -, h2⟩ := (C185_kinds _).2 h
    rw [h1, h2 (endsWith_other (by decide) (by decide)) (endsWith_other (by decide) (by decide)) (endsWith_append _ _)]

example : "Continuous" ++ "Property" ∉ orderingList ∧ "SubRepresentation" ∉ orderingList := by decide


example : ordering (some "LocalDepth3dCrs") = .ok 16 ∧ ordering (some "ContinuousProperty") = .ok 33 ∧ ordering (some "GridConnectionSetRepresentation") = .ok 32 := by decide

/-! ### C186: whatever stops it -/

section
variable {M E U : Type} [LinearOrder U]

theorem crash_live (m0 : M) (ms : List M) (n : Nat) (st : State M) : ((ms.map Act.live).take n).foldl act st = ⟨st.tmp, st.saved, ((ms.take n).getLast?.getD st.inMemory)⟩ := by
  rw [← List.map_take]
  generalize ms.take n = l
  induction l generalizing st with
  | nil => rfl
  | cons a l ih =>
    rw [List.map_cons, List.foldl_cons, ih]
    simp only [act]
    cases l with
    | nil => rfl
    | cons b l => simp [List.getLast?_cons_cons, List.getLast?_cons]

/-- Actions before the end. -/
theorem acts_cases (copy : M → E → U → Res M) (typeOf : E → U → Option String) (luck : Luck E U) (m0 : M) (requireSuccess cleanUp : Bool) (arrived : List (Result E U)) :
    (∃ x, (multiprocess copy typeOf luck m0 requireSuccess cleanUp arrived).1 = .error x ∧
      ∃ ms : List M, (multiprocess copy typeOf luck m0 requireSuccess cleanUp arrived).2 = .mkTmp :: .run :: ms.map Act.live) ∨
    (∃ s, (multiprocess copy typeOf luck m0 requireSuccess cleanUp arrived).1 = .ok s ∧
      ∃ ms : List M, (multiprocess copy typeOf luck m0 requireSuccess cleanUp arrived).2 =
        (.mkTmp :: .run :: ms.map Act.live) ++ ((if cleanUp then [.rmTmp] else []) ++ [.store])) := by
  unfold multiprocess
  dsimp only
  obtain ⟨ms, hm⟩ := recombine_live (copy := copy) (typeOf := typeOf) (luck := luck) (arrived.insertionSort fun a b => a.index ≤ b.index) m0
  split_ifs with hr
  all_goals first
    | exact Or.inl ⟨_, rfl, [], rfl⟩
    | (cases hc : recombine copy typeOf luck (arrived.insertionSort fun a b => a.index ≤ b.index) m0 with
       | mk r acts =>
         rw [hc] at hm
         dsimp only at hm
         subst hm
         cases r with
         | error x => exact Or.inl ⟨x, rfl, m0 :: ms, rfl⟩
         | ok m => exact Or.inr ⟨_, rfl, m0 :: ms, by simp⟩)

theorem crash_early (m0 : M) (ms : List M) (n : Nat) : (crash m0 (.mkTmp :: .run :: ms.map Act.live) n).saved = m0 ∧
    (1 ≤ n → (crash m0 (.mkTmp :: .run :: ms.map Act.live) n).tmp = true) := by
  unfold crash
  match n with
  | 0 => exact ⟨rfl, by omega⟩
  | 1 => exact ⟨rfl, fun _ => rfl⟩
  | n + 2 =>
    simp only [List.take_succ_cons, List.foldl_cons]
    rw [crash_live m0]
    exact ⟨rfl, fun _ => rfl⟩

/-- **C186 (all or nothing).**  Wherever it stops, the recombined epc file is as it was before, or complete. -/
theorem C186_atomic (copy : M → E → U → Res M) (typeOf : E → U → Option String) (luck : Luck E U) (m0 : M) (requireSuccess cleanUp : Bool) (arrived : List (Result E U))
    {r : Res (List Bool)} {acts : List (Act M)} (h : multiprocess copy typeOf luck m0 requireSuccess cleanUp arrived = (r, acts)) (n : Nat) :
    (crash m0 acts n).saved = m0 ∨ (∃ s, r = .ok s) ∧ (crash m0 acts n).saved = (crash m0 acts acts.length).saved := by
  rcases acts_cases copy typeOf luck m0 requireSuccess cleanUp arrived with ⟨x, h1, ms, h2⟩ | ⟨s, h1, ms, h2⟩
  · rw [h] at h1 h2
    dsimp only at h1 h2
    rw [h2]
    exact Or.inl (crash_early m0 ms n).1
  · rw [h] at h1 h2
    dsimp only at h1 h2
    by_cases hn : n < acts.length
    · left
      rw [h2] at hn ⊢
      unfold crash
      have e := crash_early m0 ms n
      unfold crash at e
      rw [List.take_append, List.foldl_append]
      have hk : n - (Act.mkTmp :: Act.run :: ms.map Act.live).length < ((if cleanUp then [Act.rmTmp] else []) ++ [Act.store] : List (Act M)).length := by
        rw [List.length_append] at hn
        have := List.length_append (as := (if cleanUp then [Act.rmTmp] else [] : List (Act M))) (bs := [Act.store])
        cases cleanUp <;> simp_all <;> omega
      generalize n - (Act.mkTmp :: Act.run :: ms.map Act.live).length = k at hk
      cases cleanUp with
      | false =>
        have : k = 0 := by simpa using hk
        subst this
        exact e.1
      | true =>
        have : k = 0 ∨ k = 1 := by
          simp at hk
          omega
        rcases this with rfl | rfl
        · exact e.1
        · exact e.1
    · right
      refine ⟨⟨s, h1⟩, ?_⟩
      unfold crash
      rw [List.take_of_length_le (by omega), List.take_length]

/-- **C186 (nothing lost, partial).**  Unless it cleans up, the results of the workers are on the disk from the start wherever it stops.  Missing: cleaning up, see
below. -/
theorem C186_kept_partial (copy : M → E → U → Res M) (typeOf : E → U → Option String) (luck : Luck E U) (m0 : M) (requireSuccess : Bool) (arrived : List (Result E U))
    {r : Res (List Bool)} {acts : List (Act M)} (h : multiprocess copy typeOf luck m0 requireSuccess false arrived = (r, acts)) {n : Nat} (hn : 1 ≤ n) :
    (crash m0 acts n).tmp = true := by
  rcases acts_cases copy typeOf luck m0 requireSuccess false arrived with ⟨x, h1, ms, h2⟩ | ⟨s, h1, ms, h2⟩
  · rw [h] at h2
    dsimp only at h2
    rw [h2]
    exact (crash_early m0 ms n).2 hn
  · rw [h] at h2
    dsimp only at h2
    rw [h2]
    have e := (crash_early m0 ms n).2 hn
    unfold crash at e ⊢
    rw [List.take_append, List.foldl_append]
    generalize n - (Act.mkTmp :: Act.run :: ms.map Act.live).length = k
    cases k with
    | zero => exact e
    | succ k => simpa [act] using e

/-- **C186 is violated** by cleaning up: the files of the workers are removed before the epc file is written, so that all is lost if it stops between.  This is so for
every run with success. -/
theorem C186_lost_violated {copy : M → E → U → Res M} {typeOf : E → U → Option String} {luck : Luck E U} {m0 : M} {requireSuccess : Bool} {arrived : List (Result E U)}
    {s : List Bool} {acts : List (Act M)} (h : multiprocess copy typeOf luck m0 requireSuccess true arrived = (.ok s, acts)) :
    ∃ n, 2 ≤ n ∧ n < acts.length ∧ (crash m0 acts n).tmp = false ∧ (crash m0 acts n).saved = m0 := by
  rcases acts_cases copy typeOf luck m0 requireSuccess true arrived with ⟨x, h1, ms, h2⟩ | ⟨s, h1, ms, h2⟩
  · rw [h] at h1; cases h1
  · rw [h] at h2
    dsimp only at h2
    subst h2
    refine ⟨ms.length + 3, by omega, by simp, ?_⟩
    have e := (crash_early m0 ms (ms.length + 3)).1
    unfold crash at e ⊢
    rw [List.take_append, List.foldl_append]
    have : ms.length + 3 - (Act.mkTmp :: Act.run :: ms.map Act.live).length = 1 := by simp
    rw [this]
    exact ⟨rfl, e⟩

/-- **C186 is violated** by failures: the temporary directory is left behind, though it should be removed. -/
theorem C186_left_violated {copy : M → E → U → Res M} {typeOf : E → U → Option String} {luck : Luck E U} {m0 : M} {requireSuccess : Bool} {arrived : List (Result E U)}
    {x : PyErr} {acts : List (Act M)} (h : multiprocess copy typeOf luck m0 requireSuccess true arrived = (.error x, acts)) : (crash m0 acts acts.length).tmp = true := by
  rcases acts_cases copy typeOf luck m0 requireSuccess true arrived with ⟨y, h1, ms, h2⟩ | ⟨s, h1, ms, h2⟩
  · rw [h] at h2
    dsimp only at h2
    subst h2
    exact (crash_early m0 ms _).2 (by simp)
  · rw [h] at h1; cases h1

/-- **C186 (in the end).**  After a run with success the temporary directory is there exactly if it does not clean up. -/
theorem C186_end {copy : M → E → U → Res M} {typeOf : E → U → Option String} {luck : Luck E U} {m0 : M} {requireSuccess cleanUp : Bool} {arrived : List (Result E U)}
    {s : List Bool} {acts : List (Act M)} (h : multiprocess copy typeOf luck m0 requireSuccess cleanUp arrived = (.ok s, acts)) :
    (crash m0 acts acts.length).tmp = !cleanUp := by
  rcases acts_cases copy typeOf luck m0 requireSuccess cleanUp arrived with ⟨x, h1, ms, h2⟩ | ⟨s, h1, ms, h2⟩
  · rw [h] at h1; cases h1
  · rw [h] at h2
    dsimp only at h2
    subst h2
    have e := (crash_early m0 ms (ms.length + 2)).2 (by omega)
    unfold crash at e ⊢
    rw [List.take_of_length_le (by simp)] at e
    rw [List.take_length, List.foldl_append]
    cases cleanUp with
    | true => rfl
    | false => exact e

end

/-! ### Examples -/

/-- Two workers, of which the second has no success. -/
def sampleWork (i : Nat) (k : Nat) : Result Nat Nat := ⟨i, decide (k < 5), some k, some [k + 1, k]⟩

/-- A model is the list of what was copied. -/
def sampleCopy (m : List (Nat × Nat)) (e u : Nat) : Res (List (Nat × Nat)) := .ok (m ++ [(e, u)])

/-- All are properties, but for one. -/
def sampleType (_ u : Nat) : Option String := if u = 4 then some "LocalDepth3dCrs" else some "ContinuousProperty"

example : GivesIndex sampleWork := fun _ _ => rfl

example : outcomes sampleWork [3, 7] = [⟨0, true, some 3, some [4, 3]⟩, ⟨1, false, some 7, some [8, 7]⟩] := by decide

example : multiprocess sampleCopy sampleType clear [] false true (outcomes sampleWork [3, 7]).reverse =
    (.ok [true, false], [.mkTmp, .run, .live [], .live [(3, 4)], .live [(3, 4), (3, 3)], .live [(3, 4), (3, 3), (7, 7)], .live [(3, 4), (3, 3), (7, 7), (7, 8)], .rmTmp, .store]) := by
  decide +kernel

example : (multiprocess sampleCopy sampleType clear [] true true (outcomes sampleWork [3, 7])).1 = .error .custom := by decide +kernel

example : Passing (⟨fun _ k => decide (k = 300), fun _ k => decide (k = 9), fun _ _ k => decide (k = 4)⟩ : Luck Nat Nat) :=
  ⟨fun _ => ⟨300, by omega, by simp⟩, fun _ => ⟨9, by omega, by simp⟩, fun _ _ => ⟨4, by omega, by simp⟩⟩

end Verif.Multi
