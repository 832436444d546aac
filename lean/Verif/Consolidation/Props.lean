import Verif.Consolidation.Model

/-! # C15: the equivalence map resolves in one step -/

namespace Verif.Consolidation
open Verif.Py

/-- No uuid is both mapped and the target of a mapping. -/
def OneStep (m : Dict Nat Nat) : Prop := ∀ k v, m.get? k = some v → m.get? v = none

/-- A mapping's target is in the resident model. -/
def IntoResidents (s : Cons) : Prop := ∀ k v, s.map.get? k = some v → v ∈ s.residents

/-- Histories in which identical parts are not ignored and parts are only forced to be equivalent to a
resident that is not itself mapped. -/
def Safe (fuel : Nat) {T : Type} [DecidableEq T] (typeOf : Nat → T) (consolidatable : T → Bool) :
    Cons → List Op → Prop
  | _, [] => True
  | s, op :: ops =>
    (match op with
      | .find _ ignore _ => ignore = false
      | .force _ res => res ∈ s.residents ∧ s.map.get? res = none
      | .addResident _ => True) ∧
    ∀ s', step fuel typeOf consolidatable s op = some s' → Safe fuel typeOf consolidatable s' ops

private theorem follow_ok {s : Cons} (h1 : OneStep s.map) (h2 : IntoResidents s) (fuel r : Nat) (hr : r ∈ s.residents) :
    ∃ t, follow s.map (fuel + 2) r = some t ∧ t ∈ s.residents ∧ s.map.get? t = none ∧
      (t = r ∨ s.map.get? r = some t) := by
  cases h : s.map.get? r with
  | none => exact ⟨r, by simp [follow, h], hr, h, .inl rfl⟩
  | some t =>
    have ht := h1 _ _ h
    exact ⟨t, by simp [follow, h, ht], h2 _ _ h, ht, .inr rfl⟩

private theorem mem_values {m : Dict Nat Nat} (hn : m.keys.Nodup) {v : Nat} :
    v ∈ m.values ↔ ∃ k, m.get? k = some v := by
  constructor
  · intro h
    obtain ⟨⟨k, v'⟩, hm, rfl⟩ := List.mem_map.1 h
    exact ⟨k, Dict.get?_of_mem_nodup hn hm⟩
  · rintro ⟨k, h⟩
    exact List.mem_map.2 ⟨_, Dict.get?_some_mem h, rfl⟩

private theorem set_inv {m : Dict Nat Nat} {imm t : Nat} (h1 : OneStep m) (ht : m.get? t = none)
    (hne : t ≠ imm) (hv : ∀ k, m.get? k ≠ some imm) : OneStep (m.set imm t) := by
  intro k v hk
  rw [Dict.get?_set] at hk ⊢
  by_cases h : k = imm
  · rw [if_pos h] at hk
    cases hk
    rw [if_neg hne]; exact ht
  · rw [if_neg h] at hk
    have : v ≠ imm := by rintro rfl; exact hv _ hk
    rw [if_neg this]; exact h1 _ _ hk

/-- All that is kept by each call. -/
private structure Inv (s : Cons) : Prop where
  one : OneStep s.map
  into : IntoResidents s
  nodup : s.map.keys.Nodup

private theorem inv_set {s : Cons} {imm t : Nat} (h : Inv s) (ht : s.map.get? t = none) (hr : t ∈ s.residents)
    (hne : t ≠ imm) (hv : ∀ k, s.map.get? k ≠ some imm) : Inv ⟨s.map.set imm t, s.residents⟩ := by
  refine ⟨set_inv h.one ht hne hv, ?_, Dict.nodup_set _ _ _ h.nodup⟩
  intro k v hk
  dsimp only at hk ⊢
  rw [Dict.get?_set] at hk
  by_cases he : k = imm
  · rw [if_pos he] at hk; cases hk; exact hr
  · rw [if_neg he] at hk; exact h.into _ _ hk

private theorem compare_inv (fuel : Nat) {s : Cons} (h : Inv s) (imm : Nat) (equal : Nat → Bool) (him : imm ∉ s.residents)
    (rs : List Nat) (hrs : ∀ r ∈ rs, r ∈ s.residents) :
    ∃ s' a, compare (fuel + 2) s imm false equal rs = .returns s' a ∧ Inv s' ∧ s'.residents = s.residents ∧
      (∀ t, a = some t → t ∈ s.residents ∧ s'.map.get? t = none ∧ ∃ r ∈ rs, equal r = true ∧
          (t = r ∨ s.map.get? r = some t) ∧ s'.map = s.map.set imm t) ∧
      (a = none → s' = s) := by
  induction rs with
  | nil => exact ⟨s, none, rfl, h, rfl, by simp, fun _ => rfl⟩
  | cons r rs ih =>
    unfold compare
    simp only [Bool.false_and, Bool.false_eq_true, if_false]
    by_cases he : equal r = true
    · rw [if_pos he]
      obtain ⟨t, e, hr, hn, ho⟩ := follow_ok h.one h.into fuel r (hrs r (by simp))
      rw [e]
      have hne : t ≠ imm := by rintro rfl; exact him hr
      have hi := inv_set (imm := imm) h hn hr hne (fun k hk => him (h.into _ _ hk))
      refine ⟨_, _, rfl, hi, rfl, ?_, by simp⟩
      intro t' ht'
      cases ht'
      refine ⟨hr, ?_, r, by simp, he, ho, rfl⟩
      dsimp only
      rw [Dict.get?_set, if_neg hne]; exact hn
    · rw [if_neg he]
      obtain ⟨s', a, e, i, r', p, q⟩ := ih (fun x hx => hrs x (by simp [hx]))
      refine ⟨s', a, e, i, r', ?_, q⟩
      intro t ht
      obtain ⟨p1, p2, r0, p3, p4⟩ := p t ht
      exact ⟨p1, p2, r0, by simp [p3], p4⟩

private theorem find_inv (fuel : Nat) {T : Type} [DecidableEq T] (typeOf : Nat → T) (consolidatable : T → Bool)
    {s : Cons} (h : Inv s) (imm : Nat) (equal : Nat → Bool) :
    ∃ s' a, findEquiv (fuel + 2) typeOf consolidatable s imm false equal = .returns s' a ∧ Inv s' ∧
      s'.residents = s.residents ∧
      (∀ t, a = some t → t ∈ s'.residents ∧ s'.map.get? t = if t = imm then s.map.get? imm else none) ∧
      (∀ k v, s'.map.get? k = some v → s.map.get? k = some v ∨
        (k = imm ∧ a = some v ∧ ∃ r, equal r = true ∧ (v = r ∨ s.map.get? r = some v))) ∧
      (a = none → s' = s) ∧ (∀ t, a = some t → t = imm ∨ s'.map.get? imm = some t) := by
  unfold findEquiv
  cases hm : s.map.get? imm with
  | some v =>
    refine ⟨s, some v, rfl, h, rfl, ?_, fun k v h => .inl h, by simp, ?_⟩
    · intro t ht
      cases ht
      refine ⟨h.into _ _ hm, ?_⟩
      have := h.one _ _ hm
      by_cases e : v = imm
      · subst e; rw [hm] at this; exact absurd this (by simp)
      · rw [if_neg e]; exact this
    · intro t ht; cases ht; exact .inr hm
  | none =>
    dsimp only
    split
    · exact ⟨s, none, rfl, h, rfl, by simp, fun k v h => .inl h, fun _ => rfl, by simp⟩
    · split
      · exact ⟨s, none, rfl, h, rfl, by simp, fun k v h => .inl h, fun _ => rfl, by simp⟩
      · split
        · rename_i hc
          simp only [Bool.not_false, Bool.true_and, List.contains_iff_mem, List.mem_filter] at hc
          refine ⟨s, some imm, rfl, h, rfl, ?_, fun k v h => .inl h, by simp, ?_⟩
          · intro t ht; cases ht; exact ⟨hc.1, by rw [if_pos rfl]; exact hm⟩
          · intro t ht; cases ht; exact .inl rfl
        · rename_i hc
          simp only [Bool.not_false, Bool.true_and, List.contains_iff_mem, List.mem_filter, decide_true,
            and_true] at hc
          obtain ⟨s', a, e, i, r, p, q⟩ := compare_inv fuel h imm equal hc
            (s.residents.filter fun r => typeOf r = typeOf imm) (fun r hr => (List.mem_filter.1 hr).1)
          refine ⟨s', a, e, i, r, ?_, ?_, q, ?_⟩
          · intro t ht
            obtain ⟨p1, p2, _⟩ := p t ht
            refine ⟨r ▸ p1, ?_⟩
            rw [p2]; simp
          · intro k v hk
            cases a with
            | none => rw [q rfl] at hk; exact .inl hk
            | some t =>
              obtain ⟨_, _, r0, _, p4, p5, p6⟩ := p t rfl
              rw [p6, Dict.get?_set] at hk
              by_cases he : k = imm
              · rw [if_pos he] at hk; cases hk
                exact .inr ⟨he, rfl, r0, p4, p5⟩
              · rw [if_neg he] at hk; exact .inl hk
          · intro t ht
            obtain ⟨_, _, _, _, _, _, p6⟩ := p t ht
            right
            rw [p6, Dict.get?_set_self]

private theorem force_inv {s s' : Cons} (h : Inv s) {imm res : Nat} (hr : res ∈ s.residents)
    (hn : s.map.get? res = none) (e : force s imm res = .ok s') :
    Inv s' ∧ s'.residents = s.residents ∧ (s' = s ∨ s'.map = s.map.set imm res) := by
  unfold force at e
  split at e
  · cases e; exact ⟨h, rfl, .inl rfl⟩
  · split at e
    · cases e
    · rename_i hne hv
      cases e
      refine ⟨inv_set h hn hr (Ne.symm hne) ?_, rfl, .inr rfl⟩
      intro k hk
      apply hv
      rw [List.contains_iff_mem]
      exact (mem_values h.nodup).2 ⟨k, hk⟩

private theorem step_inv (fuel : Nat) {T : Type} [DecidableEq T] (typeOf : Nat → T) (consolidatable : T → Bool)
    {s : Cons} (h : Inv s) (op : Op) (ops : List Op) (hs : Safe (fuel + 2) typeOf consolidatable s (op :: ops)) :
    ∃ s', step (fuel + 2) typeOf consolidatable s op = some s' ∧ Inv s' ∧ Safe (fuel + 2) typeOf consolidatable s' ops := by
  obtain ⟨h1, h2⟩ := hs
  cases op with
  | find imm ignore equal =>
    simp only at h1
    subst h1
    obtain ⟨s', a, e, i, _⟩ := find_inv fuel typeOf consolidatable h imm equal
    have es : step (fuel + 2) typeOf consolidatable s (.find imm false equal) = some s' := by
      simp only [step, e]
    exact ⟨s', es, i, h2 _ es⟩
  | force imm res =>
    cases e : force s imm res with
    | error x =>
      have es : step (fuel + 2) typeOf consolidatable s (.force imm res) = some s := by
        simp only [step, e]
      exact ⟨s, es, h, h2 _ es⟩
    | ok s' =>
      have es : step (fuel + 2) typeOf consolidatable s (.force imm res) = some s' := by
        simp only [step, e]
      exact ⟨s', es, (force_inv h h1.1 h1.2 e).1, h2 _ es⟩
  | addResident u =>
    refine ⟨_, rfl, ⟨h.one, ?_, h.nodup⟩, h2 _ rfl⟩
    intro k v hk
    have := h.into k v hk
    simp [this]

/-- After any safe history starting from a new consolidation, no loop is left running (two evaluations of
the loop condition always suffice), no uuid is both mapped and the target of a mapping, and targets are
resident; so the integrity check passes. -/
theorem C15_resolves_in_one_step_partial (fuel : Nat) {T : Type} [DecidableEq T] (typeOf : Nat → T)
    (consolidatable : T → Bool) (residents : List Nat) (ops : List Op)
    (hs : Safe (fuel + 2) typeOf consolidatable ⟨[], residents⟩ ops) :
    ∃ s, run (fuel + 2) typeOf consolidatable ⟨[], residents⟩ ops = some s ∧ OneStep s.map ∧ IntoResidents s ∧
      checkIntegrity s = .ok () := by
  have gen : ∀ (ops : List Op) (s : Cons), Inv s → Safe (fuel + 2) typeOf consolidatable s ops →
      ∃ s', run (fuel + 2) typeOf consolidatable s ops = some s' ∧ Inv s' := by
    intro ops
    induction ops with
    | nil => intro s h _; exact ⟨s, rfl, h⟩
    | cons op ops ih =>
      intro s h hsafe
      obtain ⟨s', e, i, hs'⟩ := step_inv fuel typeOf consolidatable h op ops hsafe
      obtain ⟨s'', e', i'⟩ := ih s' i hs'
      exact ⟨s'', by unfold run; rw [e]; exact e', i'⟩
  obtain ⟨s, e, i⟩ := gen ops ⟨[], residents⟩ ⟨(by intro k v h; cases h), (by intro k v h; cases h), by simp [Dict.keys]⟩ hs
  refine ⟨s, e, i.one, i.into, ?_⟩
  unfold checkIntegrity
  rw [if_pos]
  rw [Bool.and_eq_true, List.all_eq_true, List.all_eq_true]
  have disj : ∀ u, u ∈ s.map.keys → u ∈ s.map.values → False := by
    intro u hk hv
    obtain ⟨k, hk'⟩ := (mem_values i.nodup).1 hv
    exact (Dict.not_mem_keys_iff _ _).2 (i.one _ _ hk') hk
  constructor
  · intro k hk
    simp only [Bool.not_eq_true', ← Bool.not_eq_true, List.contains_iff_mem]
    exact fun hv => disj k hk hv
  · intro v hv
    simp only [Bool.not_eq_true', ← Bool.not_eq_true, List.contains_iff_mem]
    exact fun hk => disj v hk hv

/-- Every equivalence in the map is a true one, when object comparison decides an equivalence relation and
only truly equivalent parts are forced together. -/
theorem C15_equivalences_are_sound_partial (fuel : Nat) {T : Type} [DecidableEq T] (typeOf : Nat → T)
    (consolidatable : T → Bool) (E : Nat → Nat → Prop) (hE : Equivalence E)
    (residents : List Nat) (ops : List Op)
    (hs : Safe (fuel + 2) typeOf consolidatable ⟨[], residents⟩ ops)
    (hf : ∀ imm ignore equal, Op.find imm ignore equal ∈ ops → ∀ r, equal r = true → E imm r)
    (hforce : ∀ imm res, Op.force imm res ∈ ops → E imm res) :
    ∃ s, run (fuel + 2) typeOf consolidatable ⟨[], residents⟩ ops = some s ∧
      ∀ k v, s.map.get? k = some v → E k v := by
  have gen : ∀ (l : List Op) (s : Cons), (∀ op ∈ l, op ∈ ops) → Inv s → (∀ k v, s.map.get? k = some v → E k v) →
      Safe (fuel + 2) typeOf consolidatable s l →
      ∃ s', run (fuel + 2) typeOf consolidatable s l = some s' ∧ ∀ k v, s'.map.get? k = some v → E k v := by
    intro l
    induction l with
    | nil => intro s _ _ h _; exact ⟨s, rfl, h⟩
    | cons op l ih =>
      intro s hsub hinv hEs hsafe
      obtain ⟨s', e, i, hs'⟩ := step_inv fuel typeOf consolidatable hinv op l hsafe
      have hsound : ∀ k v, s'.map.get? k = some v → E k v := by
        have hop := hsub op (by simp)
        have h1 := hsafe.1
        cases op with
        | find imm ignore equal =>
          simp only at h1
          subst h1
          obtain ⟨s2, a, e2, _, _, _, p, _⟩ := find_inv fuel typeOf consolidatable hinv imm equal
          simp only [step, e2] at e
          cases e
          intro k v hk
          rcases p k v hk with h | ⟨rfl, _, r, hr, ho⟩
          · exact hEs _ _ h
          · have h0 := hf k false equal hop r hr
            rcases ho with rfl | ho
            · exact h0
            · exact hE.trans h0 (hEs _ _ ho)
        | force imm res =>
          have hr := hforce imm res hop
          simp only [step] at e
          cases ef : force s imm res with
          | error x => rw [ef] at e; cases e; exact hEs
          | ok s2 =>
            rw [ef] at e
            cases e
            rcases (force_inv hinv h1.1 h1.2 ef).2.2 with rfl | hm
            · exact hEs
            · intro k v hk
              rw [hm, Dict.get?_set] at hk
              by_cases he : k = imm
              · rw [if_pos he] at hk; cases hk; rw [he]; exact hr
              · rw [if_neg he] at hk; exact hEs _ _ hk
        | addResident u => cases e; exact hEs
      obtain ⟨s'', e', r⟩ := ih s' (fun op h => hsub op (by simp [h])) i hsound hs'
      exact ⟨s'', by unfold run; rw [e]; exact e', r⟩
  exact gen ops ⟨[], residents⟩ (fun _ h => h) ⟨(by intro k v h; cases h), (by intro k v h; cases h), by simp [Dict.keys]⟩
    (by intro k v h; cases h) hs

/-- The answer of a safe query is resident, and unless it is the part asked about, asking again gives it
directly from the map. -/
theorem C15_answer_is_resident_partial (fuel : Nat) {T : Type} [DecidableEq T] (typeOf : Nat → T)
    (consolidatable : T → Bool) (residents : List Nat) (ops : List Op)
    (hs : Safe (fuel + 2) typeOf consolidatable ⟨[], residents⟩ ops) (s : Cons)
    (hr : run (fuel + 2) typeOf consolidatable ⟨[], residents⟩ ops = some s)
    (imm : Nat) (equal : Nat → Bool) :
    ∃ s' a, findEquiv (fuel + 2) typeOf consolidatable s imm false equal = .returns s' a ∧
      (∀ t, a = some t → t ∈ s'.residents ∧ (t = imm ∨ s'.map.get? imm = some t)) ∧ (a = none → s' = s) := by
  have gen : ∀ (ops : List Op) (s s' : Cons), Inv s → Safe (fuel + 2) typeOf consolidatable s ops →
      run (fuel + 2) typeOf consolidatable s ops = some s' → Inv s' := by
    intro ops
    induction ops with
    | nil => intro s s' h _ e; cases e; exact h
    | cons op ops ih =>
      intro s s' h hsafe e
      obtain ⟨s1, e1, i, hs1⟩ := step_inv fuel typeOf consolidatable h op ops hsafe
      unfold run at e
      rw [e1] at e
      exact ih s1 s' i hs1 e
  have hi := gen ops _ s ⟨(by intro k v h; cases h), (by intro k v h; cases h), by simp [Dict.keys]⟩ hs hr
  obtain ⟨s', a, e, _, _, p, _, q, r⟩ := find_inv fuel typeOf consolidatable hi imm equal
  exact ⟨s', a, e, fun t ht => ⟨(p t ht).1, r t ht⟩, q⟩

/-- Looking for equivalents within one model, ignoring identical parts, maps a uuid to itself; a later
query about a third equivalent part then never returns, however long it is left to run. -/
theorem C15_ignoring_identical_violated :
    let ops : List Op := [.find 1 true (fun _ => true), .find 2 true (fun _ => true)]
    ∃ s, (∀ fuel, run (fuel + 2) (fun _ => ()) (fun _ => true) ⟨[], [1, 2, 3]⟩ ops = some s) ∧
      s.map.get? 2 = some 2 ∧ checkIntegrity s = .error .assertion ∧
      ∀ fuel, findEquiv fuel (fun _ => ()) (fun _ => true) s 3 true (fun _ => true) = .running := by
  refine ⟨⟨[(1, 2), (2, 2)], [1, 2, 3]⟩, ?_, rfl, by decide, ?_⟩
  · intro fuel
    simp [run, step, findEquiv, compare, follow, Dict.get?, Dict.set]
  · intro fuel
    have h2 : ∀ n, follow [(1, 2), (2, 2)] n 2 = none := by
      intro n
      induction n with
      | zero => rfl
      | succ n ih => simp [follow, Dict.get?, ih]
    have h1 : follow [(1, 2), (2, 2)] fuel 1 = none := by
      cases fuel with
      | zero => rfl
      | succ n => simp [follow, Dict.get?, h2]
    simp [findEquiv, compare, Dict.get?, h1]

/-- Forcing a part to be equivalent to one which is itself mapped is accepted, and the answer then given is
a part that is not the one finally resolved to. -/
theorem C15_forced_chain_violated :
    ∃ s, run 2 (fun _ => ()) (fun _ => true) ⟨[], [3]⟩ [.force 2 3, .force 1 2] = some s ∧
      s.map.get? 1 = some 2 ∧ s.map.get? 2 = some 3 ∧ ¬ OneStep s.map ∧ checkIntegrity s = .error .assertion := by
  refine ⟨⟨[(2, 3), (1, 2)], [3]⟩, rfl, rfl, rfl, ?_, by decide⟩
  intro h
  exact absurd (h 1 2 rfl) (by decide)

example : Safe 2 (fun u : Nat => u % 2) (fun _ => true) ⟨[], [2, 4]⟩
    [.find 6 false (fun r => r == 4), .addResident 7, .force 8 4, .find 9 false (fun _ => true)] ∧
    (run 2 (fun u : Nat => u % 2) (fun _ => true) ⟨[], [2, 4]⟩
      [.find 6 false (fun r => r == 4), .addResident 7, .force 8 4, .find 9 false (fun _ => true)]).map Cons.map =
      some [(6, 4), (8, 4), (9, 7)] := by
  refine ⟨⟨rfl, fun s h => ⟨trivial, fun s' h' => ⟨?_, fun s'' _ => ⟨rfl, fun _ _ => trivial⟩⟩⟩⟩, by decide⟩
  cases h
  cases h'
  decide

end Verif.Consolidation
