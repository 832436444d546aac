import Verif.Gcs.Cache

/-! # C34: cached connection sets -/

namespace Verif.Gcs

variable {G T P : Type}

/-- what is cached is the set for the flag cached with it -/
def CacheOk (mk : Bool → P → Option G) (c : Cache G T) : Prop := ∀ g, c.gcs = some g → ∃ p, g = mk c.skip p

theorem request_ok (mk : Bool → P → Option G) (trOf : G → T) (c : Cache G T) (r : Request P) (h : CacheOk mk c) :
    CacheOk mk (request mk trOf c r).1 ∧ ∃ p, (request mk trOf c r).2.1 = mk r.skip p := by
  unfold request
  obtain ⟨g, skip, tr⟩ := c
  rcases g with _ | g
  · dsimp only
    cases hm : mk r.skip r.tol with
    | none => exact ⟨fun g hg => ⟨r.tol, by cases hg; exact hm.symm⟩, r.tol, hm.symm⟩
    | some x =>
      dsimp only
      refine ⟨fun g hg => ⟨r.tol, ?_⟩, r.tol, hm.symm⟩
      split at hg <;> cases hg <;> split <;> exact hm.symm
  · dsimp only
    by_cases hs : skip = r.skip
    · simp only [hs, ne_eq, not_true_eq_false, if_false]
      obtain ⟨p, hp⟩ := h g rfl
      dsimp only at hp
      rw [hs] at hp
      subst hp
      cases hm : mk r.skip p with
      | none => exact ⟨fun g hg => ⟨p, by cases hg; exact hm.symm⟩, p, hm.symm⟩
      | some x =>
        dsimp only
        refine ⟨fun g hg => ⟨p, ?_⟩, p, hm.symm⟩
        split at hg <;> cases hg <;> split <;> exact hm.symm
    · simp only [ne_eq, hs, not_false_eq_true, if_true]
      cases hm : mk r.skip r.tol with
      | none => exact ⟨fun g hg => ⟨r.tol, by cases hg; exact hm.symm⟩, r.tol, hm.symm⟩
      | some x =>
        dsimp only
        refine ⟨fun g hg => ⟨r.tol, ?_⟩, r.tol, hm.symm⟩
        split at hg <;> cases hg <;> split <;> exact hm.symm

theorem after_ok (mk : Bool → P → Option G) (trOf : G → T) (rs : List (Request P)) (c : Cache G T) (h : CacheOk mk c) :
    CacheOk mk (after mk trOf c rs) := by
  induction rs generalizing c with
  | nil => exact h
  | cons r rs ih => exact ih _ (request_ok mk trOf c r h).1

/-- C34: after any history of requests the connection set returned is one computed for the flag given (for K gaps, with the
tolerance of some request; the code documents that a cached set is returned regardless of tolerance). -/
theorem C34_set_for_flag (mk : Bool → P → Option G) (trOf : G → T) (history : List (Request P)) (r : Request P) :
    ∃ p, (request mk trOf (after mk trOf Cache.empty history) r).2.1 = mk r.skip p :=
  (request_ok mk trOf _ r (after_ok mk trOf history _ (fun g hg => by cases hg))).2

/-- C34 for pinchout and fault connection sets, which have no tolerance: the set returned is always the current one. -/
theorem C34_set_current (mk : Bool → Option G) (trOf : G → T) (history : List (Request Unit)) (r : Request Unit) :
    (request (fun s _ => mk s) trOf (after (fun s _ => mk s) trOf Cache.empty history) r).2.1 = mk r.skip :=
  let ⟨_, h⟩ := C34_set_for_flag (fun s (_ : Unit) => mk s) trOf history r
  h

/-- invariant when the flag and tolerance never change -/
def SameOk (mk : Bool → P → Option G) (trOf : G → T) (s : Bool) (p : P) (c : Cache G T) : Prop :=
  (c.gcs = none ∧ c.tr = none) ∨ (c.gcs = some (mk s p) ∧ c.skip = s ∧ ∀ t, c.tr = some t → ∃ g, mk s p = some g ∧ t = trOf g)

theorem request_same (mk : Bool → P → Option G) (trOf : G → T) (s : Bool) (p : P) (c : Cache G T) (r : Request P)
    (h : SameOk mk trOf s p c) (hs : r.skip = s) (hp : r.tol = p) :
    SameOk mk trOf s p (request mk trOf c r).1 ∧
      (request mk trOf c r).2.1 = mk s p ∧
      (∀ t, (request mk trOf c r).2.2 = some t → ∃ g, mk s p = some g ∧ t = trOf g) ∧
      (r.compute = true → ∀ g, mk s p = some g → (request mk trOf c r).2.2 = some (trOf g)) := by
  obtain ⟨g, skip, tr⟩ := c
  subst hs hp
  rcases h with ⟨rfl, rfl⟩ | ⟨h1, h2, h3⟩
  · unfold request
    dsimp only
    cases hm : mk r.skip r.tol with
    | none => exact ⟨Or.inr ⟨by rw [hm], rfl, fun t ht => (by cases ht)⟩, rfl, fun t ht => (by cases ht), fun _ g hg => by cases hg⟩
    | some x =>
      cases hc : r.compute with
      | false =>
        simp only [Bool.false_eq_true, false_and, if_false]
        exact ⟨Or.inr ⟨by rw [hm], rfl, fun t ht => (by cases ht)⟩, trivial, fun t ht => (by cases ht), fun h => by cases h⟩
      | true =>
        simp only [Option.isNone_none, and_self, if_true]
        exact ⟨Or.inr ⟨by rw [hm], rfl, fun t ht => ⟨x, hm, by cases ht; rfl⟩⟩, trivial, fun t ht => ⟨x, rfl, by cases ht; rfl⟩,
          fun _ g hg => by cases hg; rfl⟩
  · dsimp only at h1 h2 h3
    subst h1 h2
    unfold request
    dsimp only
    simp only [ne_eq, not_true_eq_false, if_false]
    cases hm : mk r.skip r.tol with
    | none =>
      refine ⟨Or.inr ⟨by rw [hm], rfl, fun t ht => ?_⟩, rfl, fun t ht => (by cases ht), fun _ g hg => by cases hg⟩
      exact h3 t ht
    | some x =>
      dsimp only
      cases tr with
      | none =>
        cases hc : r.compute with
        | false =>
          simp only [Bool.false_eq_true, false_and, if_false]
          exact ⟨Or.inr ⟨by rw [hm], rfl, fun t ht => (by cases ht)⟩, trivial, fun t ht => (by cases ht), fun h => by cases h⟩
        | true =>
          simp only [Option.isNone_none, and_self, if_true]
          exact ⟨Or.inr ⟨by rw [hm], rfl, fun t ht => ⟨x, hm, by cases ht; rfl⟩⟩, trivial, fun t ht => ⟨x, rfl, by cases ht; rfl⟩,
            fun _ g hg => by cases hg; rfl⟩
      | some t0 =>
        obtain ⟨g0, hg0, ht0⟩ := h3 t0 rfl
        rw [hm] at hg0
        cases hg0
        subst ht0
        simp only [Option.isNone_some, Bool.false_eq_true, and_false, if_false]
        exact ⟨Or.inr ⟨by rw [hm], rfl, fun t ht => ⟨x, hm, by cases ht; rfl⟩⟩, trivial, fun t ht => ⟨x, rfl, by cases ht; rfl⟩,
          fun _ g hg => by cases hg; rfl⟩

theorem after_same (mk : Bool → P → Option G) (trOf : G → T) (s : Bool) (p : P) (rs : List (Request P)) (c : Cache G T)
    (h : SameOk mk trOf s p c) (hr : ∀ r ∈ rs, r.skip = s ∧ r.tol = p) : SameOk mk trOf s p (after mk trOf c rs) := by
  induction rs generalizing c with
  | nil => exact h
  | cons r rs ih =>
    obtain ⟨h1, h2⟩ := hr r List.mem_cons_self
    exact ih _ (request_same mk trOf s p c r h h1 h2).1 fun r hr' => hr r (List.mem_cons_of_mem _ hr')

/-- C34 when every request has the same flag (and tolerance): any transmissibilities returned are those of the set returned,
and they are returned whenever asked for.  Missing: a change of flag (`C34_stale_transmissibility_violated`). -/
theorem C34_transmissibility_partial (mk : Bool → P → Option G) (trOf : G → T) (s : Bool) (p : P) (history : List (Request P))
    (hh : ∀ r ∈ history, r.skip = s ∧ r.tol = p) (compute : Bool) :
    let res := (request mk trOf (after mk trOf Cache.empty history) ⟨s, compute, p⟩).2
    (res.1 = mk s p) ∧ (∀ t, res.2 = some t → ∃ g, res.1 = some g ∧ t = trOf g) ∧
      (compute = true → ∀ g, res.1 = some g → res.2 = some (trOf g)) := by
  have h := request_same mk trOf s p (after mk trOf Cache.empty history) ⟨s, compute, p⟩
    (after_same mk trOf s p history _ (Or.inl ⟨rfl, rfl⟩) hh) rfl rfl
  dsimp only
  rw [h.2.1]
  exact ⟨rfl, h.2.2.1, h.2.2.2⟩

/-- C34 does not hold when the flag changes: whatever the grid, asking with inactive cells skipped and then without gives the
second connection set with the transmissibilities of the first. -/
theorem C34_stale_transmissibility_violated (mk : Bool → P → Option G) (trOf : G → T) (p : P) (g1 g2 : G)
    (h1 : mk true p = some g1) (h2 : mk false p = some g2) :
    (request mk trOf (after mk trOf Cache.empty [⟨true, true, p⟩]) ⟨false, true, p⟩).2 = (some g2, some (trOf g1)) := by
  simp [after, request, Cache.empty, h1, h2]

/-- the two sets may well differ, even in length -/
example : (request (fun s (_ : Unit) => some (if s then [0] else [0, 1])) List.length
    (after (fun s (_ : Unit) => some (if s then [0] else [0, 1])) List.length Cache.empty [⟨true, true, ()⟩]) ⟨false, true, ()⟩).2 =
    (some [0, 1], some 1) := by decide

end Verif.Gcs
