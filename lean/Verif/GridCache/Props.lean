import Verif.GridCache.Model
import Mathlib.Data.List.Basic
import Mathlib.Data.List.Nodup

/-! # C203: shared grid objects of a model -/

namespace Verif.GridCache
open Verif.Py

/-- The parts have different uuids. -/
def Distinct (parts : List Part) : Prop := parts.Pairwise fun a b => a.uuid ≠ b.uuid

/-- What every history keeps. -/
structure Inv (s : State) : Prop where
  distinct : Distinct s.parts
  root : ∀ r, s.gridRoot = some r → ∃ p ∈ s.parts, p.uuid = r

/-- Later states: parts and objects are added at the end, and the root once found stays. -/
structure Later (s s' : State) : Prop where
  parts : ∃ l, s'.parts = s.parts ++ l
  objs : ∃ l, s'.objs = s.objs ++ l
  root : ∀ r, s.gridRoot = some r → s'.gridRoot = some r

theorem Later.refl (s : State) : Later s s := ⟨⟨[], by simp⟩, ⟨[], by simp⟩, fun _ h => h⟩

theorem Later.trans {a b c : State} (h : Later a b) (h' : Later b c) : Later a c := by
  obtain ⟨l, hl⟩ := h.parts
  obtain ⟨m, hm⟩ := h'.parts
  obtain ⟨l2, hl2⟩ := h.objs
  obtain ⟨m2, hm2⟩ := h'.objs
  exact ⟨⟨l ++ m, by rw [hm, hl, List.append_assoc]⟩, ⟨l2 ++ m2, by rw [hm2, hl2, List.append_assoc]⟩, fun r hr => h'.root r (h.root r hr)⟩

theorem find_mem (s : State) (u : Option Nat) (t : Option String) (r : Nat) (h : find s u t = .ok (some r)) :
    ∃ p ∈ s.parts, p.uuid = r ∧ (u.isNone ∨ u = some r) ∧ (t.isNone ∨ t = some "" ∨ t = some p.title) := by
  unfold find at h
  split at h
  · cases h
  · rename_i g hm
    cases h
    have : g ∈ matching s u t := by rw [hm]; simp
    unfold matching at this
    rw [List.mem_filter, decide_eq_true_eq] at this
    exact ⟨g, this.1, rfl, this.2.1, this.2.2⟩
  · cases h

theorem oldest_mem (l : List Part) : ∀ g, oldest g l = g ∨ oldest g l ∈ l := by
  induction l with
  | nil => intro g; exact Or.inl rfl
  | cons a l ih =>
    intro g
    show oldest (if a.created < g.created then a else g) l = g ∨ _
    rcases ih (if a.created < g.created then a else g) with h | h
    · unfold oldest at h ⊢
      rw [List.foldl_cons, h]
      split <;> simp
    · exact Or.inr (List.mem_cons_of_mem _ h)

theorem oldest_le (l : List Part) : ∀ g, (oldest g l).created ≤ g.created ∧ ∀ x ∈ l, (oldest g l).created ≤ x.created := by
  induction l with
  | nil => intro g; exact ⟨Nat.le_refl _, by simp⟩
  | cons a l ih =>
    intro g
    obtain ⟨h1, h2⟩ := ih (if a.created < g.created then a else g)
    have e : oldest g (a :: l) = oldest (if a.created < g.created then a else g) l := rfl
    rw [e]
    have h3 : (if a.created < g.created then a else g).created ≤ g.created ∧ (if a.created < g.created then a else g).created ≤ a.created := by
      split <;> constructor <;> omega
    refine ⟨by omega, fun x hx => ?_⟩
    rcases List.mem_cons.1 hx with rfl | hx
    · omega
    · exact h2 x hx

theorem default_mem (s : State) (r : Nat) (h : defaultRoot s = .ok r) : ∃ p ∈ s.parts, p.uuid = r := by
  unfold defaultRoot at h
  split at h
  · rename_i g l hm
    cases h
    have hs : ∀ x ∈ matching s none (some "ROOT"), x ∈ s.parts := fun x hx => (List.mem_filter.1 hx).1
    rw [hm] at hs
    refine ⟨_, hs _ ?_, rfl⟩
    rcases oldest_mem l g with e | e
    · rw [e]; simp
    · exact List.mem_cons_of_mem _ e
  · split at h
    · cases h
    · cases h
    · rename_i u hf
      cases h
      obtain ⟨p, hp, e, _⟩ := find_mem s none none _ hf
      exact ⟨p, hp, e⟩

/-- What is known of the root found for a call. -/
theorem rootFor_spec (s s' : State) (t : Option String) (u : Option Nat) (r : Nat) (hi : Inv s) (h : rootFor s t u = .ok (r, s')) :
    (∃ p ∈ s.parts, p.uuid = r) ∧ Inv s' ∧ Later s s' ∧ s'.objs = s.objs ∧ s'.parts = s.parts ∧ s'.next = s.next ∧ (t = none → u = none → s'.gridRoot = some r) := by
  have res : ∀ root, (∀ x, root = some x → ∃ p ∈ s.parts, p.uuid = x) → resolve s root = .ok (r, s') →
      (∃ p ∈ s.parts, p.uuid = r) ∧ Inv s' ∧ Later s s' ∧ s'.objs = s.objs ∧ s'.parts = s.parts ∧ s'.next = s.next ∧ (root = none → s'.gridRoot = some r) := by
    intro root hroot hres
    unfold resolve at hres
    split at hres
    · rename_i x
      have hx := hroot x rfl
      simp only [Except.ok.injEq, Prod.mk.injEq] at hres
      obtain ⟨rfl, rfl⟩ := hres
      cases hg : s.gridRoot with
      | none =>
        rw [if_pos (show (none : Option Nat).isNone = true from rfl)]
        exact ⟨hx, ⟨hi.distinct, fun r hr => by cases hr; exact hx⟩, ⟨⟨[], by simp⟩, ⟨[], by simp⟩, fun r hr => by rw [hg] at hr; cases hr⟩, rfl, rfl, rfl, fun h => by cases h⟩
      | some y =>
        rw [if_neg (show ¬ (some y : Option Nat).isNone = true by simp)]
        exact ⟨hx, hi, Later.refl s, rfl, rfl, rfl, fun h => by cases h⟩
    · split at hres
      · rename_i x hg
        cases hres
        exact ⟨hi.root _ hg, hi, Later.refl _, rfl, rfl, rfl, fun _ => hg⟩
      · rename_i hg
        split at hres
        · cases hres
        · rename_i x hd
          cases hres
          have hx := default_mem s _ hd
          exact ⟨hx, ⟨hi.distinct, fun r hr => by cases hr; exact hx⟩, ⟨⟨[], by simp⟩, ⟨[], by simp⟩, fun r hr => by rw [hg] at hr; cases hr⟩, rfl, rfl, rfl, fun _ => rfl⟩
  unfold rootFor at h
  split at h
  · split at h
    · obtain ⟨h1, h2, h3, h4, h5, h6, h7⟩ := res none (fun x hx => by cases hx) h
      exact ⟨h1, h2, h3, h4, h5, h6, fun _ _ => h7 rfl⟩
    · rename_i ht
      split at h
      · cases h
      · rename_i x hf
        obtain ⟨h1, h2, h3, h4, h5, h6, _⟩ := res x (fun y hy => by
          subst hy
          obtain ⟨p, hp, e, _⟩ := find_mem s none t _ hf
          exact ⟨p, hp, e⟩) h
        exact ⟨h1, h2, h3, h4, h5, h6, fun e => absurd (by rw [e]; rfl) ht⟩
  · rename_i hc
    split at h
    · cases h
    · cases h
    · rename_i x hf
      cases h
      obtain ⟨p, hp, e, _⟩ := find_mem s u t _ hf
      exact ⟨⟨p, hp, e⟩, hi, Later.refl _, rfl, rfl, rfl, fun h1 h2 => absurd ⟨by rw [h2]; rfl, Or.inl (by rw [h1]; rfl)⟩ hc⟩

theorem grid_spec (s s' : State) (t : Option String) (u : Option Nat) (o : Obj) (hi : Inv s) (h : grid s t u = .ok (o, s')) :
    ∃ s1, rootFor s t u = .ok (o.uuid, s1) ∧ Inv s' ∧ Later s s' ∧ s'.parts = s.parts ∧ s'.objs.find? (fun x => x.uuid = o.uuid) = some o ∧ s'.gridRoot = s1.gridRoot := by
  unfold grid at h
  split at h
  · cases h
  · rename_i r s1 hr
    obtain ⟨h1, h2, h3, h4, h5, h6, _⟩ := rootFor_spec s s1 t u r hi hr
    split at h
    · rename_i x hx
      cases h
      have e : o.uuid = r := by simpa using List.find?_some hx
      subst e
      exact ⟨s', hr, h2, h3, h5, hx, rfl⟩
    · rename_i hx
      cases h
      refine ⟨s1, hr, ⟨h2.distinct, h2.root⟩, h3.trans ⟨⟨[], by simp⟩, ⟨[_], rfl⟩, fun _ h => h⟩, h5, ?_, rfl⟩
      simp only
      rw [List.find?_append, hx]
      simp

theorem step_inv (s : State) (op : Op) (hi : Inv s) : Inv (step s op) ∧ Later s (step s op) := by
  cases op with
  | grid t u =>
    simp only [step]
    cases h : grid s t u with
    | error e => exact ⟨hi, Later.refl s⟩
    | ok x =>
      obtain ⟨o, s'⟩ := x
      obtain ⟨_, _, h1, h2, _⟩ := grid_spec s s' t u o hi h
      exact ⟨h1, h2⟩
  | add u c =>
    simp only [step]
    split
    · unfold addGrid
      split
      · exact ⟨hi, Later.refl s⟩
      · exact ⟨⟨hi.distinct, hi.root⟩, ⟨⟨[], by simp⟩, ⟨[_], rfl⟩, fun _ h => h⟩⟩
    · exact ⟨hi, Later.refl s⟩
  | part p =>
    simp only [step]
    split
    · exact ⟨hi, Later.refl s⟩
    · rename_i hp
      refine ⟨⟨?_, ?_⟩, ⟨⟨[p], rfl⟩, ⟨[], by simp⟩, fun _ h => h⟩⟩
      · refine List.pairwise_append.2 ⟨hi.distinct, by simp, ?_⟩
        intro a ha b hb e
        rw [List.mem_singleton] at hb
        subst hb
        exact hp (List.any_eq_true.2 ⟨a, ha, by simpa using e⟩)
      · intro r hr
        obtain ⟨q, hq, e⟩ := hi.root r hr
        exact ⟨q, by simp [hq], e⟩

theorem run_inv (ops : List Op) : ∀ (s : State), Inv s → Inv (run s ops) ∧ Later s (run s ops) := by
  induction ops with
  | nil => intro s h; exact ⟨h, Later.refl s⟩
  | cons op ops ih =>
    intro s h
    obtain ⟨h1, h2⟩ := step_inv s op h
    obtain ⟨h3, h4⟩ := ih _ h1
    exact ⟨h3, h2.trans h4⟩

theorem opened_inv (parts : List Part) (hd : Distinct parts) : Inv (opened parts) := ⟨hd, fun r h => by cases h⟩

theorem matching_uuid (s : State) (hi : Inv s) (p : Part) (hp : p ∈ s.parts) : matching s (some p.uuid) none = [p] := by
  unfold matching
  obtain ⟨a, b, e⟩ := List.append_of_mem hp
  have hd := hi.distinct
  rw [e] at hd ⊢
  have h1 := List.pairwise_append.1 hd
  rw [List.filter_append, List.filter_cons_of_pos (by simp)]
  rw [List.filter_eq_nil_iff.2, List.filter_eq_nil_iff.2, List.nil_append]
  · intro x hx
    have := (List.pairwise_cons.1 h1.2.1).1 x hx
    simp [this]
  · intro x hx
    have := h1.2.2 x hx p (by simp)
    simp [Ne.symm this]

/-- C203: after any history, a grid asked for by uuid is an object for the part with that uuid; without such a part the call is refused. -/
theorem C203_uuid (parts : List Part) (hd : Distinct parts) (ops : List Op) (u : Nat) :
    ((∃ p ∈ (run (opened parts) ops).parts, p.uuid = u) → ∃ o s', grid (run (opened parts) ops) none (some u) = .ok (o, s') ∧ o.uuid = u) ∧
    ((∀ p ∈ (run (opened parts) ops).parts, p.uuid ≠ u) → grid (run (opened parts) ops) none (some u) = .error .assertion) := by
  have hi := (run_inv ops _ (opened_inv parts hd)).1
  generalize run (opened parts) ops = s at *
  constructor
  · rintro ⟨p, hp, rfl⟩
    have hr : rootFor s none (some p.uuid) = .ok (p.uuid, s) := by
      simp [rootFor, find, matching_uuid s hi p hp]
    unfold grid
    rw [hr]
    simp only
    cases hf : s.objs.find? (fun o => o.uuid = p.uuid) with
    | some o => exact ⟨o, s, rfl, by simpa using List.find?_some hf⟩
    | none => exact ⟨_, _, rfl, rfl⟩
  · intro hn
    have hm : matching s (some u) none = [] := by
      unfold matching
      refine List.filter_eq_nil_iff.2 fun x hx => ?_
      have := hn x hx
      simp [Ne.symm this]
    simp [grid, rootFor, find, hm]

/-- C203: an object which was returned for a grid is returned again whenever the grid is asked for by its uuid, whatever happens between. -/
theorem C203_shared (parts : List Part) (hd : Distinct parts) (ops ops' : List Op) (t : Option String) (u : Option Nat) (o : Obj) (s' : State)
    (h : grid (run (opened parts) ops) t u = .ok (o, s')) :
    ∃ s'', grid (run s' ops') none (some o.uuid) = .ok (o, s'') := by
  have hi := (run_inv ops _ (opened_inv parts hd)).1
  generalize run (opened parts) ops = s at *
  obtain ⟨s1, hr, h1, h2, h3, h4, _⟩ := grid_spec s s' t u o hi h
  obtain ⟨p, hp, e⟩ := (rootFor_spec s s1 t u _ hi hr).1
  obtain ⟨h5, h6⟩ := run_inv ops' s' h1
  generalize run s' ops' = z at *
  have hpz : p ∈ z.parts := by
    obtain ⟨l, hl⟩ := h6.parts
    rw [hl, h3]; simp [hp]
  have hrz : rootFor z none (some o.uuid) = .ok (o.uuid, z) := by
    rw [← e]; simp [rootFor, find, matching_uuid z h5 p hpz]
  refine ⟨z, ?_⟩
  unfold grid
  rw [hrz]
  simp only
  obtain ⟨l, hl⟩ := h6.objs
  rw [hl, List.find?_append, h4]
  rfl

/-- C203: the main grid, once returned, is returned ever after, although other grids may be added to the model. -/
theorem C203_main (parts : List Part) (hd : Distinct parts) (ops ops' : List Op) (o : Obj) (s' : State)
    (h : grid (run (opened parts) ops) none none = .ok (o, s')) :
    ∃ s'', grid (run s' ops') none none = .ok (o, s'') := by
  have hi := (run_inv ops _ (opened_inv parts hd)).1
  generalize run (opened parts) ops = s at *
  obtain ⟨s1, hr, h1, h2, h3, h4, hg⟩ := grid_spec s s' none none o hi h
  have hroot : s'.gridRoot = some o.uuid := by rw [hg]; exact (rootFor_spec s s1 none none _ hi hr).2.2.2.2.2.2 rfl rfl
  obtain ⟨h5, h6⟩ := run_inv ops' s' h1
  generalize run s' ops' = z at *
  have hz := h6.root _ hroot
  refine ⟨z, ?_⟩
  have hrz : rootFor z none none = .ok (o.uuid, z) := by simp [rootFor, resolve, hz]
  unfold grid
  rw [hrz]
  simp only
  obtain ⟨l, hl⟩ := h6.objs
  rw [hl, List.find?_append, h4]
  rfl

/-- C203: the main grid of a model just opened is the oldest grid titled ROOT; without any, it is the only grid; with none or several the call is refused. -/
theorem C203_main_first (parts : List Part) :
    (∀ g ∈ parts, g.title = "ROOT" → ∃ o s' p, grid (opened parts) none none = .ok (o, s') ∧ p ∈ parts ∧ p.uuid = o.uuid ∧ p.title = "ROOT" ∧ p.created ≤ g.created) ∧
    ((∀ g ∈ parts, g.title ≠ "ROOT") → ∀ p, parts = [p] → ∃ o s', grid (opened parts) none none = .ok (o, s') ∧ o.uuid = p.uuid) ∧
    ((∀ g ∈ parts, g.title ≠ "ROOT") → parts.length ≠ 1 → ∃ e, grid (opened parts) none none = .error e) := by
  have key : ∀ r, defaultRoot (opened parts) = .ok r → ∃ o s', grid (opened parts) none none = .ok (o, s') ∧ o.uuid = r := by
    intro r hr
    have : rootFor (opened parts) none none = .ok (r, { opened parts with gridRoot := some r }) := by
      have hg : (opened parts).gridRoot = none := rfl
      simp [rootFor, resolve, hr, hg]
    unfold grid
    rw [this]
    exact ⟨_, _, rfl, rfl⟩
  have hall : matching (opened parts) none none = parts := by
    unfold matching
    refine List.filter_eq_self.2 fun x _ => by simp
  have hmem : ∀ x, x ∈ matching (opened parts) none (some "ROOT") ↔ x ∈ parts ∧ x.title = "ROOT" := by
    intro x
    unfold matching
    rw [List.mem_filter]
    simp only [opened, Option.isNone_none, Option.isNone_some, Option.some.injEq, true_or, true_and, Bool.false_eq_true, false_or, decide_eq_true_eq]
    constructor
    · rintro ⟨h1, h2 | h2⟩
      · exact absurd h2 (by decide)
      · exact ⟨h1, h2.symm⟩
    · rintro ⟨h1, h2⟩; exact ⟨h1, Or.inr h2.symm⟩
  refine ⟨?_, ?_, ?_⟩
  · intro g hg ht
    cases hm : matching (opened parts) none (some "ROOT") with
    | nil => exact absurd ((hmem g).2 ⟨hg, ht⟩) (by rw [hm]; simp)
    | cons a l =>
      obtain ⟨o, s', h1, h2⟩ := key (oldest a l).uuid (by unfold defaultRoot; rw [hm])
      have hin : oldest a l ∈ a :: l := by
        rcases oldest_mem l a with e | e
        · rw [e]; simp
        · exact List.mem_cons_of_mem _ e
      obtain ⟨h3, h4⟩ := (hmem _).1 (by rw [hm]; exact hin)
      refine ⟨o, s', oldest a l, h1, h3, h2.symm, h4, ?_⟩
      have hgm := (hmem g).2 ⟨hg, ht⟩
      rw [hm] at hgm
      rcases List.mem_cons.1 hgm with rfl | hgm
      · exact (oldest_le l _).1
      · exact (oldest_le l a).2 g hgm
  · rintro hn p rfl
    have hm : matching (opened [p]) none (some "ROOT") = [] := List.eq_nil_iff_forall_not_mem.2 fun x hx => hn x ((hmem x).1 hx).1 ((hmem x).1 hx).2
    exact key p.uuid (by unfold defaultRoot; rw [hm]; simp [find, hall])
  · intro hn hl
    have hm : matching (opened parts) none (some "ROOT") = [] := List.eq_nil_iff_forall_not_mem.2 fun x hx => hn x ((hmem x).1 hx).1 ((hmem x).1 hx).2
    have : ∃ e, defaultRoot (opened parts) = .error e := by
      unfold defaultRoot
      rw [hm]
      simp only [find, hall]
      match parts, hl with
      | [], _ => exact ⟨_, rfl⟩
      | [_], hl => exact absurd rfl hl
      | _ :: _ :: _, _ => exact ⟨_, rfl⟩
    obtain ⟨e, he⟩ := this
    have hg : (opened parts).gridRoot = none := rfl
    exact ⟨e, by simp [grid, rootFor, resolve, he, hg]⟩

/-- C203 (in part): a grid asked for by a title other than ROOT, and not blank, is one with that title; the call is refused unless just one grid has it.
Missing: the title ROOT (`C203_root_title_violated`). -/
theorem C203_title_partial (parts : List Part) (hd : Distinct parts) (ops : List Op) (t : String) (ht : t ≠ "ROOT") (hb : t ≠ "") :
    (∀ o s', grid (run (opened parts) ops) (some t) none = .ok (o, s') → ∃ p ∈ (run (opened parts) ops).parts, p.uuid = o.uuid ∧ p.title = t) ∧
    ((∃ o s', grid (run (opened parts) ops) (some t) none = .ok (o, s')) ↔ ((run (opened parts) ops).parts.filter fun p => p.title = t).length = 1) := by
  have hi := (run_inv ops _ (opened_inv parts hd)).1
  generalize run (opened parts) ops = s at *
  have hm : matching s none (some t) = s.parts.filter fun p => p.title = t := by
    unfold matching
    refine List.filter_congr fun x _ => ?_
    simp only [Option.isNone_none, Option.isNone_some, Option.some.injEq, true_or, true_and, Bool.false_eq_true, false_or, hb]
    exact decide_eq_decide.2 ⟨Eq.symm, Eq.symm⟩
  constructor
  · intro o s' h
    obtain ⟨s1, hr, _⟩ := grid_spec s s' (some t) none o hi h
    simp only [rootFor, Option.isNone_none, Option.isNone_some, Option.some.injEq, ht, Bool.false_eq_true, or_self, and_false, if_false] at hr
    split at hr
    · cases hr
    · cases hr
    · rename_i x hf
      obtain ⟨p, hp, e, _, h3⟩ := find_mem s none (some t) _ hf
      simp only [Except.ok.injEq, Prod.mk.injEq] at hr
      refine ⟨p, hp, e.trans hr.1, ?_⟩
      simp only [Option.isNone_some, Option.some.injEq, Bool.false_eq_true, false_or, hb] at h3
      exact h3.symm
  · rw [← hm]
    simp only [grid, rootFor, Option.isNone_none, Option.isNone_some, Option.some.injEq, ht, Bool.false_eq_true, or_self, and_false, if_false, find]
    match h : matching s none (some t) with
    | [] => simp
    | [g] =>
      simp only [List.length_singleton, iff_true]
      cases hf : s.objs.find? (fun o => o.uuid = g.uuid) with
      | some o => exact ⟨_, _, rfl⟩
      | none => exact ⟨_, _, rfl⟩
    | _ :: _ :: _ => simp

/-- C203 fails for the title ROOT: without a grid of that title, the only grid of the model is returned, whatever its title. -/
theorem C203_root_title_violated (p : Part) (h : p.title ≠ "ROOT") :
    ∃ o s', grid (opened [p]) (some "ROOT") none = .ok (o, s') ∧ o.uuid = p.uuid := by
  have hm : matching (opened [p]) none (some "ROOT") = [] := by simp [matching, opened, Ne.symm h]
  have ha : matching (opened [p]) none none = [p] := by simp [matching, opened]
  have hg : (opened [p]).gridRoot = none := rfl
  have hd : defaultRoot (opened [p]) = .ok p.uuid := by unfold defaultRoot; rw [hm]; simp [find, ha]
  have hr : rootFor (opened [p]) (some "ROOT") none = .ok (p.uuid, { opened [p] with gridRoot := some p.uuid }) := by
    simp [rootFor, find, hm, resolve, hg, hd]
  unfold grid
  rw [hr]
  exact ⟨_, _, rfl, rfl⟩

/-- C203 (in part): no two objects of the list are for the same grid, if objects are added with a check for duplicates. -/
theorem C203_one_object_partial (parts : List Part) (ops : List Op) (hc : ∀ u, Op.add u false ∉ ops) :
    (run (opened parts) ops).objs.Pairwise fun a b => a.uuid ≠ b.uuid := by
  have rootFor_objs : ∀ (s s' : State) (t : Option String) (u : Option Nat) (r : Nat), rootFor s t u = .ok (r, s') → s'.objs = s.objs := by
    have res : ∀ (s s' : State) root r, resolve s root = .ok (r, s') → s'.objs = s.objs := by
      intro s s' root r h
      unfold resolve at h
      split at h
      · simp only [Except.ok.injEq, Prod.mk.injEq] at h
        rw [← h.2]; split <;> rfl
      · split at h
        · cases h; rfl
        · split at h
          · cases h
          · cases h; rfl
    intro s s' t u r h
    unfold rootFor at h
    split at h
    · split at h
      · exact res _ _ _ _ h
      · split at h
        · cases h
        · exact res _ _ _ _ h
    · split at h
      · cases h
      · cases h
      · cases h; rfl
  have app : ∀ (l : List Obj) (n u : Nat), l.Pairwise (fun a b => a.uuid ≠ b.uuid) → (∀ o ∈ l, o.uuid ≠ u) → (l ++ [(⟨n, u⟩ : Obj)]).Pairwise fun a b => a.uuid ≠ b.uuid := by
    intro l n u hl hu
    refine List.pairwise_append.2 ⟨hl, by simp, ?_⟩
    intro a ha b hb
    rw [List.mem_singleton] at hb
    subst hb
    exact hu a ha
  have : ∀ (ops : List Op) (s : State), (∀ u, Op.add u false ∉ ops) → (s.objs.Pairwise fun a b => a.uuid ≠ b.uuid) → (run s ops).objs.Pairwise fun a b => a.uuid ≠ b.uuid := by
    intro ops
    induction ops with
    | nil => intro s _ h; exact h
    | cons op ops ih =>
      intro s hc h
      refine ih _ (fun u hu => hc u (by simp [hu])) ?_
      cases op with
      | grid t u =>
        simp only [step]
        unfold grid
        cases hr : rootFor s t u with
        | error e => exact h
        | ok x =>
          obtain ⟨r, s1⟩ := x
          have e := rootFor_objs s s1 t u r hr
          simp only
          cases hf : s1.objs.find? (fun o => o.uuid = r) with
          | some o => simp only; rw [e]; exact h
          | none =>
            simp only
            refine app _ _ _ (by rw [e]; exact h) fun o ho => ?_
            simpa using List.find?_eq_none.1 hf o ho
      | add u c =>
        cases c with
        | false => exact absurd (by simp) (hc u)
        | true =>
          simp only [step]
          split
          · unfold addGrid
            split
            · exact h
            · rename_i hn
              refine app _ _ _ h fun o ho e => hn ⟨rfl, List.any_eq_true.2 ⟨o, ho, by simpa using e⟩⟩
          · exact h
      | part p =>
        simp only [step]
        split
        · exact h
        · exact h
  exact this ops _ hc (by simp [opened])

/-- C203 fails without the check: an object added after one for the same grid is never returned. -/
theorem C203_hidden_violated (parts : List Part) (hd : Distinct parts) (ops : List Op) (o : Obj) (s' : State) (t : Option String) (u : Option Nat)
    (h : grid (run (opened parts) ops) t u = .ok (o, s')) :
    (⟨s'.next, o.uuid⟩ : Obj) ∈ (step s' (.add o.uuid false)).objs ∧
    ∀ ops', ∃ s'', grid (run s' (.add o.uuid false :: ops')) none (some o.uuid) = .ok (o, s'') := by
  have hi := (run_inv ops _ (opened_inv parts hd)).1
  refine ⟨?_, fun ops' => C203_shared parts hd ops (.add o.uuid false :: ops') t u o s' h⟩
  obtain ⟨s1, hr, h1, h2, h3, h4, _⟩ := grid_spec _ s' t u o hi h
  obtain ⟨p, hp, e⟩ := (rootFor_spec _ s1 t u _ hi hr).1
  have hany : (s'.parts.any fun p => p.uuid = o.uuid) = true := by
    rw [h3]; exact List.any_eq_true.2 ⟨p, hp, by simpa using e⟩
  simp [step, addGrid, hany]

/-- Two grids, one titled ROOT -/
def exModel : List Part := [⟨7, "COARSE", 1⟩, ⟨8, "ROOT", 2⟩]

example : Distinct exModel ∧ (match grid (run (opened exModel) [.grid (some "COARSE") none, .part ⟨9, "ROOT", 3⟩]) none none with
    | .ok (o, s') => decide (o = ⟨1, 8⟩ ∧ s'.objs = [⟨0, 7⟩, ⟨1, 8⟩])
    | .error _ => false) = true := by
  refine ⟨by simp [Distinct, exModel], ?_⟩
  decide +kernel

end Verif.GridCache
