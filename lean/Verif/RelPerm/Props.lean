import Verif.RelPerm.Lemmas
import Mathlib.Data.List.SplitOn

/-! # C191: tables of relative permeability are accepted exactly if they can be used -/

namespace Verif.RelPerm
open Verif.Py

theorem sameSet_iff (a b : List Word) : sameSet a b = true ↔ ∀ w, w ∈ a ↔ w ∈ b := by
  unfold sameSet
  simp only [Bool.and_eq_true, List.all_eq_true, decide_eq_true_eq]
  exact ⟨fun h w => ⟨h.1 w, h.2 w⟩, fun h => ⟨fun w => (h w).1, fun w => (h w).2⟩⟩

theorem named_iff (combo : Option Word) (p q : Phase) : Named combo p q ↔ sameSet (phasesIn combo) [p.name, q.name] = true := by
  rw [sameSet_iff]
  unfold Named
  constructor
  · rintro ⟨h1, h2, h3⟩ w
    simp only [List.mem_cons, List.not_mem_nil, or_false]
    exact ⟨h3 w, by rintro (rfl | rfl) <;> assumption⟩
  · intro h
    exact ⟨(h _).2 (by simp), (h _).2 (by simp), fun w hw => by simpa using (h w).1 hw⟩

theorem splitOn_ne_nil' (l : Word) : l.splitOn '-' ≠ [] := by
  unfold List.splitOn
  exact List.splitOnP_ne_nil _ _

theorem unnamed_iff (combo : Option Word) : Unnamed combo ↔ sameSet (phasesIn combo) ["None".toList] = true := by
  rw [sameSet_iff]
  unfold Unnamed
  have hne : phasesIn combo ≠ [] := by
    unfold phasesIn
    simpa using splitOn_ne_nil' _
  constructor
  · intro h w
    simp only [List.mem_cons, List.not_mem_nil, or_false]
    refine ⟨h w, ?_⟩
    rintro rfl
    obtain ⟨x, hx⟩ := List.exists_mem_of_ne_nil _ hne
    rw [← h x hx]
    exact hx
  · intro h w hw
    simpa using (h w).1 hw

theorem sameSet_swap (a : List Word) (x y : Word) : sameSet a [x, y] = sameSet a [y, x] := by
  rw [Bool.eq_iff_iff, sameSet_iff, sameSet_iff]
  simp only [List.mem_cons, List.not_mem_nil, or_false]
  constructor <;> intro h w <;> rw [h w] <;> exact or_comm

/-- Two sets of names which differ are not both those given. -/
theorem sameSet_unique {a b c : List Word} (h1 : sameSet a b = true) (h2 : sameSet a c = true) : sameSet b c = true := by
  rw [sameSet_iff] at *
  exact fun w => (h1 w).symm.trans (h2 w)

/-- The check for two phases: the columns are those of a table of one of the two, as far as they are there. -/
theorem check_ok {c : Check} {p q : Phase} (hpq : p ≠ q) (hs : c.sats = [sat p, sat q]) (he : ∀ x, x ∈ c.expected ↔ x = sat p ∨ x = sat q ∨ x = kr p ∨ x = kr q ∨ x = pc)
    {cols : List Word} (hn : cols.Nodup) (h : errorCheck c cols = .ok ()) :
    (∃ rest, cols = sat p :: rest ∧ ∀ x ∈ rest, x = kr p ∨ x = kr q ∨ x = pc) ∨ (∃ rest, cols = sat q :: rest ∧ ∀ x ∈ rest, x = kr q ∨ x = kr p ∨ x = pc) := by
  obtain ⟨a, rest, rfl, h1, h2, h3⟩ := errorCheck_ok.1 h
  rw [hs] at h1 h2
  have h4 := filter_two h2
  simp only [List.nodup_cons] at hn
  simp only [List.mem_cons, List.not_mem_nil, or_false] at h1
  rcases h1 with rfl | rfl
  · refine Or.inl ⟨rest, rfl, fun x hx => ?_⟩
    have h5 := (he x).1 (h3 x (by simp [hx]))
    have h6 : x ≠ sat p := by rintro rfl; exact hn.1 hx
    have h7 : x ≠ sat q := by
      rintro rfl
      rcases h4 with h4 | h4
      · exact h4.2 (by simp [hx])
      · exact h4.1 (by simp)
    tauto
  · refine Or.inr ⟨rest, rfl, fun x hx => ?_⟩
    have h5 := (he x).1 (h3 x (by simp [hx]))
    have h6 : x ≠ sat q := by rintro rfl; exact hn.1 hx
    have h7 : x ≠ sat p := by
      rintro rfl
      rcases h4 with h4 | h4
      · exact h4.2 (by simp)
      · exact h4.1 (by simp [hx])
    tauto

/-- The columns of a table of two phases pass the check for them. -/
theorem layout_check {c : Check} {p q p' q' : Phase} (hpq : p' ≠ q') (hs : c.sats = [sat p, sat q])
    (he : ∀ x, x ∈ c.expected ↔ x = sat p ∨ x = sat q ∨ x = kr p ∨ x = kr q ∨ x = pc) {cols : List Word} (h : Layout p' q' cols)
    (hpq' : (p' = p ∧ q' = q) ∨ (p' = q ∧ q' = p)) : errorCheck c cols = .ok () := by
  rw [errorCheck_ok, hs]
  have hne : sat p ≠ sat q := by
    rcases hpq' with ⟨rfl, rfl⟩ | ⟨rfl, rfl⟩ <;> cases p' <;> cases q' <;> first | exact absurd rfl hpq | decide
  have hx : ∀ a b c : Phase, sat a ≠ kr b ∧ sat a ≠ pc := fun a b _ => ⟨sat_ne_kr a b, sat_ne_pc a⟩
  rcases hpq' with ⟨rfl, rfl⟩ | ⟨rfl, rfl⟩ <;> rcases h with rfl | rfl | rfl | rfl <;>
    refine ⟨_, _, rfl, by simp, ?_, fun x hx => (he x).2 (by simp at hx; tauto)⟩ <;>
    simp [List.filter_cons, hne, hne.symm, sat_ne_kr, sat_ne_pc]

theorem sat_expected (p q x : Phase) : sat x ∈ [sat p, sat q, kr p, kr q, pc] → x = p ∨ x = q := by
  cases p <;> cases q <;> cases x <;> decide

/-- The combination found from the columns. -/
theorem inferred_ok {cols : List Word} (hn : cols.Nodup) {w : Word} (h : inferred cols = .ok w) :
    ∃ p q rest, p ≠ q ∧ cols = sat p :: rest ∧ ∀ x ∈ rest, x = kr p ∨ x = kr q ∨ x = pc := by
  unfold inferred at h
  cases cols with
  | nil => simp at h
  | cons a rest =>
    simp only [List.head?_cons] at h
    by_cases h1 : a ∉ ["Sw".toList, "Sg".toList, "So".toList] ∨ (["Sw".toList, "Sg".toList, "So".toList].filter (· ∈ a :: rest)).length ≠ 1
    · rw [if_pos h1] at h
      simp at h
    rw [if_neg h1] at h
    push Not at h1
    have h2 := filter_three h1.2
    have e1 : "Sw".toList = sat .water := rfl
    have e2 : "Sg".toList = sat .gas := rfl
    have e3 : "So".toList = sat .oil := rfl
    rw [e1, e2, e3] at h1 h2
    have hs : ∀ s : Phase, a = sat s → ∀ x ∈ rest, x ≠ sat .water ∧ x ≠ sat .gas ∧ x ≠ sat .oil := by
      rintro s rfl x hx
      have hx' : x ∈ sat s :: rest := by simp [hx]
      have hnx : x ≠ sat s := by
        rintro rfl
        exact (List.nodup_cons.1 hn).1 hx
      have hss : sat s ∈ sat s :: rest := by simp
      refine ⟨?_, ?_, ?_⟩ <;> rintro rfl <;> cases s <;> first | exact hnx rfl | tauto
    have key : ∀ p q : Phase, p ≠ q → ∀ ex : List Word, (∀ x, x ∈ ex ↔ x = sat p ∨ x = sat q ∨ x = kr p ∨ x = kr q ∨ x = pc) → (a :: rest).all (· ∈ ex) = true →
        ∃ p q rest', p ≠ q ∧ a :: rest = sat p :: rest' ∧ ∀ x ∈ rest', x = kr p ∨ x = kr q ∨ x = pc := by
      intro p q hpq ex he hall
      simp only [List.all_eq_true, decide_eq_true_eq] at hall
      have ha := (he a).1 (hall a (by simp))
      have has : ∃ s, a = sat s := by
        have := h1.1
        simp only [List.mem_cons, List.not_mem_nil, or_false] at this
        rcases this with h | h | h
        · exact ⟨_, h⟩
        · exact ⟨_, h⟩
        · exact ⟨_, h⟩
      obtain ⟨s, rfl⟩ := has
      have hxs : ∀ x ∈ rest, x = kr p ∨ x = kr q ∨ x = pc := by
        intro x hx
        have h4 := (he x).1 (hall x (by simp [hx]))
        obtain ⟨n1, n2, n3⟩ := hs s rfl x hx
        have n4 : ∀ u : Phase, x ≠ sat u := by intro u; cases u <;> assumption
        rcases h4 with h4 | h4 | h4
        · exact absurd h4 (n4 _)
        · exact absurd h4 (n4 _)
        · exact h4
      have : s = p ∨ s = q := by
        apply sat_expected p q s
        simpa using ha
      rcases this with rfl | rfl
      · exact ⟨s, q, rest, hpq, rfl, hxs⟩
      · exact ⟨s, p, rest, hpq.symm, rfl, fun x hx => by have := hxs x hx; tauto⟩
    have x1 : ∀ x, x ∈ waterOil.expected ↔ x = sat .water ∨ x = sat .oil ∨ x = kr .water ∨ x = kr .oil ∨ x = pc := by
      intro x; simp only [waterOil, List.mem_cons, List.not_mem_nil, or_false]; rfl
    have x2 : ∀ x, x ∈ gasOil.expected ↔ x = sat .gas ∨ x = sat .oil ∨ x = kr .gas ∨ x = kr .oil ∨ x = pc := by
      intro x; simp only [gasOil, List.mem_cons, List.not_mem_nil, or_false]; rfl
    have x3 : ∀ x, x ∈ gasWater.expected ↔ x = sat .gas ∨ x = sat .water ∨ x = kr .gas ∨ x = kr .water ∨ x = pc := by
      intro x; simp only [gasWater, List.mem_cons, List.not_mem_nil, or_false]; rfl
    by_cases c1 : (a :: rest).all (· ∈ waterOil.expected) = true ∧ 3 ≤ (a :: rest).length
    · exact key _ _ (by decide) _ x1 c1.1
    rw [if_neg c1] at h
    by_cases c2 : (a :: rest).all (· ∈ gasOil.expected) = true ∧ 3 ≤ (a :: rest).length
    · exact key _ _ (by decide) _ x2 c2.1
    rw [if_neg c2] at h
    by_cases c3 : (a :: rest).all (· ∈ gasWater.expected) = true ∧ 3 ≤ (a :: rest).length
    · exact key _ _ (by decide) _ x3 c3.1
    rw [if_neg c3] at h
    simp at h

theorem inferred_layout {p q : Phase} (hpq : p ≠ q) {cols : List Word} (h : Layout p q cols) : inferred cols = .ok (usual p q) := by
  rcases h with rfl | rfl | rfl | rfl <;> cases p <;> cases q <;> first | exact absurd rfl hpq | decide

theorem pc_last {p q : Phase} (hpq : p ≠ q) {cols : List Word} (h : Layout p q cols) : ¬ ("Pc".toList ∈ cols ∧ cols.getLast? ≠ some "Pc".toList) := by
  rcases h with rfl | rfl | rfl | rfl <;> cases p <;> cases q <;> first | exact absurd rfl hpq | decide

/-- The combination of a table whose columns are those of two phases, if these or none are named. -/
theorem comboOf_layout {combo : Option Word} {index : Option Int} {p q : Phase} (hpq : p ≠ q) {cols : List Word} (h : Layout p q cols)
    (hi : ∀ i, index = some i → 1 ≤ i) :
    (Named combo p q → comboOf combo index cols = .ok (combo.getD "None".toList)) ∧ (Unnamed combo → comboOf combo index cols = .ok (usual p q)) := by
  have hidx : (index.any fun i => decide (i < 1)) = false := by
    cases index with
    | none => rfl
    | some i =>
      have := hi i rfl
      simp
      omega
  constructor
  · intro hnm
    rw [named_iff] at hnm
    unfold comboOf
    dsimp only
    have f1 : ∀ a b : List Word, sameSet (phasesIn combo) a = true → sameSet a b = false → sameSet (phasesIn combo) b = false := by
      intro a b h1 h2
      rw [Bool.eq_false_iff]
      intro h3
      rw [sameSet_unique h1 h3] at h2
      simp at h2
    cases p <;> cases q <;> first | exact absurd rfl hpq | skip
    all_goals simp only [Phase.name] at hnm
    · have hnm' := hnm; rw [sameSet_swap] at hnm'
      rw [hnm']
      simp only [Bool.true_or, Bool.not_true, Bool.false_eq_true, if_false, hidx, if_true]
      rw [layout_check (p := .water) (q := .oil) hpq rfl (by intro x; simp only [waterOil, List.mem_cons, List.not_mem_nil, or_false]; rfl) h (by simp)]
      rfl
    · have hnm' := hnm; rw [sameSet_swap] at hnm'
      rw [hnm', f1 _ ["oil".toList, "water".toList] hnm (by decide), f1 _ ["gas".toList, "oil".toList] hnm (by decide)]
      simp only [Bool.true_or, Bool.or_true, Bool.not_true, Bool.false_eq_true, if_false, hidx, if_true]
      rw [layout_check (p := .gas) (q := .water) hpq rfl (by intro x; simp only [gasWater, List.mem_cons, List.not_mem_nil, or_false]; rfl) h (by simp)]
      rfl
    · rw [hnm]
      simp only [Bool.true_or, Bool.not_true, Bool.false_eq_true, if_false, hidx, if_true]
      rw [layout_check (p := .water) (q := .oil) hpq rfl (by intro x; simp only [waterOil, List.mem_cons, List.not_mem_nil, or_false]; rfl) h (by simp)]
      rfl
    · have hnm' := hnm; rw [sameSet_swap] at hnm'
      rw [hnm', f1 _ ["oil".toList, "water".toList] hnm (by decide)]
      simp only [Bool.true_or, Bool.or_true, Bool.not_true, Bool.false_eq_true, if_false, hidx, if_true]
      rw [layout_check (p := .gas) (q := .oil) hpq rfl (by intro x; simp only [gasOil, List.mem_cons, List.not_mem_nil, or_false]; rfl) h (by simp)]
      rfl
    · rw [hnm, f1 _ ["oil".toList, "water".toList] hnm (by decide), f1 _ ["gas".toList, "oil".toList] hnm (by decide)]
      simp only [Bool.true_or, Bool.or_true, Bool.not_true, Bool.false_eq_true, if_false, hidx, if_true]
      rw [layout_check (p := .gas) (q := .water) hpq rfl (by intro x; simp only [gasWater, List.mem_cons, List.not_mem_nil, or_false]; rfl) h (by simp)]
      rfl
    · rw [hnm, f1 _ ["oil".toList, "water".toList] hnm (by decide)]
      simp only [Bool.true_or, Bool.or_true, Bool.not_true, Bool.false_eq_true, if_false, hidx, if_true]
      rw [layout_check (p := .gas) (q := .oil) hpq rfl (by intro x; simp only [gasOil, List.mem_cons, List.not_mem_nil, or_false]; rfl) h (by simp)]
      rfl
  · intro hu
    rw [unnamed_iff] at hu
    have f1 : ∀ b : List Word, sameSet ["None".toList] b = false → sameSet (phasesIn combo) b = false := by
      intro b h2
      rw [Bool.eq_false_iff]
      intro h3
      rw [sameSet_unique hu h3] at h2
      simp at h2
    unfold comboOf
    dsimp only
    rw [hu, f1 ["oil".toList, "water".toList] (by decide), f1 ["gas".toList, "oil".toList] (by decide), f1 ["gas".toList, "water".toList] (by decide)]
    simp only [Bool.or_true, Bool.not_true, Bool.false_eq_true, if_false, hidx]
    exact inferred_layout hpq h

/-- What is known if a combination is found. -/
theorem comboOf_ok {combo : Option Word} {index : Option Int} {cols : List Word} (hn : cols.Nodup) {w : Word} (h : comboOf combo index cols = .ok w) :
    (∀ i, index = some i → 1 ≤ i) ∧ ∃ p q rest, p ≠ q ∧ (Named combo p q ∨ Unnamed combo) ∧ cols = sat p :: rest ∧ ∀ x ∈ rest, x = kr p ∨ x = kr q ∨ x = pc := by
  unfold comboOf at h
  simp only at h
  by_cases k : (!(sameSet (phasesIn combo) ["oil".toList, "water".toList] || sameSet (phasesIn combo) ["gas".toList, "oil".toList] ||
      sameSet (phasesIn combo) ["gas".toList, "water".toList] || sameSet (phasesIn combo) ["None".toList])) = true
  · rw [if_pos k] at h
    simp at h
  rw [if_neg k] at h
  by_cases hi : (index.any fun i => decide (i < 1)) = true
  · rw [if_pos hi] at h
    simp at h
  rw [if_neg hi] at h
  refine ⟨?_, ?_⟩
  · rintro i rfl
    simp at hi
    exact hi
  have fin : ∀ (c : Check) (p q : Phase), p ≠ q → c.sats = [sat p, sat q] → (∀ x, x ∈ c.expected ↔ x = sat p ∨ x = sat q ∨ x = kr p ∨ x = kr q ∨ x = pc) →
      Named combo p q → (errorCheck c cols).map (fun _ => combo.getD "None".toList) = .ok w →
      ∃ p q rest, p ≠ q ∧ (Named combo p q ∨ Unnamed combo) ∧ cols = sat p :: rest ∧ ∀ x ∈ rest, x = kr p ∨ x = kr q ∨ x = pc := by
    intro c p q hpq hs he hnm hc
    have : errorCheck c cols = .ok () := by
      cases e : errorCheck c cols with
      | error x => rw [e] at hc; cases hc
      | ok u => rfl
    rcases check_ok hpq hs he hn this with ⟨rest, e, hr⟩ | ⟨rest, e, hr⟩
    · exact ⟨p, q, rest, hpq, Or.inl hnm, e, hr⟩
    · exact ⟨q, p, rest, hpq.symm, Or.inl ⟨hnm.2.1, hnm.1, fun w hw => (hnm.2.2 w hw).symm⟩, e, hr⟩
  by_cases k1 : sameSet (phasesIn combo) ["oil".toList, "water".toList] = true
  · rw [if_pos k1] at h
    refine fin waterOil .water .oil (by decide) rfl (by intro x; simp only [waterOil, List.mem_cons, List.not_mem_nil, or_false]; rfl) ?_ h
    rw [named_iff, sameSet_swap]
    exact k1
  rw [if_neg k1] at h
  by_cases k2 : sameSet (phasesIn combo) ["gas".toList, "oil".toList] = true
  · rw [if_pos k2] at h
    refine fin gasOil .gas .oil (by decide) rfl (by intro x; simp only [gasOil, List.mem_cons, List.not_mem_nil, or_false]; rfl) ?_ h
    rw [named_iff]
    exact k2
  rw [if_neg k2] at h
  by_cases k3 : sameSet (phasesIn combo) ["gas".toList, "water".toList] = true
  · rw [if_pos k3] at h
    refine fin gasWater .gas .water (by decide) rfl (by intro x; simp only [gasWater, List.mem_cons, List.not_mem_nil, or_false]; rfl) ?_ h
    rw [named_iff]
    exact k3
  rw [if_neg k3] at h
  obtain ⟨p, q, rest, hpq, e, hr⟩ := inferred_ok hn h
  refine ⟨p, q, rest, hpq, Or.inr ?_, e, hr⟩
  rw [unnamed_iff]
  simp only [Bool.not_eq_true] at k1 k2 k3
  rw [k1, k2, k3] at k
  simpa using k

/-- C191: a dataframe is accepted exactly if its index is not below 1 and it is a table of two phases, namely those named if any are, whose saturations and
permeabilities are there, lie between 0 and 1 and are monotonic in the right sense, and whose capillary pressures are monotonic; names of columns may be in any case. -/
theorem C191_accepted (combo : Option Word) (low : Bool) (index : Option Int) (df : Frame) (hn : (df.cols.map capitalize).Nodup) :
    (∃ r, newRel combo low index df = .ok r) ↔ (∀ i, index = some i → 1 ≤ i) ∧
      ∃ p q, p ≠ q ∧ (Named combo p q ∨ Unnamed combo) ∧ Good ⟨df.cols.map capitalize, df.rows⟩ p q := by
  constructor
  · rintro ⟨r, h⟩
    unfold newRel at h
    simp only at h
    by_cases h1 : "Pc".toList ∈ df.cols.map capitalize ∧ (df.cols.map capitalize).getLast? ≠ some "Pc".toList
    · rw [if_pos h1] at h
      simp at h
    rw [if_neg h1] at h
    cases e : comboOf combo index (df.cols.map capitalize) with
    | error x => rw [e] at h; cases h
    | ok c =>
      rw [e] at h
      simp only at h
      obtain ⟨hi, p, q, rest, hpq, hnm, hc, hsub⟩ := comboOf_ok hn e
      by_cases h2 : missing ⟨df.cols.map capitalize, df.rows⟩ = true
      · rw [if_pos h2] at h
        simp at h
      rw [if_neg h2] at h
      cases e2 : monotonic ⟨df.cols.map capitalize, df.rows⟩ with
      | error x => rw [e2] at h; cases h
      | ok u =>
        rw [e2] at h
        simp only at h
        by_cases h3 : inRange ⟨df.cols.map capitalize, df.rows⟩ = true
        · obtain ⟨ha, hb⟩ := monotonic_needs hpq hc hsub e2
          have hl : Layout p q (df.cols.map capitalize) := by
            rw [hc] at hn h1 ⊢
            exact layout_of hpq hn hsub (fun hp => by by_contra hx; exact h1 ⟨hp, hx⟩) ha hb
          refine ⟨hi, p, q, hpq, hnm, hl, ?_, ?_, ?_⟩
          · exact (whole_iff (t := ⟨df.cols.map capitalize, df.rows⟩) hpq hl).1 ⟨by simpa using h2, h3⟩
          · exact ((monotonic_ok (t := ⟨df.cols.map capitalize, df.rows⟩) hpq hl).1 e2).1
          · exact ((monotonic_ok (t := ⟨df.cols.map capitalize, df.rows⟩) hpq hl).1 e2).2
        · rw [if_neg h3] at h
          simp at h
  · rintro ⟨hi, p, q, hpq, hnm, hg⟩
    have hl : Layout p q (df.cols.map capitalize) := hg.layout
    obtain ⟨w1, w2⟩ := (whole_iff (t := ⟨df.cols.map capitalize, df.rows⟩) hpq hl).2 hg.whole
    have hm := (monotonic_ok (t := ⟨df.cols.map capitalize, df.rows⟩) hpq hl).2 ⟨hg.along, hg.pressure⟩
    have hcc : ∃ c, comboOf combo index (df.cols.map capitalize) = .ok c := by
      rcases hnm with hnm | hnm
      · exact ⟨_, (comboOf_layout hpq hl hi).1 hnm⟩
      · exact ⟨_, (comboOf_layout hpq hl hi).2 hnm⟩
    obtain ⟨c, hc⟩ := hcc
    refine ⟨⟨⟨df.cols.map capitalize, df.rows⟩, c, .bool low⟩, ?_⟩
    unfold newRel
    simp only
    rw [if_neg (pc_last hpq hl), hc]
    simp only
    rw [if_neg (by simp [w1]), hm]
    simp only
    rw [if_pos w2]

/-- C191: the table has the rows and columns given, with names in the usual case; its combination of phases is the one given, or if there is none that of the
phases of its columns. -/
theorem C191_kept (combo : Option Word) (low : Bool) (index : Option Int) (df : Frame) (hn : (df.cols.map capitalize).Nodup) {r : Rel}
    (h : newRel combo low index df = .ok r) : r.frame.rows = df.rows ∧ r.frame.cols = df.cols.map capitalize ∧ r.low = .bool low ∧
      ∃ p q, p ≠ q ∧ Good r.frame p q ∧ (Named combo p q → combo = some r.combo) ∧ (Unnamed combo → r.combo = usual p q) := by
  obtain ⟨hi, p, q, hpq, hnm, hg⟩ := (C191_accepted combo low index df hn).1 ⟨r, h⟩
  have hl : Layout p q (df.cols.map capitalize) := hg.layout
  obtain ⟨w1, w2⟩ := (whole_iff (t := ⟨df.cols.map capitalize, df.rows⟩) hpq hl).2 hg.whole
  have hm := (monotonic_ok (t := ⟨df.cols.map capitalize, df.rows⟩) hpq hl).2 ⟨hg.along, hg.pressure⟩
  unfold newRel at h
  simp only at h
  rw [if_neg (pc_last hpq hl)] at h
  cases e : comboOf combo index (df.cols.map capitalize) with
  | error x => rw [e] at h; cases h
  | ok c =>
    rw [e] at h
    simp only at h
    rw [if_neg (by simp [w1]), hm] at h
    simp only at h
    rw [if_pos w2] at h
    simp only [Except.ok.injEq] at h
    subst h
    refine ⟨rfl, rfl, rfl, p, q, hpq, hg, fun hh => ?_, fun hh => ?_⟩
    · have := (comboOf_layout hpq hl hi).1 hh
      rw [e] at this
      simp only [Except.ok.injEq] at this
      subst this
      cases combo with
      | some w => rfl
      | none =>
        exfalso
        have := hh.2.2 "None".toList (by decide)
        revert this
        cases p <;> cases q <;> decide
    · have := (comboOf_layout hpq hl hi).2 hh
      rw [e] at this
      simp only [Except.ok.injEq] at this
      exact this

/-- A table of water and oil. -/
def exFrame : Frame := ⟨["SW".toList, "KRW".toList, "kro".toList, "Pc".toList],
  [[some (1/10), some 0, some 1, some 5], [some (1/2), some (1/4), some (1/2), none], [some (9/10), some 1, some 0, some 1]]⟩

example : (exFrame.cols.map capitalize).Nodup ∧ (newRel (some "oil-water".toList) true (some 1) exFrame).toOption.isSome ∧ Named (some "oil-water".toList) .water .oil ∧
    (newRel none false none exFrame).toOption.map Rel.combo = some "water-oil".toList ∧ Unnamed none := by
  refine ⟨by decide, by decide +kernel, ⟨by decide, by decide, by decide⟩, by decide +kernel, by unfold Unnamed; decide⟩

theorem dropWhile_blanks (n : Nat) {w : Word} (h : ∀ c, w.head? = some c → c ≠ ' ') : (List.replicate n ' ' ++ w).dropWhile (· = ' ') = w := by
  induction n with
  | zero =>
    cases w with
    | nil => rfl
    | cons c w => simp [h c rfl]
  | succ n ih =>
    rw [List.replicate_succ, List.cons_append, List.dropWhile_cons, if_pos (by simp)]
    exact ih

theorem strip_blanks (i j : Nat) {w : Word} (h : ∀ c, w.head? = some c → c ≠ ' ') (h2 : ∀ c, w.reverse.head? = some c → c ≠ ' ') (hne : w ≠ []) :
    strip (List.replicate i ' ' ++ w ++ List.replicate j ' ') = w := by
  unfold strip
  rw [List.append_assoc, dropWhile_blanks i, List.reverse_append, List.reverse_replicate, dropWhile_blanks j h2, List.reverse_reverse]
  intro c hc
  cases w with
  | nil => exact absurd rfl hne
  | cons d w => exact h c (by simpa using hc)

/-- C191: two phases are named by their names with a hyphen between, in any order and with blanks around them; if nothing is given none is named. -/
theorem C191_phases (p q : Phase) (i j k l : Nat) :
    Named (some (List.replicate i ' ' ++ p.name ++ List.replicate j ' ' ++ ['-'] ++ (List.replicate k ' ' ++ q.name ++ List.replicate l ' '))) p q ∧
    Named (some (List.replicate i ' ' ++ p.name ++ List.replicate j ' ' ++ ['-'] ++ (List.replicate k ' ' ++ q.name ++ List.replicate l ' '))) q p ∧ Unnamed none := by
  have hs : ∀ p : Phase, ∀ i j, strip (List.replicate i ' ' ++ p.name ++ List.replicate j ' ') = p.name := by
    intro p i j
    apply strip_blanks <;> cases p <;> simp [Phase.name]
  have hh : ∀ p : Phase, ∀ i j, '-' ∉ List.replicate i ' ' ++ p.name ++ List.replicate j ' ' := by
    intro p i j
    cases p <;> simp [Phase.name]
  have e : phasesIn (some (List.replicate i ' ' ++ p.name ++ List.replicate j ' ' ++ ['-'] ++ (List.replicate k ' ' ++ q.name ++ List.replicate l ' '))) = [p.name, q.name] := by
    unfold phasesIn
    have e1 : (List.replicate i ' ' ++ p.name ++ List.replicate j ' ' ++ ['-'] ++ (List.replicate k ' ' ++ q.name ++ List.replicate l ' ')) =
        ['-'].intercalate [List.replicate i ' ' ++ p.name ++ List.replicate j ' ', List.replicate k ' ' ++ q.name ++ List.replicate l ' '] := by
      simp [List.intercalate]
    rw [Option.getD_some, e1, List.splitOn_intercalate]
    · simp only [List.map_cons, List.map_nil, hs]
    · intro w hw
      simp only [List.mem_cons, List.not_mem_nil, or_false] at hw
      rcases hw with rfl | rfl
      · exact hh _ _ _
      · exact hh _ _ _
    · simp
  refine ⟨?_, ?_, ?_⟩
  · unfold Named
    rw [e]
    simp
  · unfold Named
    rw [e]
    simp [or_comm]
  · unfold Unnamed
    decide

/-- C191: other names are refused: phases which are not two of water, oil and gas. -/
theorem C191_other_phases {combo : Option Word} (low : Bool) (index : Option Int) (df : Frame) (h1 : ¬ Unnamed combo) (h2 : ∀ p q, p ≠ q → ¬ Named combo p q) :
    ¬ ∃ r, newRel combo low index df = .ok r := by
  rintro ⟨r, h⟩
  have key : ∀ a b : Phase, sameSet (phasesIn combo) [a.name, b.name] = true → Named combo a b := by
    intro a b hs
    unfold sameSet at hs
    rw [Bool.and_eq_true, List.all_eq_true, List.all_eq_true] at hs
    refine ⟨?_, ?_, ?_⟩
    · simpa using hs.2 a.name (by simp)
    · simpa using hs.2 b.name (by simp)
    · intro w hw
      simpa using hs.1 w hw
  have hk : (sameSet (phasesIn combo) ["oil".toList, "water".toList] || sameSet (phasesIn combo) ["gas".toList, "oil".toList] ||
      sameSet (phasesIn combo) ["gas".toList, "water".toList] || sameSet (phasesIn combo) ["None".toList]) = false := by
    rw [Bool.eq_false_iff]
    intro hh
    simp only [Bool.or_eq_true] at hh
    rcases hh with ((hh | hh) | hh) | hh
    · exact h2 .oil .water (by decide) (key _ _ hh)
    · exact h2 .gas .oil (by decide) (key _ _ hh)
    · exact h2 .gas .water (by decide) (key _ _ hh)
    · apply h1
      intro w hw
      unfold sameSet at hh
      rw [Bool.and_eq_true, List.all_eq_true] at hh
      simpa using hh.1 w hw
  unfold newRel comboOf at h
  simp only [hk, Bool.not_false, if_true] at h
  split_ifs at h

/-- C191: names of columns may be in upper or lower case, letter by letter. -/
theorem C191_any_case (p : Phase) : (∀ w ∈ spellings (sat p), capitalize w = sat p) ∧ (∀ w ∈ spellings (kr p), capitalize w = kr p) ∧
    (∀ w ∈ spellings pc, capitalize w = pc) := by
  cases p <;> decide

end Verif.RelPerm
