import Verif.Organize.Column
import Verif.Organize.PropsRound2

/-!
# C154: stratigraphic columns, their ranks, units and contacts
-/

namespace Verif.Organize

open Verif.Py

/-! ### Units -/

theorem setUnitsFrom_spec {lu : String → Bool} {s : Store} {us : List Nat} {i : Nat} {l : List (Int × StratUnit)}
    (h : setUnitsFrom lu s i us = .ok l) :
    l.length = us.length ∧ ∀ k (hk : k < us.length) (hk' : k < l.length),
      l[k].1 = (i : Int) + k ∧ typeOf s us[k] = some "StratigraphicUnitInterpretation" ∧ loadStrat lu s us[k] = .ok l[k].2 := by
  induction us generalizing i l with
  | nil =>
    simp only [setUnitsFrom, Except.ok.injEq] at h
    subst h
    simp
  | cons u us ih =>
    rw [setUnitsFrom] at h
    cases e : unitOf lu s u with
    | error x => simp [e] at h
    | ok x =>
      simp only [e] at h
      cases e' : setUnitsFrom lu s (i + 1) us with
      | error y => simp [e'] at h
      | ok xs =>
        simp only [e', Except.ok.injEq] at h
        subst h
        obtain ⟨h1, h2⟩ := ih e'
        refine ⟨by simp [h1], ?_⟩
        intro k hk hk'
        unfold unitOf at e
        split_ifs at e with ht
        cases k with
        | zero => simp [ht, e]
        | succ k =>
          have := h2 k (by simpa using hk) (by simpa using hk')
          simp only [List.getElem_cons_succ]
          refine ⟨?_, this.2⟩
          rw [this.1]
          omega

/-- C154: the units of a rank are those given, in the order given, numbered from zero; each is a stratigraphic unit of the model, and
is found by its number. -/
theorem C154_units {lu : String → Bool} {s : Store} {us : List Nat} {l : List (Int × StratUnit)} (h : setUnits lu s us = .ok l) :
    l.length = us.length ∧
    (∀ k (hk : k < us.length) (hk' : k < l.length), l[k].1 = (k : Int) ∧ typeOf s us[k] = some "StratigraphicUnitInterpretation" ∧
      loadStrat lu s us[k] = .ok l[k].2 ∧ unitForIndex l k = some l[k].2) ∧
    ∀ z : Int, (z < 0 ∨ us.length ≤ z) → unitForIndex l z = none := by
  obtain ⟨h1, h2⟩ := setUnitsFrom_spec h
  have hi : ∀ k (hk' : k < l.length), l[k].1 = (k : Int) := fun k hk' => by
    rw [(h2 k (h1 ▸ hk') hk').1]
    simp
  refine ⟨h1, ?_, ?_⟩
  · intro k hk hk'
    refine ⟨hi k hk', (h2 k hk hk').2.1, (h2 k hk hk').2.2, ?_⟩
    unfold unitForIndex
    have : l.find? (fun u => u.1 == (k : Int)) = some l[k] := by
      rw [List.find?_eq_some_iff_getElem]
      refine ⟨by simp [hi k hk'], k, hk', rfl, ?_⟩
      intro j hj
      rw [hi j (by omega)]
      simp
      omega
    rw [this]
    rfl
  · intro z hz
    unfold unitForIndex
    rw [Option.map_eq_none_iff, List.find?_eq_none]
    intro u hu
    obtain ⟨k, hk, rfl⟩ := List.mem_iff_getElem.1 hu
    rw [hi k hk]
    simp
    omega

theorem setUnitsFrom_total {lu : String → Bool} {s : Store} {us : List Nat} (i : Nat)
    (h : ∀ u ∈ us, typeOf s u = some "StratigraphicUnitInterpretation" ∧ ∃ x, loadStrat lu s u = .ok x) :
    ∃ l, setUnitsFrom lu s i us = .ok l := by
  induction us generalizing i with
  | nil => exact ⟨[], rfl⟩
  | cons u us ih =>
    obtain ⟨l, hl⟩ := ih (i + 1) fun v hv => h v (by simp [hv])
    obtain ⟨ht, x, hx⟩ := h u (by simp)
    refine ⟨((i : Int), x) :: l, ?_⟩
    rw [setUnitsFrom]
    simp [unitOf, ht, hx, hl]

/-- C154: units which are stratigraphic units of the model and load are accepted, whatever their number. -/
theorem C154_units_accepted {lu : String → Bool} {s : Store} {us : List Nat}
    (h : ∀ u ∈ us, typeOf s u = some "StratigraphicUnitInterpretation" ∧ ∃ x, loadStrat lu s u = .ok x) :
    ∃ l, setUnits lu s us = .ok l := setUnitsFrom_total 0 h

/-! ### Contacts -/

theorem contactsFrom_spec {s : Store} {units : List (Int × StratUnit)} {older younger : Option String} {hs : List Nat} {i : Nat}
    {cs : List Contact} (h : contactsFrom s units older younger i hs = .ok cs) :
    cs.length = hs.length ∧ ∀ k (hk : k < hs.length) (hk' : k < cs.length), ∃ a b : Int × StratUnit, units[i + k]? = some a ∧
      units[i + k + 1]? = some b ∧ typeOf s hs[k] = some "HorizonInterpretation" ∧
      cs[k] = ⟨((i + k : Nat) : Int), "stratigraphic unit to stratigraphic unit", "stops at", a.2.uuid, b.2.uuid, some "older", older,
        some "younger", younger, some hs[k]⟩ := by
  induction hs generalizing i cs with
  | nil =>
    simp only [contactsFrom, Except.ok.injEq] at h
    subst h
    simp
  | cons u hs ih =>
    rw [contactsFrom] at h
    split_ifs at h with ht
    cases ea : units[i]? with
    | none => simp [ea] at h
    | some a =>
      cases eb : units[i + 1]? with
      | none => simp [ea, eb] at h
      | some b =>
        simp only [ea, eb] at h
        cases ec : mkContact ⟨i, "stratigraphic unit to stratigraphic unit", "stops at", a.2.uuid, b.2.uuid, some "older", older,
            some "younger", younger, some u⟩ with
        | error x => simp [ec] at h
        | ok c =>
          simp only [ec] at h
          cases e' : contactsFrom s units older younger (i + 1) hs with
          | error x => simp [e'] at h
          | ok xs =>
            simp only [e', Except.ok.injEq] at h
            subst h
            obtain ⟨h1, h2⟩ := ih e'
            have hc : c = ⟨i, "stratigraphic unit to stratigraphic unit", "stops at", a.2.uuid, b.2.uuid, some "older", older,
                some "younger", younger, some u⟩ := by
              unfold mkContact at ec
              split_ifs at ec
              simpa [eq_comm] using ec
            refine ⟨by simp [h1], ?_⟩
            intro k hk hk'
            cases k with
            | zero => exact ⟨a, b, ea, eb, ht, by simp [hc]⟩
            | succ k =>
              obtain ⟨a', b', x1, x2, x3, x4⟩ := h2 k (by simpa using hk) (by simpa using hk')
              refine ⟨a', b', by rw [← x1]; congr 1; omega, by rw [← x2]; congr 1; omega, x3, ?_⟩
              simp only [List.getElem_cons_succ]
              rw [x4]
              congr 1
              omega

/-- C154: contacts made from horizons: one for each horizon, in order and numbered from zero, the older unit below being the subject and the
younger unit above the direct object; the horizons are horizon interpretations, one fewer than there are units. -/
theorem C154_contacts {s : Store} {r r' : Rank} {hs : List Nat} {older younger : Option String}
    (h : setContacts s r hs older younger = .ok r') :
    hs.length + 1 = r.units.length ∧ r' = { r with contacts := r'.contacts } ∧ r'.contacts.length = hs.length ∧
    ∀ k (hk : k < hs.length) (hk' : k < r'.contacts.length) (hu : k + 1 < r.units.length),
      typeOf s hs[k] = some "HorizonInterpretation" ∧ r'.contacts[k].index = (k : Int) ∧
      r'.contacts[k].subject = (r.units[k]'(by omega)).2.uuid ∧ r'.contacts[k].object = r.units[k + 1].2.uuid ∧
      r'.contacts[k].subjectSide = some "older" ∧ r'.contacts[k].objectSide = some "younger" ∧
      r'.contacts[k].subjectMode = older ∧ r'.contacts[k].objectMode = younger ∧ r'.contacts[k].partOf = some hs[k] := by
  unfold setContacts at h
  split_ifs at h with hl
  cases e : contactsFrom s r.units older younger 0 hs with
  | error x => simp [e] at h
  | ok cs =>
    simp only [e, Except.ok.injEq] at h
    subst h
    obtain ⟨h1, h2⟩ := contactsFrom_spec e
    refine ⟨by omega, rfl, h1, ?_⟩
    intro k hk hk' hu
    obtain ⟨a, b, x1, x2, x3, x4⟩ := h2 k hk hk'
    simp only [Nat.zero_add] at x1 x2 x4
    rw [List.getElem?_eq_some_iff] at x1 x2
    obtain ⟨_, y1⟩ := x1
    obtain ⟨_, y2⟩ := x2
    rw [x4, y1, y2]
    exact ⟨x3, rfl, rfl, rfl, rfl, rfl, rfl, rfl, rfl⟩

/-- C154: a list of horizons of another length is refused. -/
theorem C154_contacts_refused {s : Store} {r : Rank} {hs : List Nat} {older younger : Option String}
    (h : hs.length + 1 ≠ r.units.length) : setContacts s r hs older younger = .error .assertion := by
  unfold setContacts
  rw [if_neg (by omega)]

theorem contactsFrom_total {s : Store} {units : List (Int × StratUnit)} {older younger : Option String} {hs : List Nat} {i : Nat}
    (hl : i + hs.length < units.length ∨ hs = []) (ho : listed validModes older = true) (hy : listed validModes younger = true)
    (ht : ∀ u ∈ hs, typeOf s u = some "HorizonInterpretation") : ∃ cs, contactsFrom s units older younger i hs = .ok cs := by
  induction hs generalizing i with
  | nil => exact ⟨[], rfl⟩
  | cons u hs ih =>
    simp only [List.length_cons, reduceCtorEq, or_false] at hl
    obtain ⟨cs, hcs⟩ := ih (i := i + 1) (Or.inl (by omega)) fun v hv => ht v (by simp [hv])
    have e : ∀ a b, mkContact ⟨i, "stratigraphic unit to stratigraphic unit", "stops at", a, b, some "older", older,
        some "younger", younger, some u⟩ = .ok ⟨i, "stratigraphic unit to stratigraphic unit", "stops at", a, b, some "older", older,
        some "younger", younger, some u⟩ := by
      intro a b
      unfold mkContact
      rw [if_pos]
      simp only [ho, hy]
      exact ⟨by simp, by decide +kernel, by decide +kernel, by decide +kernel, trivial, by decide +kernel, trivial⟩
    rw [contactsFrom, if_pos (ht u (by simp)), List.getElem?_eq_getElem (by omega : i < units.length),
      List.getElem?_eq_getElem (by omega : i + 1 < units.length)]
    simp only [e, hcs]
    exact ⟨_, rfl⟩

/-- C154: horizon interpretations of the right number are accepted, with modes which are allowed or missing. -/
theorem C154_contacts_accepted {s : Store} {r : Rank} {hs : List Nat} {older younger : Option String}
    (hl : hs.length + 1 = r.units.length) (ho : ∀ m, older = some m → m ∈ validModes) (hy : ∀ m, younger = some m → m ∈ validModes)
    (ht : ∀ u ∈ hs, typeOf s u = some "HorizonInterpretation") : ∃ r', setContacts s r hs older younger = .ok r' := by
  have key : ∀ o : Option String, (∀ m, o = some m → m ∈ validModes) → listed validModes o = true := by
    intro o h
    cases o with
    | none => rfl
    | some m => simp [listed, h m rfl]
  obtain ⟨cs, hcs⟩ := contactsFrom_total (units := r.units) (i := 0) (Or.inl (by omega)) (key _ ho) (key _ hy) ht
  unfold setContacts
  rw [if_pos (by omega), hcs]
  exact ⟨_, rfl⟩

/-! ### Ranks of a column -/

theorem rankLe_trans (a b c : Rank) : rankLe a b = true → rankLe b c = true → rankLe a c = true := by
  simp only [rankLe, decide_eq_true_eq]
  omega

theorem rankLe_total (a b : Rank) : (rankLe a b || rankLe b a) = true := by
  simp only [rankLe, Bool.or_eq_true, decide_eq_true_eq]
  omega

theorem filter_sort (l : List Rank) (z : Int) :
    (l.mergeSort rankLe).filter (fun r => r.index.getD 0 == z) = l.filter fun r => r.index.getD 0 == z := by
  have hp : (l.mergeSort rankLe).Perm l := List.mergeSort_perm l rankLe
  have hs : (l.filter fun r => r.index.getD 0 == z).Sublist (l.mergeSort rankLe) := by
    apply List.sublist_mergeSort rankLe_trans rankLe_total _ List.filter_sublist
    rw [List.pairwise_filter]
    rw [List.pairwise_iff_forall_sublist]
    intro a b _ ha hb
    simp only [beq_iff_eq] at ha hb
    simp [rankLe, ha, hb]
  have hs' : (l.filter fun r => r.index.getD 0 == z).Sublist ((l.mergeSort rankLe).filter fun r => r.index.getD 0 == z) := by
    have := hs.filter fun r => r.index.getD 0 == z
    rwa [List.filter_filter, show (fun a : Rank => (a.index.getD 0 == z && a.index.getD 0 == z)) = fun r => r.index.getD 0 == z by
      funext a; simp] at this
  exact (hs'.eq_of_length (hp.filter _).length_eq.symm).symm

/-- C154: whatever ranks are added to a column, one after the other, its ranks are those added, in the order of their numbers; ranks with
the same number are in the order they were added in. -/
theorem C154_add_ranks {rs out : List Rank} (h : addRanks [] rs = .ok out) :
    out.Perm rs ∧ out.Pairwise (fun a b => a.index.getD 0 ≤ b.index.getD 0) ∧ (∀ r ∈ rs, r.index.isSome) ∧
    ∀ z : Int, out.filter (fun r => r.index.getD 0 == z) = rs.filter fun r => r.index.getD 0 == z := by
  have gen : ∀ (rs pre out : List Rank), addRanks pre rs = .ok out → pre.Pairwise (fun a b => a.index.getD 0 ≤ b.index.getD 0) →
      out.Perm (pre ++ rs) ∧ out.Pairwise (fun a b => a.index.getD 0 ≤ b.index.getD 0) ∧ (∀ r ∈ rs, r.index.isSome) ∧
      ∀ z : Int, out.filter (fun r => r.index.getD 0 == z) = (pre ++ rs).filter fun r => r.index.getD 0 == z := by
    intro rs
    induction rs with
    | nil =>
      intro pre out h hp
      simp only [addRanks, Except.ok.injEq] at h
      subst h
      simp [hp]
    | cons r rs ih =>
      intro pre out h hp
      rw [addRanks, addRank] at h
      cases e : r.index with
      | none => simp [e] at h
      | some i =>
        simp only [e] at h
        have hs : ((pre ++ [r]).mergeSort rankLe).Pairwise (fun a b => a.index.getD 0 ≤ b.index.getD 0) := by
          have := List.pairwise_mergeSort rankLe_trans rankLe_total (pre ++ [r])
          exact this.imp fun h => by simpa [rankLe] using h
        obtain ⟨h1, h2, h3, h4⟩ := ih _ _ h hs
        refine ⟨?_, h2, ?_, ?_⟩
        · refine h1.trans ?_
          have := (List.mergeSort_perm (pre ++ [r]) rankLe).append_right rs
          simpa using this
        · intro q hq
          rcases List.mem_cons.1 hq with rfl | hq
          · simp [e]
          · exact h3 q hq
        · intro z
          rw [h4 z, List.filter_append]
          rw [filter_sort (pre ++ [r]) z, ← List.filter_append, List.append_assoc]
          rfl
  simpa using gen rs [] out h List.Pairwise.nil

/-- three ranks, two of them with the same number -/
example : let r := fun (u : Nat) (i : Int) => (⟨u, none, [], none, none, (none, none), some i, [], []⟩ : Rank)
    addRanks [] [r 1 2, r 2 0, r 3 2, r 4 1] = .ok [r 2 0, r 4 1, r 1 2, r 3 2] := by
  simp [addRanks, addRank, List.mergeSort, List.MergeSort.Internal.splitInTwo, List.merge, rankLe]

end Verif.Organize
