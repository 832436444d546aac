import Verif.DataTable.Spec
import Mathlib.Data.List.Basic
import Mathlib.Data.List.Nodup
import Mathlib.Order.Lattice
import Mathlib.Order.Basic

/-! # Lemmas on data frames kept in a model -/

namespace Verif.DataTable
open Verif.Py

variable {α : Type}

/-- Later states of the model have what was there, and new objects have new identifiers. -/
structure Grows (s s' : Store α) : Prop where
  meshes : ∃ M, s'.meshes = s.meshes ++ M ∧ ∀ m ∈ M, s.next ≤ m.uuid
  lookups : ∃ L, s'.lookups = s.lookups ++ L ∧ ∀ l ∈ L, s.next ≤ l.uuid
  series : s'.series = s.series
  next : s.next ≤ s'.next

theorem Grows.refl (s : Store α) : Grows s s := ⟨⟨[], by simp⟩, ⟨[], by simp⟩, rfl, le_refl _⟩

theorem Grows.trans {a b c : Store α} (h1 : Grows a b) (h2 : Grows b c) : Grows a c := by
  obtain ⟨⟨M1, e1, k1⟩, ⟨L1, f1, l1⟩, s1, n1⟩ := h1
  obtain ⟨⟨M2, e2, k2⟩, ⟨L2, f2, l2⟩, s2, n2⟩ := h2
  refine ⟨⟨M1 ++ M2, by rw [e2, e1, List.append_assoc], ?_⟩, ⟨L1 ++ L2, by rw [f2, f1, List.append_assoc], ?_⟩, by rw [s2, s1], le_trans n1 n2⟩
  · intro m hm
    rcases List.mem_append.1 hm with h | h
    · exact k1 m h
    · exact le_trans n1 (k2 m h)
  · intro m hm
    rcases List.mem_append.1 hm with h | h
    · exact l1 m h
    · exact le_trans n1 (l2 m h)

theorem mesh_grows {s s' : Store α} (h : Grows s s') {u : Nat} {m : Mesh α} (hm : s.mesh? u = some m) : s'.mesh? u = some m := by
  obtain ⟨M, e, _⟩ := h.meshes
  unfold Store.mesh? at hm ⊢
  rw [e, List.find?_append, hm]
  rfl

theorem mesh_mem {s : Store α} {u : Nat} {m : Mesh α} (hm : s.mesh? u = some m) : m ∈ s.meshes ∧ m.uuid = u := by
  unfold Store.mesh? at hm
  exact ⟨List.mem_of_find?_eq_some hm, by simpa using List.find?_some hm⟩

theorem lookups_grow {s s' : Store α} (hs : Sound s) (h : Grows s s') {m : Mesh α} (hm : m ∈ s.meshes) (title : String) :
    relatedLookups s' m title = relatedLookups s m title := by
  obtain ⟨L, e, k⟩ := h.lookups
  unfold relatedLookups
  suffices h0 : L.filter (fun l => decide (l.uuid ∈ m.related ∧ l.title = title)) = [] by
    rw [e, List.filter_append, h0, List.append_nil]
  rw [List.filter_eq_nil_iff]
  intro l hl hc
  simp only [decide_eq_true_eq] at hc
  have := hs.related m hm _ hc.1
  have := k l hl
  omega

theorem load_grows {s s' : Store α} (hs : Sound s) (h : Grows s s') {u : Nat} {df : Option (Frame α)} {r : Option Int} {o : Obj α} (hl : load s u df r = .ok o) :
    load s' u df r = .ok o := by
  unfold load at hl ⊢
  cases e : s.mesh? u with
  | none => rw [e] at hl; cases hl
  | some m =>
    rw [e] at hl
    rw [mesh_grows h e]
    simp only at hl ⊢
    rw [lookups_grow hs h (mesh_mem e).1, lookups_grow hs h (mesh_mem e).1]
    exact hl

theorem series_grow {s s' : Store α} (h : Grows s s') (m : Mesh α) : relatedSeries s' m = relatedSeries s m := by
  unfold relatedSeries
  rw [h.series]

/-- While a mesh is being written: it is the last one. -/
theorem relate_last {s : Store α} {M : List (Mesh α)} {m : Mesh α} (hs : s.meshes = M ++ [m]) (hM : ∀ x ∈ M, x.uuid ≠ m.uuid) (u : Nat) :
    relate s (some m.uuid) u = { s with meshes := M ++ [{ m with related := m.related ++ [u] }] } := by
  unfold relate
  rw [hs, List.map_append]
  congr 2
  · conv_rhs => rw [← List.map_id M]
    apply List.map_congr_left
    intro x hx
    simp [hM x hx]
  · simp

/-- The part of `Sound` which is about lookups and series. -/
structure Ids (s : Store α) : Prop where
  once : (s.lookups.map Lookup.uuid).Nodup
  lookups : ∀ l ∈ s.lookups, l.uuid < s.next
  series : ∀ t ∈ s.series, t.1 < s.next
  apart : ∀ l ∈ s.lookups, ∀ t ∈ s.series, l.uuid ≠ t.1

theorem createLookup_spec {s : Store α} (hs : Ids s) (title : String) (names : List String) : ∃ l L n,
    createLookup s title names = ({ s with next := n, lookups := s.lookups ++ L }, l) ∧ l ∈ s.lookups ++ L ∧ l.title = title ∧ l.names = names ∧
      (∀ x ∈ L, s.next ≤ x.uuid) ∧ s.next ≤ n ∧ n ≤ s.next + 1 ∧ Ids { s with next := n, lookups := s.lookups ++ L } := by
  unfold createLookup
  cases h : s.lookups.find? (fun l => l.title = title ∧ l.names = names) with
  | some l =>
    have := List.find?_some h
    simp only [decide_eq_true_eq] at this
    exact ⟨l, [], s.next, by simp, by simpa using List.mem_of_find?_eq_some h, this.1, this.2, by simp, le_refl _, by omega, by simpa using hs⟩
  | none =>
    refine ⟨⟨s.next, title, names⟩, [⟨s.next, title, names⟩], s.next + 1, rfl, by simp, rfl, rfl, by simp, by omega, le_refl _, ?_⟩
    refine ⟨?_, ?_, ?_, ?_⟩
    · rw [List.map_append, List.nodup_append]
      refine ⟨hs.once, by simp, ?_⟩
      intro a ha b hb
      simp only [List.map_cons, List.map_nil, List.mem_singleton] at hb
      rw [List.mem_map] at ha
      obtain ⟨l, hl, rfl⟩ := ha
      have := hs.lookups l hl
      omega
    · intro l hl
      simp only [List.mem_append, List.mem_singleton] at hl
      rcases hl with hl | rfl
      · have := hs.lookups l hl
        simp only
        omega
      · simp
    · intro t ht
      have := hs.series t ht
      simp only
      omega
    · intro l hl t ht
      simp only [List.mem_append, List.mem_singleton] at hl
      have := hs.series t ht
      rcases hl with hl | rfl
      · exact hs.apart l hl t ht
      · simp only
        omega

theorem Ids.raise {s : Store α} (hs : Ids s) {n : Nat} (h : s.next ≤ n) (M : List (Mesh α)) : Ids { s with next := n, meshes := M } :=
  ⟨hs.once, fun l hl => lt_of_lt_of_le (hs.lookups l hl) h, fun t ht => lt_of_lt_of_le (hs.series t ht) h, hs.apart⟩

/-- Names are written: one lookup is related to the mesh. -/
theorem writeColumns_spec {s : Store α} (hs : Ids s) {M : List (Mesh α)} {m : Mesh α} (hm : s.meshes = M ++ [m]) (hM : ∀ x ∈ M, x.uuid ≠ m.uuid) {o : Obj α}
    (ho : o.mesh = some m.uuid) (hc : o.colLookup = none) : ∃ l L n,
      writeColumns s o = (⟨n, s.lookups ++ L, M ++ [{ m with related := m.related ++ [l.uuid] }], s.series⟩, { o with colLookup := some l, colUuid := some s.next }) ∧
      l ∈ s.lookups ++ L ∧ l.title = "dataframe columns" ∧ l.names = o.frame.cols ∧ (∀ x ∈ L, s.next ≤ x.uuid) ∧ s.next < n ∧
      Ids (⟨n, s.lookups ++ L, M ++ [{ m with related := m.related ++ [l.uuid] }], s.series⟩ : Store α) := by
  obtain ⟨l, L, n, e, h1, h2, h3, h4, h5, h6, h7⟩ := createLookup_spec hs "dataframe columns" o.frame.cols
  refine ⟨l, L, max n (s.next + 1), ?_, h1, h2, h3, h4, by omega, ?_⟩
  · unfold writeColumns
    rw [hc]
    simp only [e]
    rw [ho, relate_last (M := M) (m := m) (by exact hm) hM]
  · exact h7.raise (n := max n (s.next + 1)) (Nat.le_max_left _ _) _

theorem writeUnits_spec {s : Store α} (hs : Ids s) {M : List (Mesh α)} {m : Mesh α} (hm : s.meshes = M ++ [m]) (hM : ∀ x ∈ M, x.uuid ≠ m.uuid) {o : Obj α}
    (ho : o.mesh = some m.uuid) (hc : o.uomLookup = none) {u : List String} (hu : o.uoms = some u) (hne : u ≠ []) : ∃ l L n o',
      writeUnits s o = (⟨n, s.lookups ++ L, M ++ [{ m with related := m.related ++ [l.uuid] }], s.series⟩, o') ∧ o'.mesh = o.mesh ∧ o'.series = o.series ∧
      l ∈ s.lookups ++ L ∧ l.title = "dataframe units" ∧ l.names = u ∧ (∀ x ∈ L, s.next ≤ x.uuid) ∧ s.next < n ∧
      Ids (⟨n, s.lookups ++ L, M ++ [{ m with related := m.related ++ [l.uuid] }], s.series⟩ : Store α) := by
  obtain ⟨l, L, n, e, h1, h2, h3, h4, h5, h6, h7⟩ := createLookup_spec hs "dataframe units" u
  cases u with
  | nil => exact absurd rfl hne
  | cons a u =>
    refine ⟨l, L, max n (s.next + 1), { o with uomLookup := some l, uomUuid := some s.next }, ?_, rfl, rfl, h1, h2, h3, h4, by omega, ?_⟩
    · unfold writeUnits
      rw [hc, hu]
      simp only [e]
      rw [ho, relate_last (M := M) (m := m) (by exact hm) hM]
    · exact h7.raise (n := max n (s.next + 1)) (Nat.le_max_left _ _) _

theorem writeUnits_none {s : Store α} {o : Obj α} (hc : o.uomLookup = none) (hu : o.uoms = none) : writeUnits s o = (s, o) := by
  unfold writeUnits
  rw [hc, hu]

/-- The one lookup with a title among those related. -/
theorem filter_one {L : List Lookup} (hn : (L.map Lookup.uuid).Nodup) {l : Lookup} (hl : l ∈ L) {P : Lookup → Bool} (hP : P l = true)
    (h : ∀ x ∈ L, P x = true → x.uuid = l.uuid) : L.filter P = [l] := by
  have huniq : ∀ x ∈ L, P x = true → x = l := fun x hx hp => List.inj_on_of_nodup_map hn hx hl (h x hx hp)
  have hnd : L.Nodup := List.Nodup.of_map _ hn
  clear hn h
  induction L with
  | nil => simp at hl
  | cons a L ih =>
    rw [List.nodup_cons] at hnd
    rcases List.mem_cons.1 hl with rfl | hl'
    · rw [List.filter_cons, if_pos hP]
      congr 1
      rw [List.filter_eq_nil_iff]
      intro x hx hp
      have := huniq x (List.mem_cons_of_mem _ hx) hp
      subst this
      exact hnd.1 hx
    · rw [List.filter_cons, if_neg]
      · exact ih hl' (fun x hx hp => huniq x (List.mem_cons_of_mem _ hx) hp) hnd.2
      · intro hp
        have := huniq a (by simp) hp
        subst this
        exact hnd.1 hl'

theorem filter_one_series {S : List (Nat × Nat)} (hn : (S.map Prod.fst).Nodup) {t : Nat × Nat} (ht : t ∈ S) {P : Nat × Nat → Bool} (hP : P t = true)
    (h : ∀ x ∈ S, P x = true → x.1 = t.1) : S.filter P = [t] := by
  have huniq : ∀ x ∈ S, P x = true → x = t := fun x hx hp => List.inj_on_of_nodup_map hn hx ht (h x hx hp)
  have hnd : S.Nodup := List.Nodup.of_map _ hn
  clear hn h
  induction S with
  | nil => simp at ht
  | cons a L ih =>
    rw [List.nodup_cons] at hnd
    rcases List.mem_cons.1 ht with rfl | hl'
    · rw [List.filter_cons, if_pos hP]
      congr 1
      rw [List.filter_eq_nil_iff]
      intro x hx hp
      have := huniq x (List.mem_cons_of_mem _ hx) hp
      subst this
      exact hnd.1 hx
    · rw [List.filter_cons, if_neg]
      · exact ih hl' (fun x hx hp => huniq x (List.mem_cons_of_mem _ hx) hp) hnd.2
      · intro hp
        have := huniq a (by simp) hp
        subst this
        exact hnd.1 hl'

end Verif.DataTable
