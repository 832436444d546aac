import Verif.TriEdges.Props

/-!
# C122: rims of a triangulation
-/

namespace Verif.TriEdges
open Verif.Py

/-- the ends at a point of the edges not used -/
def udeg : List Edge → List Bool → Nat → Nat
  | e :: es, u :: us, v => (if u then 0 else ends e v) + udeg es us v
  | _, _, _ => 0

theorem joins_ends {e : Edge} {a b : Nat} (h : Joins e a b) (v : Nat) :
    ends e v = (if a = v then 1 else 0) + (if b = v then 1 else 0) := by
  rcases h with rfl | rfl
  · rfl
  · unfold ends; simp only; omega

theorem udeg_set : ∀ (es : List Edge) (us : List Bool) (n : Nat) (e : Edge) (v : Nat), es[n]? = some e → us[n]? = some false →
    udeg es us v = udeg es (us.set n true) v + ends e v
  | [], _, n, e, v, h, _ => by simp at h
  | _ :: _, [], n, e, v, _, h => by simp at h
  | d :: es, u :: us, 0, e, v, h1, h2 => by
    simp only [List.getElem?_cons_zero, Option.some.injEq] at h1 h2
    subst h1; subst h2
    simp only [List.set_cons_zero, udeg, if_true, Bool.false_eq_true, if_false]
    omega
  | d :: es, u :: us, n + 1, e, v, h1, h2 => by
    simp only [List.getElem?_cons_succ] at h1 h2
    have := udeg_set es us n e v h1 h2
    simp only [List.set_cons_succ, udeg]
    omega

theorem udeg_none : ∀ (es : List Edge) (us : List Bool) (v : Nat),
    (∀ (n : Nat) (e : Edge), es[n]? = some e → us[n]? = some false → e.1 ≠ v ∧ e.2 ≠ v) → udeg es us v = 0
  | [], us, v, _ => by cases us <;> rfl
  | _ :: _, [], v, _ => rfl
  | e :: es, u :: us, v, h => by
    have ih := udeg_none es us v (fun n e h1 h2 => h (n + 1) e (by simpa using h1) (by simpa using h2))
    have h0 := h 0 e rfl
    simp only [udeg, ih, Nat.add_zero]
    cases u with
    | true => rfl
    | false =>
      have := h0 rfl
      simp [ends, this.1, this.2]

theorem udeg_all : ∀ (es : List Edge) (us : List Bool) (v : Nat), us.all id = true → udeg es us v = 0 := by
  intro es us v h
  apply udeg_none
  intro n e _ h2
  have := List.all_eq_true.mp h false (List.mem_of_getElem? h2)
  simp at this

theorem udeg_replicate (es : List Edge) (v : Nat) : udeg es (List.replicate es.length false) v = degree es v := by
  induction es with
  | nil => rfl
  | cons e es ih =>
    simp only [List.length_cons, List.replicate_succ, udeg, ih, degree, List.map_cons, List.sum_cons]
    simp

theorem findFirst_some (v : Nat) : ∀ (es : List Edge) (us : List Bool) (i n w : Nat), findFirst v es us i = some (n, w) →
    ∃ m, n = i + m ∧ es[m]? = some (v, w) ∧ us[m]? = some false
  | [], us, i, n, w, h => by cases us <;> simp [findFirst] at h
  | _ :: _, [], i, n, w, h => by simp [findFirst] at h
  | e :: es, u :: us, i, n, w, h => by
    unfold findFirst at h
    split_ifs at h with hc
    · simp only [Option.some.injEq, Prod.mk.injEq] at h
      simp only [Bool.and_eq_true, beq_iff_eq, Bool.not_eq_true'] at hc
      refine ⟨0, by omega, ?_, by simp [hc.2]⟩
      simp only [List.getElem?_cons_zero, Option.some.injEq]
      rw [← hc.1, ← h.2]
    · obtain ⟨m, h1, h2, h3⟩ := findFirst_some v es us (i + 1) n w h
      exact ⟨m + 1, by omega, by simpa using h2, by simpa using h3⟩

theorem findSecond_some (v : Nat) : ∀ (es : List Edge) (us : List Bool) (i n w : Nat), findSecond v es us i = some (n, w) →
    ∃ m, n = i + m ∧ es[m]? = some (w, v) ∧ us[m]? = some false
  | [], us, i, n, w, h => by cases us <;> simp [findSecond] at h
  | _ :: _, [], i, n, w, h => by simp [findSecond] at h
  | e :: es, u :: us, i, n, w, h => by
    unfold findSecond at h
    split_ifs at h with hc
    · simp only [Option.some.injEq, Prod.mk.injEq] at h
      simp only [Bool.and_eq_true, beq_iff_eq, Bool.not_eq_true'] at hc
      refine ⟨0, by omega, ?_, by simp [hc.2]⟩
      simp only [List.getElem?_cons_zero, Option.some.injEq]
      rw [← hc.1, ← h.2]
    · obtain ⟨m, h1, h2, h3⟩ := findSecond_some v es us (i + 1) n w h
      exact ⟨m + 1, by omega, by simpa using h2, by simpa using h3⟩

theorem findFirst_none (v : Nat) : ∀ (es : List Edge) (us : List Bool) (i : Nat), findFirst v es us i = none →
    ∀ (n : Nat) (e : Edge), es[n]? = some e → us[n]? = some false → e.1 ≠ v
  | [], _, _, _ => by simp
  | _ :: _, [], _, _ => by simp
  | e :: es, u :: us, i, h => by
    unfold findFirst at h
    split_ifs at h with hc
    intro n d h1 h2
    rcases n with _ | n
    · simp only [List.getElem?_cons_zero, Option.some.injEq] at h1 h2
      subst h1; subst h2
      simpa using hc
    · exact findFirst_none v es us (i + 1) h n d (by simpa using h1) (by simpa using h2)

theorem findSecond_none (v : Nat) : ∀ (es : List Edge) (us : List Bool) (i : Nat), findSecond v es us i = none →
    ∀ (n : Nat) (e : Edge), es[n]? = some e → us[n]? = some false → e.2 ≠ v
  | [], _, _, _ => by simp
  | _ :: _, [], _, _ => by simp
  | e :: es, u :: us, i, h => by
    unfold findSecond at h
    split_ifs at h with hc
    intro n d h1 h2
    rcases n with _ | n
    · simp only [List.getElem?_cons_zero, Option.some.injEq] at h1 h2
      subst h1; subst h2
      simpa using hc
    · exact findSecond_none v es us (i + 1) h n d (by simpa using h1) (by simpa using h2)

theorem findUnused_some {ap : List Edge} {used : List Bool} {v n w : Nat} (h : findUnused ap used v = some (n, w)) :
    ∃ e, ap[n]? = some e ∧ used[n]? = some false ∧ Joins e v w := by
  unfold findUnused at h
  cases hf : findFirst v ap used 0 with
  | some r =>
    rw [hf] at h
    simp only [Option.some.injEq] at h
    subst h
    obtain ⟨m, h1, h2, h3⟩ := findFirst_some v ap used 0 n w hf
    have : n = m := by omega
    subst this
    exact ⟨_, h2, h3, Or.inl rfl⟩
  | none =>
    rw [hf] at h
    obtain ⟨m, h1, h2, h3⟩ := findSecond_some v ap used 0 n w h
    have : n = m := by omega
    subst this
    exact ⟨_, h2, h3, Or.inr rfl⟩

theorem findUnused_none {ap : List Edge} {used : List Bool} {v : Nat} (h : findUnused ap used v = none) : udeg ap used v = 0 := by
  unfold findUnused at h
  cases hf : findFirst v ap used 0 with
  | some r => rw [hf] at h; simp at h
  | none =>
    rw [hf] at h
    apply udeg_none
    intro n e h1 h2
    exact ⟨findFirst_none v ap used 0 hf n e h1 h2, findSecond_none v ap used 0 h n e h1 h2⟩

/-- the edges marked as used are those listed -/
structure Marks (ap : List Edge) (l : List Nat) (used : List Bool) : Prop where
  length : used.length = ap.length
  nodup : l.Nodup
  mem : ∀ i, used[i]? = some true ↔ i ∈ l

theorem marks_set {ap : List Edge} {l : List Nat} {used : List Bool} (h : Marks ap l used) {n : Nat} (hn : used[n]? = some false) :
    Marks ap (l ++ [n]) (used.set n true) := by
  have hlt : n < used.length := by
    by_contra hc
    rw [List.getElem?_eq_none (by omega)] at hn
    simp at hn
  refine ⟨by rw [List.length_set, h.length], ?_, ?_⟩
  · rw [List.nodup_append]
    refine ⟨h.nodup, by simp, ?_⟩
    intro a ha b hb
    simp only [List.mem_singleton] at hb
    subst hb
    rintro rfl
    have := (h.mem a).mpr ha
    rw [hn] at this
    simp at this
  · intro i
    rw [List.mem_append, List.mem_singleton, ← h.mem]
    by_cases hi : n = i
    · subst hi
      rw [List.getElem?_set_self hlt]
      simp
    · rw [List.getElem?_set_ne hi]
      constructor
      · exact Or.inl
      · rintro (h | h)
        · exact h
        · exact absurd h.symm hi

theorem count_set {used : List Bool} {n : Nat} (hn : used[n]? = some false) :
    (used.set n true).count false + 1 = used.count false := by
  induction used generalizing n with
  | nil => simp at hn
  | cons u us ih =>
    rcases n with _ | n
    · simp only [List.getElem?_cons_zero, Option.some.injEq] at hn
      subst hn
      simp
    · simp only [List.getElem?_cons_succ] at hn
      have := ih hn
      simp only [List.set_cons_succ, List.count_cons]
      omega

/-- a path from the start so far -/
structure Path (ap : List Edge) (start next : Nat) (rei rpi : List Nat) : Prop where
  length : rei.length = rpi.length
  head : rpi[0]? = some start
  steps : ∀ n, n < rpi.length → ∃ e a b, (rei[n]?).bind (fun i => ap[i]?) = some e ∧
    (rpi ++ [next])[n]? = some a ∧ (rpi ++ [next])[n + 1]? = some b ∧ Joins e a b

theorem path_step {ap : List Edge} {start next w n : Nat} {rei rpi : List Nat} {e : Edge} (h : Path ap start next rei rpi)
    (he : ap[n]? = some e) (hj : Joins e next w) : Path ap start w (rei ++ [n]) (rpi ++ [next]) := by
  have hpos : 0 < rpi.length := by
    by_contra hc
    have := h.head
    rw [List.getElem?_eq_none (by omega)] at this
    simp at this
  refine ⟨by simp [h.length], ?_, ?_⟩
  · rw [List.getElem?_append_left hpos]
    exact h.head
  · intro m hm
    simp only [List.length_append, List.length_cons, List.length_nil] at hm
    by_cases hlt : m < rpi.length
    · obtain ⟨d, a, b, h1, h2, h3, h4⟩ := h.steps m hlt
      refine ⟨d, a, b, ?_, ?_, ?_, h4⟩
      · rw [List.getElem?_append_left (by rw [h.length]; exact hlt)]; exact h1
      · rw [List.getElem?_append_left (by simp; omega)]; exact h2
      · rw [List.getElem?_append_left (by simp; omega)]; exact h3
    · have : m = rpi.length := by omega
      subst this
      refine ⟨e, next, w, ?_, ?_, ?_, hj⟩
      · rw [List.getElem?_append_right (by rw [h.length]), h.length, Nat.sub_self]
        simp [he]
      · rw [List.getElem?_append_left (by simp), List.getElem?_append_right (le_refl _)]
        simp
      · rw [List.getElem?_append_right (by simp)]
        simp

theorem path_loop {ap : List Edge} {start : Nat} {rei rpi : List Nat} (h : Path ap start start rei rpi) : Loop ap rei rpi := by
  have hpos : 0 < rpi.length := by
    by_contra hc
    have := h.head
    rw [List.getElem?_eq_none (by omega)] at this
    simp at this
  refine ⟨fun hc => by rw [hc] at hpos; simp at hpos, h.length, ?_⟩
  intro n hn
  obtain ⟨e, a, b, h1, h2, h3, h4⟩ := h.steps n hn
  refine ⟨e, h1, ?_⟩
  have ha : rpi[n] = a := by
    rw [List.getElem?_append_left hn, List.getElem?_eq_getElem hn] at h2
    simpa using h2
  have hb : rpi[(n + 1) % rpi.length]'(Nat.mod_lt _ hpos) = b := by
    by_cases hlast : n + 1 < rpi.length
    · rw [List.getElem?_append_left hlast, List.getElem?_eq_getElem hlast] at h3
      simp only [Nat.mod_eq_of_lt hlast]
      simpa using h3
    · have e1 : n + 1 = rpi.length := by omega
      rw [e1, List.getElem?_append_right (le_refl _)] at h3
      simp only [Nat.sub_self, List.getElem?_cons_zero, Option.some.injEq] at h3
      have hh := h.head
      rw [List.getElem?_eq_getElem hpos] at hh
      simp only [Option.some.injEq] at hh
      simp only [e1, Nat.mod_self]
      rw [hh, h3]
  rw [ha, hb]
  exact h4

/-- a number for "is the point", as a parity -/
def ind (a v : Nat) : Nat := if a = v then 1 else 0

theorem follow_spec {ap : List Edge} {start : Nat} : ∀ (fuel next : Nat) (used : List Bool) (done rei rpi : List Nat),
    Marks ap (done ++ rei) used → Path ap start next rei rpi → used.count false < fuel →
    follow ap start fuel next used rei rpi ≠ none ∧
    (∀ used' rei' rpi', follow ap start fuel next used rei rpi = some (.ok (used', rei', rpi')) →
      Marks ap (done ++ rei') used' ∧ Loop ap rei' rpi' ∧ used'.count false ≤ used.count false ∧
      ∀ v, (udeg ap used v + ind start v + ind next v) % 2 = udeg ap used' v % 2) ∧
    ((∀ v, (udeg ap used v + ind start v + ind next v) % 2 = 0) →
      ∃ r, follow ap start fuel next used rei rpi = some (.ok r)) := by
  intro fuel
  induction fuel with
  | zero =>
    intro next used done rei rpi hm hp hf
    omega
  | succ fuel ih =>
    intro next used done rei rpi hm hp hf
    unfold follow
    by_cases hn : next = start
    · subst hn
      rw [if_pos rfl]
      refine ⟨by simp, ?_, fun _ => ⟨_, rfl⟩⟩
      intro used' rei' rpi' h
      simp only [Option.some.injEq, Except.ok.injEq, Prod.mk.injEq] at h
      obtain ⟨rfl, rfl, rfl⟩ := h
      exact ⟨hm, path_loop hp, le_refl _, fun v => by omega⟩
    · rw [if_neg hn]
      simp only
      cases hu : findUnused ap used next with
      | none =>
        refine ⟨by simp, by simp, ?_⟩
        intro hev
        have h0 := findUnused_none hu
        have := hev next
        rw [h0] at this
        have h1 : ind start next = 0 := if_neg (Ne.symm hn)
        have h2 : ind next next = 1 := if_pos rfl
        rw [h1, h2] at this
        omega
      | some r =>
        obtain ⟨index, w⟩ := r
        obtain ⟨e, h1, h2, h3⟩ := findUnused_some hu
        have hm' : Marks ap (done ++ (rei ++ [index])) (used.set index true) := by
          rw [← List.append_assoc]; exact marks_set hm h2
        have hc := count_set h2
        obtain ⟨i1, i2, i3⟩ := ih w (used.set index true) done (rei ++ [index]) (rpi ++ [next]) hm' (path_step hp h1 h3) (by omega)
        have par : ∀ v, (udeg ap used v + ind start v + ind next v) % 2 =
            (udeg ap (used.set index true) v + ind start v + ind w v) % 2 := by
          intro v
          have := udeg_set ap used index e v h1 h2
          rw [joins_ends h3 v] at this
          unfold ind
          omega
        refine ⟨i1, ?_, ?_⟩
        · intro used' rei' rpi' h
          obtain ⟨j1, j2, j3, j4⟩ := i2 used' rei' rpi' h
          refine ⟨j1, j2, by omega, ?_⟩
          intro v
          rw [par v, j4 v]
        · intro hev
          exact i3 fun v => by rw [← par v, hev v]

theorem firstFalse_spec : ∀ (used : List Bool), used.all id = false → used[firstFalse used]? = some false
  | [], h => by simp at h
  | u :: us, h => by
    unfold firstFalse
    cases u with
    | false => simp
    | true =>
      have h' : us.all id = false := by simpa using h
      simpa using firstFalse_spec us h'

theorem all_of_count {used : List Bool} (h : used.count false = 0) : used.all id = true := by
  rw [List.count_eq_zero] at h
  rw [List.all_eq_true]
  intro b hb
  cases b with
  | true => rfl
  | false => exact absurd hb h

theorem rimsLoop_spec {ap : List Edge} : ∀ (fuel : Nat) (used : List Bool) (rel rpl : List (List Nat)),
    Marks ap rel.flatten used → List.Forall₂ (Loop ap) rel rpl → used.count false ≤ fuel →
    rimsLoop ap fuel used rel rpl ≠ none ∧
    (∀ rel' rpl', rimsLoop ap fuel used rel rpl = some (.ok (rel', rpl')) →
      List.Forall₂ (Loop ap) rel' rpl' ∧ (∃ used', Marks ap rel'.flatten used' ∧ used'.all id = true) ∧ ∀ v, udeg ap used v % 2 = 0) ∧
    ((∀ v, udeg ap used v % 2 = 0) → ∃ r, rimsLoop ap fuel used rel rpl = some (.ok r)) := by
  intro fuel
  induction fuel with
  | zero =>
    intro used rel rpl hm hl hf
    have hall := all_of_count (by omega : used.count false = 0)
    unfold rimsLoop
    rw [if_pos hall]
    refine ⟨by simp, ?_, fun _ => ⟨_, rfl⟩⟩
    intro rel' rpl' h
    simp only [Option.some.injEq, Except.ok.injEq, Prod.mk.injEq] at h
    obtain ⟨rfl, rfl⟩ := h
    exact ⟨hl, ⟨used, hm, hall⟩, fun v => by rw [udeg_all ap used v hall]⟩
  | succ fuel ih =>
    intro used rel rpl hm hl hf
    unfold rimsLoop
    by_cases hall : used.all id = true
    · rw [if_pos hall]
      refine ⟨by simp, ?_, fun _ => ⟨_, rfl⟩⟩
      intro rel' rpl' h
      simp only [Option.some.injEq, Except.ok.injEq, Prod.mk.injEq] at h
      obtain ⟨rfl, rfl⟩ := h
      exact ⟨hl, ⟨used, hm, hall⟩, fun v => by rw [udeg_all ap used v hall]⟩
    · rw [if_neg hall]
      have hff := firstFalse_spec used (by simpa using hall)
      have hlt : firstFalse used < ap.length := by
        rw [← hm.length]
        by_contra hc
        rw [List.getElem?_eq_none (by omega)] at hff
        simp at hff
      have he : ap[firstFalse used]? = some ap[firstFalse used] := List.getElem?_eq_getElem hlt
      rw [he]
      generalize hgi : firstFalse used = idx at hff hlt he
      generalize hge : ap[idx] = e at he
      simp only
      have hm' := marks_set hm hff
      have hc := count_set hff
      have hcl : (used.set idx true).count false < ap.length := by
        have : used.count false ≤ used.length := List.count_le_length
        rw [hm.length] at this
        omega
      have hp : Path ap e.1 e.2 [idx] [e.1] := by
        refine ⟨rfl, rfl, ?_⟩
        intro n hn
        simp only [List.length_cons, List.length_nil] at hn
        have : n = 0 := by omega
        subst this
        exact ⟨e, e.1, e.2, by simp [he], by simp, by simp, Or.inl rfl⟩
      obtain ⟨f1, f2, f3⟩ := follow_spec ap.length e.2 (used.set idx true) rel.flatten [idx] [e.1] hm' hp hcl
      have par : ∀ v, (udeg ap (used.set idx true) v + ind e.1 v + ind e.2 v) % 2 = udeg ap used v % 2 := by
        intro v
        have := udeg_set ap used idx e v he hff
        unfold ends at this
        unfold ind
        omega
      rcases hfo : follow ap e.1 ap.length e.2 (used.set idx true) [idx] [e.1] with _ | (x | ⟨used', rei, rpi⟩)
      · exact absurd hfo f1
      · refine ⟨by simp, by simp, ?_⟩
        intro hev
        obtain ⟨r, hr⟩ := f3 fun v => by rw [par v, hev v]
        rw [hfo] at hr
        simp at hr
      · obtain ⟨g1, g2, g3, g4⟩ := f2 used' rei rpi hfo
        have hm2 : Marks ap (rel ++ [rei]).flatten used' := by
          rw [List.flatten_append]
          simpa using g1
        have hl2 : List.Forall₂ (Loop ap) (rel ++ [rei]) (rpl ++ [rpi]) :=
          List.rel_append hl (.cons g2 .nil)
        obtain ⟨i1, i2, i3⟩ := ih used' (rel ++ [rei]) (rpl ++ [rpi]) hm2 hl2 (by omega)
        have par2 : ∀ v, udeg ap used v % 2 = udeg ap used' v % 2 := fun v => by rw [← par v, g4 v]
        refine ⟨i1, ?_, ?_⟩
        · intro rel' rpl' h
          obtain ⟨j1, j2, j3⟩ := i2 rel' rpl' h
          exact ⟨j1, j2, fun v => by rw [par2 v, j3 v]⟩
        · intro hev
          exact i3 fun v => by rw [← par2 v, hev v]

theorem rims_spec (ap : List Edge) :
    rims ap ≠ none ∧
    (∀ rel' rpl', rims ap = some (.ok (rel', rpl')) →
      List.Forall₂ (Loop ap) rel' rpl' ∧ (∃ used', Marks ap rel'.flatten used' ∧ used'.all id = true) ∧ ∀ v, degree ap v % 2 = 0) ∧
    ((∀ v, degree ap v % 2 = 0) → ∃ r, rims ap = some (.ok r)) := by
  have hm : Marks ap ([] : List (List Nat)).flatten (List.replicate ap.length false) := by
    refine ⟨by simp, by simp, ?_⟩
    intro i
    simp [List.getElem?_replicate]
  have := rimsLoop_spec ap.length (List.replicate ap.length false) [] [] hm .nil (by simp)
  simp only [udeg_replicate] at this
  exact this

/-- **C122** following rims always comes to an end, either with rims or with an AssertionError -/
theorem C122_fuel (ap : List Edge) : rims ap ≠ none := (rims_spec ap).1

/-- **C122** the rims are closed loops which between them use every edge exactly once: in each rim the edge at each place joins the point there
to the next one (the last edge leads back to the first point), and the edge numbers of all the rims are those of the edges, each once -/
theorem C122_rims (ap : List Edge) (es ps : List (List Nat)) (h : rims ap = some (.ok (es, ps))) :
    es.length = ps.length ∧ List.Forall₂ (Loop ap) es ps ∧ es.flatten.Perm (List.range ap.length) := by
  obtain ⟨h1, ⟨used, h2, h3⟩, -⟩ := (rims_spec ap).2.1 es ps h
  refine ⟨h1.length_eq, h1, ?_⟩
  refine (List.perm_ext_iff_of_nodup h2.nodup List.nodup_range).mpr ?_
  intro i
  rw [← h2.mem, List.mem_range, ← h2.length]
  constructor
  · intro hi
    by_contra hc
    rw [List.getElem?_eq_none (by omega)] at hi
    simp at hi
  · intro hi
    rw [List.getElem?_eq_getElem hi]
    have := List.all_eq_true.mp h3 _ (List.getElem_mem hi)
    simpa using this

/-- **C122** rims are found exactly when an even number of edge ends meet at every point -/
theorem C122_rims_found (ap : List Edge) : (∃ r, rims ap = some (.ok r)) ↔ ∀ v, Even (degree ap v) := by
  constructor
  · rintro ⟨⟨es, ps⟩, h⟩ v
    rw [Nat.even_iff]
    exact ((rims_spec ap).2.1 es ps h).2.2 v
  · intro h
    exact (rims_spec ap).2.2 fun v => Nat.even_iff.mp (h v)

theorem ends_sorted (e : Edge) (v : Nat) : ends (sorted e) v = ends e v := by
  unfold sorted
  split_ifs
  · unfold ends; simp only; omega
  · rfl

theorem allEdges_even (ts : List Tri) (v : Nat) : degree (allEdges ts) v % 2 = 0 := by
  induction ts with
  | nil => rfl
  | cons t ts ih =>
    obtain ⟨a, b, c⟩ := t
    have : allEdges ((a, b, c) :: ts) = [sorted (a, b), sorted (b, c), sorted (c, a)] ++ allEdges ts := by
      simp [allEdges]
    rw [this]
    unfold degree at ih ⊢
    simp only [List.map_append, List.map_cons, List.map_nil, List.sum_append, List.sum_cons, List.sum_nil, ends_sorted]
    unfold ends at ih ⊢
    simp only
    omega

/-- the ends at a point, each edge as often as it is counted -/
def weighted (l : List (Edge × Nat)) (v : Nat) : Nat := (l.map fun x => x.2 * ends x.1 v).sum

theorem weighted_insert (e : Edge) (l : List (Edge × Nat)) (v : Nat) : weighted (insertCount e l) v = weighted l v + ends e v := by
  induction l with
  | nil => simp [insertCount, weighted]
  | cons y l ih =>
    obtain ⟨d, n⟩ := y
    unfold insertCount
    split_ifs with h1 h2
    · simp [weighted]; ring
    · subst h2
      simp [weighted]; ring
    · unfold weighted at ih ⊢
      simp only [List.map_cons, List.sum_cons]
      rw [ih]
      ring

theorem weighted_edges (es : List Edge) (v : Nat) : weighted (es.foldr insertCount []) v = degree es v := by
  induction es with
  | nil => rfl
  | cons e es ih =>
    rw [List.foldr_cons, weighted_insert, ih]
    simp [degree]
    omega

theorem rim_parity (l : List (Edge × Nat)) (h : ∀ x ∈ l, 0 < x.2 ∧ x.2 ≤ 2) (v : Nat) :
    degree (rimEdges l) v % 2 = weighted l v % 2 := by
  induction l with
  | nil => rfl
  | cons y l ih =>
    obtain ⟨d, n⟩ := y
    have ih' := ih (fun x hx => h x (List.mem_cons_of_mem _ hx))
    have hn := h (d, n) (by simp)
    simp only at hn
    have : n = 1 ∨ n = 2 := by omega
    have hw : weighted ((d, n) :: l) v = n * ends d v + weighted l v := by simp [weighted]
    rw [hw]
    rcases this with rfl | rfl
    · have hr : rimEdges ((d, 1) :: l) = d :: rimEdges l := by simp [rimEdges]
      rw [hr]
      have hd : degree (d :: rimEdges l) v = ends d v + degree (rimEdges l) v := by simp [degree]
      rw [hd]
      omega
    · have hr : rimEdges ((d, 2) :: l) = rimEdges l := by simp [rimEdges]
      rw [hr]
      omega

/-- **C122** for every triangulation in which no edge is used by more than two triangles (whatever holes, pieces or points touching it has,
and whether or not its triangles are proper), the rims of its rim edges are found -/
theorem C122_rims_of_surface (ts : List Tri) (h : ∀ a b, uses ts a b ≤ 2) : ∃ r, rims (rimEdges (edges ts)) = some (.ok r) := by
  rw [C122_rims_found]
  intro v
  rw [Nat.even_iff]
  have hb : ∀ x ∈ edges ts, 0 < x.2 ∧ x.2 ≤ 2 := by
    rintro ⟨⟨a, b⟩, n⟩ hx
    obtain ⟨-, h1, h2⟩ := ((C121_edges ts).2 a b n).mp hx
    exact ⟨h2, by simp only; rw [h1]; exact h a b⟩
  rw [rim_parity _ hb v]
  unfold edges
  rw [weighted_edges]
  exact allEdges_even ts v

theorem uses_comm (ts : List Tri) (a b : Nat) : uses ts a b = uses ts b a := by
  unfold uses
  simp only [or_comm]

/-- two triangles with a common side and a third one touching them -/
example : ∀ a b, uses [(0, 1, 2), (2, 1, 3), (3, 4, 5)] a b ≤ 2 := by
  have hd : ∀ x ∈ edges [(0, 1, 2), (2, 1, 3), (3, 4, 5)], x.2 ≤ 2 := by decide
  have key : ∀ a b, a ≤ b → uses [(0, 1, 2), (2, 1, 3), (3, 4, 5)] a b ≤ 2 := by
    intro a b hab
    by_contra hc
    have := hd _ (((C121_edges _).2 a b _).mpr ⟨hab, rfl, by omega⟩)
    simp only at this
    omega
  intro a b
  rcases Nat.le_total a b with h | h
  · exact key a b h
  · rw [uses_comm]; exact key b a h

/-- a square of two triangles and a triangle touching it at a point -/
example : rims (rimEdges (edges [(0, 1, 2), (2, 1, 3), (3, 4, 5)])) =
    some (.ok ([[0, 2, 4, 6, 5, 3, 1]], [[0, 1, 3, 4, 5, 3, 2]])) := by decide

/-- two separate triangles: two rims -/
example : rims (rimEdges (edges [(0, 1, 2), (3, 4, 5)])) = some (.ok ([[0, 2, 1], [3, 5, 4]], [[0, 1, 2], [3, 4, 5]])) := by decide

/-- **C122** three triangles on one edge: the rim edges do not close up, and are refused -/
theorem C122_three_triangles_on_an_edge : rims (rimEdges (edges [(0, 1, 2), (0, 1, 3), (0, 1, 4)])) = some (.error .assertion) := by decide

end Verif.TriEdges
