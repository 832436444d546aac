import Verif.Gcs.Lemmas

/-! # C48, C49: connection sets made from faces -/

namespace Verif.Gcs

theorem mem_conns (e : Ext) (m : Masks) (f : Feature) (x : Conn) :
    x ∈ (fromFaceMasks e m f).conns ↔ ∃ axis c, axis < 3 ∧ Inside e c ∧ Inside e (next axis c) ∧ m.faces axis c = true ∧
      x = connOf e axis (m.sides axis c) c := by
  rw [fromFaceMasks_conns]
  simp only [List.mem_flatMap, List.mem_map, List.mem_filter]
  constructor
  · rintro ⟨axis, ha, c, ⟨hc, hm⟩, rfl⟩
    have ha : axis < 3 := by simp at ha; omega
    rw [mem_shapeOf e axis ha] at hc
    exact ⟨axis, c, ha, hc.1, hc.2, hm, rfl⟩
  · rintro ⟨axis, c, ha, hc, hn, hm, rfl⟩
    exact ⟨axis, by simp; omega, c, ⟨(mem_shapeOf e axis ha c).mpr ⟨hc, hn⟩, hm⟩, rfl⟩

/-- C48: reading a connection set made from face masks gives exactly the faces marked, each as the plus face of the cell at the
mask position together with the minus face of the next cell, in the order asked for by the sides. -/
theorem C48_marked_faces (e : Ext) (m : Masks) (f : Feature) (p : Face × Face) :
    p ∈ (fromFaceMasks e m f).conns.map (decode e) ↔
      ∃ axis c, axis < 3 ∧ Inside e c ∧ Inside e (next axis c) ∧ m.faces axis c = true ∧
        p = if m.sides axis c then (minusFace axis c, plusFace axis c) else (plusFace axis c, minusFace axis c) := by
  rw [List.mem_map]
  constructor
  · rintro ⟨x, hx, rfl⟩
    obtain ⟨axis, c, ha, hc, hn, hm, rfl⟩ := (mem_conns e m f x).mp hx
    exact ⟨axis, c, ha, hc, hn, hm, decode_connOf e axis ha _ c hc hn⟩
  · rintro ⟨axis, c, ha, hc, hn, hm, rfl⟩
    exact ⟨_, (mem_conns e m f _).mpr ⟨axis, c, ha, hc, hn, hm, rfl⟩, decode_connOf e axis ha _ c hc hn⟩

/-- the boundary of a decoded connection determines axis and cell -/
theorem boundary_inj {a a' : Nat} {s s' : Bool} {c c' : Cell}
    (h : (if s then (minusFace a c, plusFace a c) else (plusFace a c, minusFace a c)) =
      (if s' then (minusFace a' c', plusFace a' c') else (plusFace a' c', minusFace a' c'))) : a = a' ∧ c = c' := by
  cases s <;> cases s' <;> simp only [Bool.false_eq_true, if_true, if_false, plusFace, minusFace, Prod.mk.injEq] at h
  · exact ⟨h.1.2.1, h.1.1⟩
  · omega
  · omega
  · exact ⟨h.2.2.1, h.2.1⟩

/-- C48: no face is listed twice. -/
theorem C48_each_face_once (e : Ext) (m : Masks) (f : Feature) : ((fromFaceMasks e m f).conns.map (decode e)).Nodup := by
  rw [fromFaceMasks_conns, List.map_flatMap, List.nodup_flatMap]
  have key : ∀ axis, axis < 3 → ∀ p ∈ (((shapeOf e axis).filter (m.faces axis)).map fun c => connOf e axis (m.sides axis c) c).map (decode e),
      ∃ c, c ∈ shapeOf e axis ∧
        p = if m.sides axis c then (minusFace axis c, plusFace axis c) else (plusFace axis c, minusFace axis c) := by
    intro axis ha p hp
    rw [List.mem_map] at hp
    obtain ⟨x, hx, rfl⟩ := hp
    rw [List.mem_map] at hx
    obtain ⟨c, hc, rfl⟩ := hx
    have hs := (List.mem_filter.mp hc).1
    have hi := (mem_shapeOf e axis ha c).mp hs
    exact ⟨c, hs, decode_connOf e axis ha _ c hi.1 hi.2⟩
  constructor
  · intro axis ha
    have ha : axis < 3 := by simp at ha; omega
    rw [List.map_map]
    have hnd : (shapeOf e axis).Nodup := by
      unfold shapeOf
      split <;> exact nodup_triples _ _ _
    refine List.Nodup.map_on ?_ (hnd.filter _)
    intro c hc d hd hcd
    have hc' := (mem_shapeOf e axis ha c).mp (List.mem_filter.mp hc).1
    have hd' := (mem_shapeOf e axis ha d).mp (List.mem_filter.mp hd).1
    simp only [Function.comp_apply] at hcd
    rw [decode_connOf e axis ha _ c hc'.1 hc'.2, decode_connOf e axis ha _ d hd'.1 hd'.2] at hcd
    exact (boundary_inj hcd).2
  · have : ([0, 1, 2] : List Nat).Pairwise (fun x y => x ≠ y ∧ x < 3 ∧ y < 3) := by decide
    refine this.imp ?_
    rintro x y ⟨hne, hx, hy⟩
    simp only [Function.onFun, List.disjoint_left]
    intro p hp hp'
    obtain ⟨c, _, h1⟩ := key x hx p hp
    obtain ⟨d, _, h2⟩ := key y hy p hp'
    exact hne (boundary_inj (h1.symm.trans h2)).1

/-- C48: every connection gets the single feature. -/
theorem C48_feature (e : Ext) (m : Masks) (f : Feature) (n : Nat) (hn : n < (fromFaceMasks e m f).conns.length) :
    featureOf (fromFaceMasks e m f) n = some f := by
  unfold featureOf fromFaceMasks
  unfold fromFaceMasks at hn
  dsimp only at hn ⊢
  rw [List.getElem?_map, List.getElem?_eq_getElem hn]
  rfl

/-- C48, skin: a boundary between neighbouring cells is in the skin of a set of cells exactly when one of them is in the set and
the other not. -/
theorem C48_skin (e : Ext) (cellSet : Cell → Bool) (f : Feature) (axis : Nat) (ha : axis < 3) (c : Cell) :
    (plusFace axis c, minusFace axis c) ∈ (skinConnectionSet e cellSet f).conns.map (decode e) ↔
      Inside e c ∧ Inside e (next axis c) ∧ cellSet c ≠ cellSet (next axis c) := by
  unfold skinConnectionSet
  rw [C48_marked_faces]
  have hm : ∀ a d, a < 3 → ((skinMasks cellSet).faces a d = true ↔ cellSet d ≠ cellSet (next a d)) := by
    intro a d had
    interval_cases a <;> simp only [skinMasks, next, bne_iff_ne] <;> exact ne_comm
  constructor
  · rintro ⟨a, d, had, hd, hn, hf, hp⟩
    have h := boundary_inj (s := false) (s' := (skinMasks cellSet).sides a d) (by simpa using hp)
    obtain ⟨rfl, rfl⟩ := h
    exact ⟨hd, hn, (hm _ _ had).mp hf⟩
  · rintro ⟨hc, hn, hne⟩
    exact ⟨axis, c, ha, hc, hn, (hm _ _ ha).mpr hne, rfl⟩

example : (skinConnectionSet ⟨2, 1, 2⟩ (fun c => c == (0, 0, 0)) ⟨"", 0, ""⟩).conns.map (decode ⟨2, 1, 2⟩) =
    [(plusFace 0 (0, 0, 0), minusFace 0 (0, 0, 0)), (plusFace 2 (0, 0, 0), minusFace 2 (0, 0, 0))] := by decide

/-! ## Faces given by index -/

theorem insertionSort_sorted (a : List Nat) : (a.insertionSort (· ≤ ·)).Pairwise (· ≤ ·) := List.pairwise_insertionSort _ _

theorem select_cons {α : Type} (b : Bool) (m : List Bool) (x : α) (l : List α) :
    select (b :: m) (x :: l) = if b then x :: select m l else select m l := by
  cases b <;> simp [select]

theorem firstOfRun_length (prev : Option Nat) (s : List Nat) : (firstOfRun prev s).length = s.length := by
  induction s generalizing prev with
  | nil => rfl
  | cons x xs ih => simp [firstOfRun, ih]

theorem firstOfRun_select (s : List Nat) (hs : s.Pairwise (· ≤ ·)) (prev : Option Nat) (hp : ∀ p ∈ prev, ∀ x ∈ s, p ≤ x) :
    (select (firstOfRun prev s) s).Pairwise (· < ·) ∧
    ∀ x, x ∈ select (firstOfRun prev s) s ↔ x ∈ s ∧ prev ≠ some x := by
  induction s generalizing prev with
  | nil => simp [select, firstOfRun]
  | cons y ys ih =>
    rw [List.pairwise_cons] at hs
    obtain ⟨h1, h2⟩ := ih hs.2 (some y) (by intro p hp x hx; simp at hp; subst hp; exact hs.1 x hx)
    simp only [firstOfRun, select_cons]
    by_cases he : prev = some y
    · subst he
      simp only [bne_self_eq_false, Bool.false_eq_true, if_false]
      refine ⟨h1, fun x => ?_⟩
      rw [h2]
      simp only [List.mem_cons, ne_eq, Option.some.injEq]
      constructor
      · rintro ⟨a, b⟩; exact ⟨Or.inr a, b⟩
      · rintro ⟨rfl | a, b⟩
        · exact absurd rfl b
        · exact ⟨a, b⟩
    · have hb : (prev != some y) = true := by simpa using he
      simp only [hb, if_true]
      refine ⟨List.pairwise_cons.mpr ⟨fun x hx => ?_, h1⟩, fun x => ?_⟩
      · obtain ⟨hx1, hx2⟩ := (h2 x).mp hx
        have := hs.1 x hx1
        simp only [ne_eq, Option.some.injEq] at hx2
        omega
      · simp only [List.mem_cons, h2]
        constructor
        · rintro (rfl | ⟨a, b⟩)
          · exact ⟨Or.inl rfl, he⟩
          · refine ⟨Or.inr a, fun hc => ?_⟩
            have := hp x (by simpa using hc) y List.mem_cons_self
            have := hs.1 x a
            simp only [ne_eq, Option.some.injEq] at b
            omega
        · rintro ⟨rfl | a, b⟩
          · exact Or.inl rfl
          · by_cases hxy : y = x
            · exact Or.inl hxy.symm
            · exact Or.inr ⟨a, by simpa using hxy⟩

theorem select_all {α : Type} (m : List Bool) (l : List α) (hl : m.length = l.length) (h : m.all id = true) : select m l = l := by
  induction m generalizing l with
  | nil => cases l <;> simp_all [select]
  | cons b m ih =>
    cases l with
    | nil => simp at hl
    | cons x l =>
      simp only [List.all_cons, Bool.and_eq_true, id] at h
      rw [select_cons, h.1, if_pos rfl, ih l (by simpa using hl) h.2]

/-- C49: without properties the result is the sorted list of the distinct values. -/
theorem C49_sorted_distinct {V : Type} (argsort : List Nat → List Nat) (a : List Nat) :
    ∃ s, sortAndRemoveDuplicates (V := V) argsort a [] = some (s, []) ∧ s.Pairwise (· < ·) ∧ ∀ x, x ∈ s ↔ x ∈ a := by
  unfold sortAndRemoveDuplicates
  split
  · rename_i h
    refine ⟨a, rfl, ?_, fun x => Iff.rfl⟩
    rcases a with _ | ⟨x, _ | ⟨y, l⟩⟩ <;> simp_all
  · rw [if_pos rfl]
    dsimp only
    obtain ⟨h1, h2⟩ := firstOfRun_select _ (insertionSort_sorted a) none (by simp)
    have h3 : ∀ x, x ∈ select (firstOfRun none (a.insertionSort (· ≤ ·))) (a.insertionSort (· ≤ ·)) ↔ x ∈ a := by
      intro x
      rw [h2, (List.perm_insertionSort (· ≤ ·) a).mem_iff]
      simp
    split
    · rename_i hall
      rw [select_all _ _ (firstOfRun_length _ _) hall] at h1 h3
      exact ⟨_, rfl, h1, h3⟩
    · exact ⟨_, rfl, h1, h3⟩

/-- C49: reading a connection set made from lists of cells gives exactly the plus faces of the cells listed for each axis with
the minus faces of their neighbours; repeated cells count once. -/
theorem C49_listed_faces (e : Ext) (lists : Nat → List Cell) (f : Feature)
    (hin : ∀ axis < 3, ∀ c ∈ lists axis, Inside e c ∧ Inside e (next axis c)) (p : Face × Face) :
    p ∈ (fromFacesIndices e (lists 0) (lists 1) (lists 2) f).conns.map (decode e) ↔
      ∃ axis c, axis < 3 ∧ c ∈ lists axis ∧ p = (plusFace axis c, minusFace axis c) := by
  obtain ⟨s0, e0, _, m0⟩ := C49_sorted_distinct (V := Unit) (fun _ => []) ((lists 0).map (natural e))
  obtain ⟨s1, e1, _, m1⟩ := C49_sorted_distinct (V := Unit) (fun _ => []) ((lists 1).map (natural e))
  obtain ⟨s2, e2, _, m2⟩ := C49_sorted_distinct (V := Unit) (fun _ => []) ((lists 2).map (natural e))
  have hpart : ∀ axis, axis < 3 → ∀ s : List Nat, (∀ x, x ∈ s ↔ x ∈ (lists axis).map (natural e)) →
      (p ∈ (indexConns axis (stepOf e axis) s).map (decode e) ↔ ∃ c, c ∈ lists axis ∧ p = (plusFace axis c, minusFace axis c)) := by
    intro axis ha s hs
    unfold indexConns
    rw [List.map_map]
    simp only [List.mem_map, hs, Function.comp_apply]
    constructor
    · rintro ⟨x, ⟨c, hc, rfl⟩, rfl⟩
      exact ⟨c, hc, decode_connOf e axis ha false c (hin axis ha c hc).1 (hin axis ha c hc).2⟩
    · rintro ⟨c, hc, rfl⟩
      exact ⟨natural e c, ⟨c, hc, rfl⟩, decode_connOf e axis ha false c (hin axis ha c hc).1 (hin axis ha c hc).2⟩
  unfold fromFacesIndices
  dsimp only
  rw [e0, e1, e2]
  simp only [List.map_append, List.mem_append]
  have p0 := hpart 0 (by omega) s0 m0
  have p1 := hpart 1 (by omega) s1 m1
  have p2 := hpart 2 (by omega) s2 m2
  simp only [stepOf] at p0 p1 p2
  rw [p0, p1, p2]
  constructor
  · rintro ((⟨c, h⟩ | ⟨c, h⟩) | ⟨c, h⟩)
    · exact ⟨0, c, by omega, h⟩
    · exact ⟨1, c, by omega, h⟩
    · exact ⟨2, c, by omega, h⟩
  · rintro ⟨axis, c, ha, h⟩
    interval_cases axis
    · exact Or.inl (Or.inl ⟨c, h⟩)
    · exact Or.inl (Or.inr ⟨c, h⟩)
    · exact Or.inr ⟨c, h⟩

/-- `argsort` gives a permutation of positions that sorts the values -/
def Argsorts (argsort : List Nat → List Nat) : Prop :=
  ∀ a, (argsort a).Perm (List.range a.length) ∧ ∃ s, takeIdx a (argsort a) = some s ∧ s.Pairwise (· ≤ ·)

/-- every entry of the result has the property value of an entry of the same face in the input -/
def Aligned {V : Type} (a : List Nat) (p : List V) (a' : List Nat) (p' : List V) : Prop :=
  p'.length = a'.length ∧ ∀ n, n < a'.length → ∃ i, a'[n]? = a[i]? ∧ p'[n]? = p[i]? ∧ i < a.length

theorem select_positions {α β : Type} (m : List Bool) (l : List α) (l' : List β) (h : m.length = l.length) (h' : l'.length = l.length) :
    (select m l).length = (select m l').length ∧
      ∀ n, n < (select m l).length → ∃ i, i < l.length ∧ (select m l)[n]? = l[i]? ∧ (select m l')[n]? = l'[i]? := by
  induction m generalizing l l' with
  | nil => cases l <;> cases l' <;> simp_all [select]
  | cons b m ih =>
    cases l with
    | nil => simp at h
    | cons x l =>
      cases l' with
      | nil => simp at h'
      | cons y l' =>
        obtain ⟨h1, h2⟩ := ih l l' (by simpa using h) (by simpa using h')
        rw [select_cons, select_cons]
        cases b
        · simp only [Bool.false_eq_true, if_false]
          refine ⟨h1, fun n hn => ?_⟩
          obtain ⟨i, hi, a, b⟩ := h2 n hn
          exact ⟨i + 1, by simpa using hi, by simpa using a, by simpa using b⟩
        · simp only [if_true, List.length_cons]
          refine ⟨by rw [h1], fun n hn => ?_⟩
          cases n with
          | zero => exact ⟨0, by simp, by simp, by simp⟩
          | succ n =>
            obtain ⟨i, hi, a, b⟩ := h2 n (by omega)
            exact ⟨i + 1, by simpa using hi, by simpa using a, by simpa using b⟩

theorem mapM_getElem? {α β : Type} {f : α → Option β} {l : List α} {r : List β} (h : l.mapM f = some r) :
    r.length = l.length ∧ ∀ (n : Nat) x, l[n]? = some x → ∃ y, f x = some y ∧ r[n]? = some y := by
  induction l generalizing r with
  | nil => simp at h; subst h; simp
  | cons a l ih =>
    rw [List.mapM_cons] at h
    cases ha : f a with
    | none => simp [ha] at h
    | some b =>
      cases hr : l.mapM f with
      | none => simp [ha, hr] at h
      | some r' =>
        simp [ha, hr] at h
        subst h
        obtain ⟨h1, h2⟩ := ih hr
        refine ⟨by simp [h1], fun n x hn => ?_⟩
        cases n with
        | zero => simp at hn; subst hn; exact ⟨b, ha, by simp⟩
        | succ n => simp at hn; simpa using h2 n x hn

theorem nodup_of_firstOfRun_all (s : List Nat) (hs : s.Pairwise (· ≤ ·)) (h : (firstOfRun none s).all id = true) : s.Nodup := by
  have := (firstOfRun_select s hs none (by simp)).1
  rw [select_all _ _ (firstOfRun_length _ _) h] at this
  exact this.imp fun h => Nat.ne_of_lt h

/-- C49 with properties, when some face is repeated: values stay with their faces.  Missing: when no face is repeated but the
faces are not in order, they are sorted without their properties (`C49_properties_left_behind_violated`). -/
theorem C49_properties_aligned_partial {V : Type} (argsort : List Nat → List Nat) (hsort : Argsorts argsort) (a : List Nat)
    (props : List (List V)) (hne : props ≠ []) (hlen : ∀ p ∈ props, p.length = a.length) (hrep : ¬ a.Nodup) :
    ∃ a' props', sortAndRemoveDuplicates argsort a props = some (a', props') ∧ props'.length = props.length ∧
      a'.Pairwise (· < ·) ∧ (∀ x, x ∈ a' ↔ x ∈ a) ∧
      ∀ (n : Nat) p p', props[n]? = some p → props'[n]? = some p' → Aligned a p a' p' := by
  obtain ⟨hperm, s, hs, hss⟩ := hsort a
  obtain ⟨sl, sg⟩ := takeIdx_eq_some hs
  have hrange : ∀ i ∈ argsort a, i < a.length := fun i hi => by
    have := hperm.mem_iff.mp hi
    simpa using this
  have hsa : s.Perm a := by
    have h1 : s = (argsort a).map fun i => a.getD i 0 := by
      apply List.ext_getElem? 
      intro n
      by_cases hn : n < (argsort a).length
      · have e1 : (argsort a)[n]? = some (argsort a)[n] := List.getElem?_eq_getElem hn
        rw [sg n _ e1, List.getElem?_map, e1]
        have := hrange _ (List.getElem_mem hn)
        simp [this]
      · rw [List.getElem?_eq_none (by omega), List.getElem?_eq_none (by simpa using hn)]
    have h2 : a = (List.range a.length).map fun i => a.getD i 0 := by
      apply List.ext_getElem?
      intro n
      by_cases hn : n < a.length
      · simp [hn]
      · rw [List.getElem?_eq_none (by omega), List.getElem?_eq_none (by simpa using hn)]
    rw [h1]
    conv_rhs => rw [h2]
    exact hperm.map _
  have hall : (firstOfRun none s).all id = false := by
    rw [← Bool.not_eq_true]
    intro hc
    exact hrep (hsa.nodup_iff.mp (nodup_of_firstOfRun_all s hss hc))
  have hex : ∃ ps, props.mapM (fun p => takeIdx p (argsort a)) = some ps := by
    clear hne
    induction props with
    | nil => exact ⟨[], by simp⟩
    | cons p props ih =>
      obtain ⟨ps, hps⟩ := ih fun q hq => hlen q (List.mem_cons_of_mem _ hq)
      obtain ⟨r, hr⟩ := takeIdx_total (l := p) (idx := argsort a) fun i hi => by
        rw [hlen p List.mem_cons_self]; exact hrange i hi
      exact ⟨r :: ps, by simp [hps, hr]⟩
  obtain ⟨ps, hps⟩ := hex
  obtain ⟨pl, pg⟩ := mapM_getElem? hps
  obtain ⟨f1, f2⟩ := firstOfRun_select s hss none (by simp)
  refine ⟨select (firstOfRun none s) s, ps.map (select (firstOfRun none s)), ?_, by simp [pl], f1, ?_, ?_⟩
  · unfold sortAndRemoveDuplicates
    rw [if_neg, if_neg hne]
    · dsimp only
      rw [hs]
      dsimp only
      rw [hall, hps]
      rfl
    · intro hc
      apply hrep
      rcases a with _ | ⟨x, _ | ⟨y, l⟩⟩ <;> simp_all
  · intro x
    rw [f2, hsa.mem_iff]
    simp
  · intro n p p' hp hp'
    obtain ⟨q, hq, hqn⟩ := pg n p hp
    rw [List.getElem?_map, hqn] at hp'
    simp only [Option.map_some, Option.some.injEq] at hp'
    subst hp'
    obtain ⟨ql, qg⟩ := takeIdx_eq_some hq
    obtain ⟨l1, l2⟩ := select_positions (firstOfRun none s) s q (firstOfRun_length _ _) (by omega)
    refine ⟨l1.symm, fun m hm => ?_⟩
    obtain ⟨i, hi, hi1, hi2⟩ := l2 m hm
    have hia : i < (argsort a).length := by omega
    have e1 : (argsort a)[i]? = some (argsort a)[i] := List.getElem?_eq_getElem hia
    refine ⟨(argsort a)[i], ?_, ?_, hrange _ (List.getElem_mem hia)⟩
    · rw [hi1, sg i _ e1]
    · rw [hi2, qg i _ e1]

/-- C49 does not hold for faces given out of order without repeats: the faces are sorted and their properties are not. -/
theorem C49_properties_left_behind_violated (argsort : List Nat → List Nat) (hsort : Argsorts argsort) :
    sortAndRemoveDuplicates argsort [5, 3] [["of face five", "of face three"]] = some ([3, 5], [["of face five", "of face three"]]) := by
  obtain ⟨hperm, s, hs, hss⟩ := hsort [5, 3]
  have h2 : argsort [5, 3] = [1, 0] := by
    have hl : (argsort [5, 3]).length = 2 := by simpa using hperm.length_eq
    have hp := hperm
    generalize hx : argsort [5, 3] = l at hp hl hs
    match l, hl with
    | [x, y], _ =>
      have hm : ∀ z ∈ [x, y], z < 2 := fun z hz => by
        have := hp.mem_iff.mp hz
        simpa using this
      have hnd : x ≠ y := by
        have := hp.nodup_iff.mpr List.nodup_range
        simpa using this
      have hx := hm x (by simp)
      have hy := hm y (by simp)
      interval_cases x <;> interval_cases y
      · exact absurd rfl hnd
      · exfalso
        have : s = [5, 3] := by
          have : takeIdx [5, 3] [0, 1] = some [5, 3] := by decide
          rw [this] at hs
          exact (Option.some.inj hs).symm
        subst this
        simp at hss
      · rfl
      · exact absurd rfl hnd
  have h3 : takeIdx [5, 3] [1, 0] = some [3, 5] := by decide
  unfold sortAndRemoveDuplicates
  rw [if_neg (by decide), if_neg (by decide)]
  dsimp only
  rw [h2, h3]
  rfl

/-- a sorting order exists, and repeated faces keep their values under it -/
example : sortAndRemoveDuplicates (fun _ => [1, 2, 0]) [5, 3, 3] [["five", "three", "also three"]] =
    some ([3, 5], [["three", "five"]]) := by decide

end Verif.Gcs
