import Verif.Gcs.Trans
import Verif.Gcs.Spec
import Mathlib.Tactic.FieldSimp
import Mathlib.Tactic.Ring
import Mathlib.Tactic.Linarith
import Mathlib.Tactic.NormNum
import Mathlib.Data.Rat.Defs
import Mathlib.Algebra.Order.Ring.Rat

/-! # C53: transmissibilities of connections; C54: export of fault faces with multipliers -/

namespace Verif.Gcs

/-! ## Specification -/

/-- flow through two resistances in series, `a` and `b` being the conductances of the two sides -/
def InSeries {K : Type} [Field K] (t mult a b : K) : Prop := t * (1 / a + 1 / b) = mult

/-- the half cell transmissibility of a face of a cell, as presented by `list_of_cell_face_pairs_for_feature_index` -/
def faceHalf {K : Type} (half : Cell → Nat × Nat → K) (f : Face) : K := half f.1 f.2

section
variable {K : Type} [Field K] [LinearOrder K] [IsStrictOrderedRing K]

/-- C53 for a connection whose second cell has the same half transmissibility at the face given for the first cell as at its own
face: the value is that of the two half cells in series, each reduced by its fractional area, times the multiplier; or zero
when either side is below tolerance.  Missing: connections where the two faces of the second cell differ. -/
theorem C53_series_partial (e : Ext) (half : Cell → Nat × Nat → K) (fa : Option (K × K)) (tolFa tolHalf mult : K) (c : Conn)
    (hT : 0 < tolHalf) (hF : 0 < tolFa)
    (hsame : half (denatural e c.cell1) (faceIndexInverse c.face0) = faceHalf half (decode e c).2) :
    let a := faceHalf half (decode e c).1
    let b := faceHalf half (decode e c).2
    let f := fa.getD (1, 1)
    let small := a < tolHalf ∨ b < tolHalf ∨ (fa.isSome = true ∧ (f.1 < tolFa ∨ f.2 < tolFa))
    (small → trValue e half fa tolFa tolHalf mult c = 0) ∧
      (¬ small → InSeries (trValue e half fa tolFa tolHalf mult c) mult (a * f.1) (b * f.2)) := by
  dsimp only
  unfold trValue
  dsimp only
  rw [hsame]
  have ha : half (denatural e c.cell0) (faceIndexInverse c.face0) = faceHalf half (decode e c).1 := rfl
  rw [ha]
  generalize faceHalf half (decode e c).1 = a
  generalize faceHalf half (decode e c).2 = b
  cases fa with
  | none =>
    simp only [Option.getD_none, Option.isSome_none, Bool.false_eq_true, false_and, or_false]
    refine ⟨fun h => by rw [if_pos h], fun h => ?_⟩
    rw [if_neg h]
    rw [not_or, not_lt, not_lt] at h
    have h1 : 0 < a := lt_of_lt_of_le hT h.1
    have h2 : 0 < b := lt_of_lt_of_le hT h.2
    unfold InSeries
    rw [div_mul_cancel₀]
    positivity
  | some f =>
    obtain ⟨f1, f2⟩ := f
    simp only [Option.getD_some, Option.isSome_some, true_and]
    refine ⟨fun h => ?_, fun h => ?_⟩
    · by_cases h' : a < tolHalf ∨ b < tolHalf
      · rw [if_pos h']
      · rw [if_neg h', if_pos]
        rcases h with h | h | h
        · exact absurd (Or.inl h) h'
        · exact absurd (Or.inr h) h'
        · exact h
    · rw [not_or, not_or, not_or, not_lt, not_lt, not_lt, not_lt] at h
      rw [if_neg (by rw [not_or, not_lt, not_lt]; exact ⟨h.1, h.2.1⟩), if_neg (by rw [not_or, not_lt, not_lt]; exact h.2.2)]
      have h1 : 0 < a := lt_of_lt_of_le hT h.1
      have h2 : 0 < b := lt_of_lt_of_le hT h.2.1
      have h3 : 0 < f1 := lt_of_lt_of_le hF h.2.2.1
      have h4 : 0 < f2 := lt_of_lt_of_le hF h.2.2.2
      unfold InSeries
      rw [div_mul_cancel₀]
      positivity

/-- C53, one value per connection, depending on that connection only -/
theorem C53_per_connection (e : Ext) (half : Cell → Nat × Nat → K) (fa : Nat → Option (K × K)) (tolFa tolHalf : K) (mult : Nat → K)
    (cs : List Conn) :
    (trArray e half fa tolFa tolHalf mult cs).length = cs.length ∧
    ∀ (n : Nat) (c : Conn), cs[n]? = some c →
      (trArray e half fa tolFa tolHalf mult cs)[n]? = some (trValue e half (fa n) tolFa tolHalf (mult n) c) := by
  unfold trArray
  refine ⟨by simp, fun n c h => ?_⟩
  rw [List.getElem?_mapIdx, h]; rfl

/-- with fractional areas up to one and a multiplier up to one, the transmissibility is positive and no more than either half -/
theorem C53_bounds (t mult a b : K) (ha : 0 < a) (hb : 0 < b) (hm : 0 < mult) (hm1 : mult ≤ 1) (h : InSeries t mult a b) :
    0 < t ∧ t < a ∧ t < b ∧ t = mult * (a * b / (a + b)) := by
  unfold InSeries at h
  have hab : 0 < a + b := by positivity
  have ht : t = mult * (a * b / (a + b)) := by
    rw [← h]
    field_simp
    rw [add_comm b a]
  have hle : mult * (a * b / (a + b)) ≤ a * b / (a + b) := by
    have : 0 < a * b / (a + b) := by positivity
    nlinarith
  have h1 : a * b / (a + b) < a := by rw [div_lt_iff₀ hab]; nlinarith
  have h2 : a * b / (a + b) < b := by rw [div_lt_iff₀ hab]; nlinarith
  exact ⟨by rw [ht]; positivity, by linarith, by linarith, ht⟩

end

/-- half cell transmissibilities which differ between the plus and the minus face of the second cell -/
def exHalf (c : Cell) (f : Nat × Nat) : Rat := if c = (0, 0, 1) ∧ f = (2, 0) then 1 else 3

/-- hypotheses of `C53_series_partial` are met, for equal half transmissibilities -/
example : trValue ⟨1, 1, 2⟩ (fun _ _ => (3 : Rat)) (some (1, 1 / 2)) (1 / 10000) (1 / 100000) 1 ⟨0, 1, 3, 5⟩ = 1 := by decide +kernel

/-- C53 does not hold in general: for the I+ face of one cell connected to the I- face of the next, whose half transmissibilities
are 3 and 1, the value is 3/2 (the I+ face of the second cell has been used) and not 3/4. -/
theorem C53_second_face_violated :
    let c : Conn := ⟨0, 1, 3, 5⟩
    let t := trValue ⟨1, 1, 2⟩ exHalf none (1 / 10000) (1 / 100000) 1 c
    faceHalf exHalf (decode ⟨1, 1, 2⟩ c).1 = 3 ∧ faceHalf exHalf (decode ⟨1, 1, 2⟩ c).2 = 1 ∧ t = 3 / 2 ∧ ¬ InSeries t 1 3 1 := by
  refine ⟨by decide +kernel, by decide +kernel, by decide +kernel, ?_⟩
  intro h
  rw [show trValue ⟨1, 1, 2⟩ exHalf none (1 / 10000) (1 / 100000) 1 ⟨0, 1, 3, 5⟩ = 3 / 2 by decide +kernel] at h
  unfold InSeries at h
  norm_num at h

/-! ## Export -/

variable {K : Type}

/-- the side of a connection -/
def sideOf (e : Ext) (side : Nat) (c : Conn) : Face := if side = 0 then (decode e c).1 else (decode e c).2

/-- how a simulator reads the file: each row applies, to all the cells of its (inclusive, one based) ranges, the last header -/
def readLines : Option (Nat × Nat × String) → List (Line K) → List (String × Face × K)
  | _, [] => []
  | _, .header axis pol name :: ls => readLines (some (axis, pol, name)) ls
  | head, .row i1 i2 j1 j2 k1 k2 t :: ls =>
    (match head with
      | none => []
      | some (axis, pol, name) =>
        (List.range' k1 (k2 + 1 - k1)).flatMap fun k => (List.range' j1 (j2 + 1 - j1)).flatMap fun j =>
          (List.range' i1 (i2 + 1 - i1)).map fun i => (name, ((k - 1, j - 1, i - 1), (axis, pol)), t))
      ++ readLines head ls

/-- faces of a row of output -/
def OutRow.faces (name : String) (r : OutRow K) : List (String × Face × K) :=
  (List.range' r.k1 (r.k2 + 1 - r.k1)).map fun k => (name, ((k, r.j, r.i), (r.axis, r.pol)), r.tmult)

theorem range'_succ_map {α : Type} (a n : Nat) (f : Nat → α) : (List.range' (a + 1) n).map (fun k => f (k - 1)) = (List.range' a n).map f := by
  induction n generalizing a with
  | zero => rfl
  | succ n ih =>
    rw [List.range'_succ, List.range'_succ, List.map_cons, List.map_cons, ih (a + 1)]
    rfl

theorem read_row (axis pol : Nat) (name : String) (r : OutRow K) (ha : r.axis = axis) (hp : r.pol = pol) (ls : List (Line K)) :
    readLines (some (axis, pol, name)) (Line.row (r.i + 1) (r.i + 1) (r.j + 1) (r.j + 1) (r.k1 + 1) (r.k2 + 1) r.tmult :: ls) =
      r.faces name ++ readLines (some (axis, pol, name)) ls := by
  subst ha hp
  conv_lhs => unfold readLines
  congr 1
  dsimp only
  unfold OutRow.faces
  rw [show r.i + 1 + 1 - (r.i + 1) = 1 by omega, show r.j + 1 + 1 - (r.j + 1) = 1 by omega,
    show r.k2 + 1 + 1 - (r.k1 + 1) = r.k2 + 1 - r.k1 by omega]
  simp only [List.range'_one, List.map_cons, List.map_nil, List.flatMap_cons, List.flatMap_nil, List.append_nil,
    Nat.add_sub_cancel]
  rw [← range'_succ_map r.k1 (r.k2 + 1 - r.k1) (fun k => (name, ((k, r.j, r.i), (r.axis, r.pol)), r.tmult))]
  rw [List.flatMap_def]
  generalize List.range' (r.k1 + 1) (r.k2 + 1 - r.k1) = l
  induction l with
  | nil => rfl
  | cons x l ih => rw [List.map_cons, List.flatten_cons, ih]; rfl

theorem read_rows (name : String) (rs : List (OutRow K)) (head : Option (Nat × Nat × String)) (ls : List (Line K)) :
    readLines head ((writeRows name head rs).1 ++ ls) = rs.flatMap (OutRow.faces name) ++ readLines (writeRows name head rs).2 ls := by
  induction rs generalizing head with
  | nil => rfl
  | cons r rs ih =>
    unfold writeRows
    dsimp only
    rw [List.flatMap_cons, List.append_assoc, List.append_assoc]
    by_cases h : head = some (r.axis, r.pol, name)
    · subst h
      rw [if_pos rfl, List.nil_append, List.cons_append, read_row _ _ _ _ rfl rfl, ih]
    · rw [if_neg h, List.singleton_append]
      show readLines (some (r.axis, r.pol, name)) _ = _
      rw [List.cons_append, read_row _ _ _ _ rfl rfl, ih]

/-- the face of a row before export -/
def FaceRow.face (f : FaceRow K) : Face := ((f.k, f.j, f.i), (f.axis, f.pol))

/-- the faces of a run -/
def Run.faces (r : Run) : List Face := (List.range' r.k (r.k2 + 1 - r.k)).map fun k => ((k, r.j, r.i), (r.axis, r.pol))

theorem out_faces (r : Run) (t : K) (name : String) : (r.out t).faces name = r.faces.map fun f => (name, f, t) := by
  unfold OutRow.faces Run.out Run.faces
  rw [List.map_map]; rfl

theorem runs_faces (name : String) (fs : List (FaceRow K)) (r : Run) (hr : r.k ≤ r.k2) (t : K) :
    ((runs (some r) fs t).flatMap (OutRow.faces name)).map (fun x => (x.1, x.2.1)) =
      (r.faces ++ fs.map FaceRow.face).map fun f => (name, f) := by
  induction fs generalizing r t with
  | nil =>
    simp only [runs, List.flatMap_cons, List.flatMap_nil, List.append_nil, out_faces, List.map_map, List.map_nil]
    rfl
  | cons f fs ih =>
    unfold runs
    split
    · rw [List.flatMap_cons, List.map_append, ih _ (Nat.le_refl _), out_faces, List.map_append, List.map_append, List.map_map]
      congr 1
      rw [List.map_cons, List.map_cons]
      unfold Run.faces
      dsimp only
      rw [show f.k + 1 - f.k = 1 by omega, List.range'_one]
      rfl
    · rename_i h
      simp only [not_or, ne_eq, Decidable.not_not] at h
      obtain ⟨h1, h2, h3, h4, h5⟩ := h
      rw [ih _ (by dsimp only; omega)]
      congr 1
      have : (({ r with k2 := f.k } : Run).faces) = r.faces ++ [f.face] := by
        unfold Run.faces FaceRow.face
        dsimp only
        rw [h5, show r.k2 + 1 + 1 - r.k = (r.k2 + 1 - r.k) + 1 by omega, List.range'_1_concat, List.map_append]
        rw [List.map_singleton, show r.k + (r.k2 + 1 - r.k) = r.k2 + 1 by omega, h1, h2, h3, h4]
      rw [this, List.append_assoc]
      rfl

theorem runs_faces_none (name : String) (fs : List (FaceRow K)) (t : K) :
    ((runs none fs t).flatMap (OutRow.faces name)).map (fun x => (x.1, x.2.1)) = fs.map fun f => (name, f.face) := by
  cases fs with
  | nil => rfl
  | cons f fs =>
    unfold runs
    rw [runs_faces name fs _ (Nat.le_refl _), List.map_append]
    unfold Run.faces
    dsimp only
    rw [show f.k + 1 - f.k = 1 by omega, List.range'_one, List.map_map, List.map_map, List.map_cons]
    rfl

theorem runs_mult (m : K) (fs : List (FaceRow K)) (h : ∀ f ∈ fs, f.mult = m) (st : Option Run) (t : K) (ht : st = none ∨ t = m) :
    ∀ o ∈ runs st fs t, o.tmult = m := by
  induction fs generalizing st t with
  | nil =>
    cases st with
    | none => intro o ho; simp [runs] at ho
    | some r =>
      intro o ho
      simp only [runs, List.mem_singleton] at ho
      rw [ho]
      rcases ht with ht | ht
      · cases ht
      · exact ht
  | cons f fs ih =>
    have hf := h f List.mem_cons_self
    have hfs : ∀ f ∈ fs, f.mult = m := fun g hg => h g (List.mem_cons_of_mem _ hg)
    cases st with
    | none =>
      unfold runs
      exact ih hfs _ _ (Or.inr hf)
    | some r =>
      unfold runs
      split
      · intro o ho
        rcases List.mem_cons.mp ho with rfl | ho
        · exact hf
        · exact ih hfs _ _ (Or.inr hf) o ho
      · exact ih hfs _ _ (Or.inr hf)

/-- everything read back from the lines of the file, in the order written -/
theorem read_export (e : Ext) (sides : List Nat) (t0 : K) (feats : List (String × List (Conn × K)))
    (head : Option (Nat × Nat × String)) :
    readLines head (exportLines e sides t0 feats head) =
      feats.flatMap fun f => sides.flatMap fun side =>
        (runs none (sortRows (sideRows e side f.2)) t0).flatMap (OutRow.faces f.1) := by
  induction feats generalizing head with
  | nil => rfl
  | cons f feats ih =>
    obtain ⟨name, cs⟩ := f
    unfold exportLines
    dsimp only
    rw [List.flatMap_cons]
    have hside : ∀ (sides : List Nat) (pre : List (Line K)) (hd h0 : Option (Nat × Nat × String)) (ls : List (Line K))
        (acc : List (String × Face × K)),
        (∀ ls, readLines h0 (pre ++ ls) = acc ++ readLines hd ls) →
        let r := sides.foldl (fun st side =>
          let w := writeRows name st.2 (runs none (sortRows (sideRows e side cs)) t0)
          (st.1 ++ w.1, w.2)) (pre, hd)
        readLines h0 (r.1 ++ ls) = acc ++ (sides.flatMap fun side =>
          (runs none (sortRows (sideRows e side cs)) t0).flatMap (OutRow.faces name)) ++ readLines r.2 ls := by
      intro sides
      induction sides with
      | nil =>
        intro pre hd h0 ls acc h
        simp only [List.foldl_nil, List.flatMap_nil, List.append_nil]
        exact h ls
      | cons s sides ihs =>
        intro pre hd h0 ls acc h
        simp only [List.foldl_cons]
        rw [ihs _ _ h0 ls (acc ++ (runs none (sortRows (sideRows e s cs)) t0).flatMap (OutRow.faces name))]
        · rw [List.flatMap_cons, List.append_assoc, List.append_assoc, List.append_assoc, List.append_assoc]
        · intro ls'
          rw [List.append_assoc, h, read_rows, List.append_assoc]
    have := hside sides [] head head
      (exportLines e sides t0 feats (sides.foldl (fun st side =>
          let w := writeRows name st.2 (runs none (sortRows (sideRows e side cs)) t0)
          (st.1 ++ w.1, w.2)) (([] : List (Line K)), head)).2) [] (fun ls => rfl)
    dsimp only at this
    rw [this, ih, List.nil_append]

theorem sideRows_face (e : Ext) (side : Nat) (cs : List (Conn × K)) :
    (sideRows e side cs).map FaceRow.face = cs.map fun c => sideOf e side c.1 := by
  unfold sideRows
  rw [List.map_map]
  refine List.map_congr_left fun c _ => ?_
  simp only [Function.comp_apply, FaceRow.face, sideOf]

theorem perm_flatMap {α β : Type} (l : List α) (f g : α → List β) (h : ∀ a ∈ l, (f a).Perm (g a)) : (l.flatMap f).Perm (l.flatMap g) := by
  induction l with
  | nil => exact List.Perm.nil
  | cons a l ih =>
    rw [List.flatMap_cons, List.flatMap_cons]
    exact (h a List.mem_cons_self).append (ih fun b hb => h b (List.mem_cons_of_mem _ hb))

/-- C54, the faces: a simulator reading the exported file finds, for each feature, exactly the cell faces of its connections, on
each side exported, each as often as it is in the set. -/
theorem C54_faces (e : Ext) (sides : List Nat) (t0 : K) (feats : List (String × List (Conn × K))) :
    ((readLines none (exportLines e sides t0 feats none)).map fun x => (x.1, x.2.1)).Perm
      (feats.flatMap fun f => sides.flatMap fun side => f.2.map fun c => (f.1, sideOf e side c.1)) := by
  rw [read_export, List.map_flatMap]
  refine perm_flatMap _ _ _ fun f _ => ?_
  rw [List.map_flatMap]
  refine perm_flatMap _ _ _ fun side _ => ?_
  rw [runs_faces_none]
  have h := ((List.perm_insertionSort (fun a b : FaceRow K => a.le b = true) (sideRows e side f.2)).map FaceRow.face).map
    fun g => (f.1, g)
  rw [sideRows_face, List.map_map, List.map_map] at h
  exact h

/-- C54 with multipliers, when all the connections of a feature have the same one: they are read back with the faces.
Missing: multipliers that vary within a feature. -/
theorem C54_multipliers_partial (e : Ext) (sides : List Nat) (t0 : K) (feats : List (String × List (Conn × K)))
    (m : String × List (Conn × K) → K) (hm : ∀ f ∈ feats, ∀ c ∈ f.2, c.2 = m f) :
    (readLines none (exportLines e sides t0 feats none)).Perm
      (feats.flatMap fun f => sides.flatMap fun side => f.2.map fun c => (f.1, sideOf e side c.1, c.2)) := by
  rw [read_export]
  refine perm_flatMap _ _ _ fun f hf => perm_flatMap _ _ _ fun side _ => ?_
  have hsort := List.perm_insertionSort (fun a b : FaceRow K => a.le b = true) (sideRows e side f.2)
  have h1 : ∀ x ∈ (runs none (sortRows (sideRows e side f.2)) t0).flatMap (OutRow.faces f.1), x = (x.1, x.2.1, m f) := by
    intro x hx
    rw [List.mem_flatMap] at hx
    obtain ⟨o, ho, hxo⟩ := hx
    have ht := runs_mult (m f) (sortRows (sideRows e side f.2)) (fun r hr => by
      have hr' : r ∈ sideRows e side f.2 := hsort.mem_iff.mp hr
      unfold sideRows at hr'
      rw [List.mem_map] at hr'
      obtain ⟨c, hc, rfl⟩ := hr'
      exact hm f hf c hc) none t0 (Or.inl rfl) o ho
    unfold OutRow.faces at hxo
    rw [List.mem_map] at hxo
    obtain ⟨k, -, rfl⟩ := hxo
    rw [ht]
  have h2 : (runs none (sortRows (sideRows e side f.2)) t0).flatMap (OutRow.faces f.1) =
      ((sortRows (sideRows e side f.2)).map FaceRow.face).map fun g => (f.1, g, m f) := by
    rw [← List.map_id ((runs none (sortRows (sideRows e side f.2)) t0).flatMap (OutRow.faces f.1))]
    rw [List.map_congr_left (f := id) (g := (fun y : String × Face => (y.1, y.2, m f)) ∘ fun x : String × Face × K => (x.1, x.2.1)) (fun x hx => h1 x hx)]
    rw [← List.map_map, runs_faces_none, List.map_map, List.map_map]
    rfl
  rw [h2]
  have h := (hsort.map FaceRow.face).map fun g => (f.1, g, m f)
  rw [sideRows_face, List.map_map (l := f.2)] at h
  refine List.Perm.trans h (List.Perm.of_eq (List.map_congr_left fun c hc => ?_))
  simp only [Function.comp_apply, hm f hf c hc]

/-- hypotheses met: one feature of three I faces, two of them one above the other -/
example : (readLines none (exportLines ⟨2, 1, 3⟩ (exportSides false false) (1 : Rat)
    [("F", [(⟨0, 1, 3, 5⟩, 1 / 2), (⟨1, 2, 3, 5⟩, 1 / 2), (⟨3, 4, 3, 5⟩, 1 / 2)])] none)) =
    [("F", ((0, 0, 0), (2, 1)), 1 / 2), ("F", ((1, 0, 0), (2, 1)), 1 / 2), ("F", ((0, 0, 1), (2, 1)), 1 / 2)] := by decide +kernel

/-- C54 does not hold for multipliers that vary: a row is written with the multiplier of the face after it.  Here the faces of two
cells have multipliers 1/2 and 1, and both are exported with 1. -/
theorem C54_next_multiplier_violated :
    readLines none (exportLines ⟨1, 1, 3⟩ (exportSides false false) (1 : Rat) [("F", [(⟨0, 1, 3, 5⟩, 1 / 2), (⟨1, 2, 3, 5⟩, 1)])] none) =
      [("F", ((0, 0, 0), (2, 1)), 1), ("F", ((0, 0, 1), (2, 1)), 1)] := by decide +kernel

/-- C54 does not hold for multipliers that vary within a column: faces are merged and all get the multiplier of the lowest. -/
theorem C54_merged_multiplier_violated :
    readLines none (exportLines ⟨2, 1, 2⟩ (exportSides false false) (1 : Rat) [("F", [(⟨0, 1, 3, 5⟩, 1 / 2), (⟨2, 3, 3, 5⟩, 1)])] none) =
      [("F", ((0, 0, 0), (2, 1)), 1), ("F", ((1, 0, 0), (2, 1)), 1)] := by decide +kernel

end Verif.Gcs
