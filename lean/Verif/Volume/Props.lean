import Verif.Volume.Lemmas
import Mathlib.Data.List.Perm.Basic

/-! # C24: volumes of hexahedral cells; C44: volumes of unstructured cells -/

namespace Verif.Volume

/-- six times the signed volume of the tetrahedron with a face's corners as its vertices: zero when the face is planar -/
def twist {K : Type} [Field K] (a b c d : Vec K) : K := triple (b - a) (c - a) (d - a)

/-- every face is planar -/
def PlanarFaces {K : Type} [Field K] (cp : Corners K) : Prop :=
  (∀ k, twist (cp k false false) (cp k false true) (cp k true true) (cp k true false) = 0) ∧
  (∀ j, twist (cp false j false) (cp true j false) (cp true j true) (cp false j true) = 0) ∧
  (∀ i, twist (cp false false i) (cp false true i) (cp true true i) (cp true false i) = 0)

/-- the sum of the twists of the six faces, corners in order round each face, all in the same sense seen from inside -/
def totalTwist {K : Type} [Field K] (cp : Corners K) : K :=
  twist (cp false false false) (cp false false true) (cp false true true) (cp false true false) -
  twist (cp true false false) (cp true false true) (cp true true true) (cp true true false) +
  twist (cp false false false) (cp true false false) (cp true false true) (cp false false true) -
  twist (cp false true false) (cp true true false) (cp true true true) (cp false true true) +
  twist (cp false false false) (cp false true false) (cp true true false) (cp true false false) -
  twist (cp false false true) (cp false true true) (cp true true true) (cp true false true)

/-- The volume returned for a cell is the volume enclosed by its bilinear faces plus a sixth of the total twist of the faces,
whatever centre is used.  (The volume enclosed is the integral over the unit cube of the determinant of the trilinear map
through the corners; negated for `off_hand`.) -/
theorem C24_volume_and_twist_partial (cp : Corners ℝ) (c : Option (Vec ℝ)) (offHand : Bool) :
    tetraCellVolume cp c offHand =
      (if offHand then -1 else 1) * (signedVolume cp + totalTwist cp / 6) := by
  have key : ∀ m : Vec ℝ, tetraCellVolume cp (some m) false = signedVolume cp + totalTwist cp / 6 := by
    intro m
    rw [signedVolume_sum]
    simp only [sI, w4, eI, eJ, eK]
    simp only [tetraCellVolume, totalTwist]
    generalize cp false false false = a
    generalize cp false false true = b
    generalize cp false true false = c
    generalize cp false true true = d
    generalize cp true false false = e
    generalize cp true false true = f
    generalize cp true true false = g
    generalize cp true true true = h
    simp only [pyr, dot, cross, triple, twist, sub_def, Bool.false_eq_true, if_false]
    ring
  have hc : ∀ o, tetraCellVolume cp none o = tetraCellVolume cp (some (centre cp)) o := fun o => rfl
  have ho : ∀ m : Vec ℝ, tetraCellVolume cp (some m) true = - tetraCellVolume cp (some m) false := by
    intro m
    simp only [tetraCellVolume, Bool.false_eq_true, if_false, if_true]
    ring
  cases c <;> cases offHand <;> simp only [hc, ho, key, Bool.false_eq_true, if_false, if_true] <;> ring

/-- In particular the volume is right for a cell all of whose faces are planar. -/
theorem C24_volume_planar_faces_partial (cp : Corners ℝ) (h : PlanarFaces cp) (c : Option (Vec ℝ)) (offHand : Bool) :
    tetraCellVolume cp c offHand = if offHand then -signedVolume cp else signedVolume cp := by
  rw [C24_volume_and_twist_partial]
  have ht : totalTwist cp = 0 := by
    simp only [totalTwist, h.1, h.2.1, h.2.2]
    ring
  rw [ht]
  cases offHand
  · simp
  · simp

/-- a unit cube whose upper far corner is raised by one -/
def raised : Corners ℝ := fun k j i => ⟨if i then 1 else 0, if j then 1 else 0, if k then (if j && i then 2 else 1) else 0⟩

/-- The full claim fails: the volume under the bilinear surface on the unit square with corner heights 1, 1, 1 and 2 is 5/4
but 17/12 is returned. -/
theorem C24_volume_bilinear_faces_violated :
    signedVolume raised = 5 / 4 ∧ tetraCellVolume raised none false = 17 / 12 := by
  have h1 : tetraCellVolume raised none false = 17 / 12 := by
    simp only [tetraCellVolume, centre, raised, pyr, dot, cross, sub_def, add_def, Bool.false_eq_true, if_false, if_true,
      Bool.and_true, Bool.and_false, Bool.true_and]
    norm_num
  have h2 := C24_volume_and_twist_partial raised none false
  have h3 : totalTwist raised = 1 := by
    simp only [totalTwist, twist, triple, raised, sub_def, Bool.false_eq_true, if_false, if_true,
      Bool.and_true, Bool.and_false, Bool.true_and]
    norm_num
  rw [h1, h3] at h2
  simp only [Bool.false_eq_true, if_false] at h2
  exact ⟨by linarith, h1⟩

section
variable {K : Type} [Field K]

/-- The centre has no influence on the volume. -/
theorem C24_centre_irrelevant [CharZero K] (cp : Corners K) (c c' : Option (Vec K)) (offHand : Bool) :
    tetraCellVolume cp c offHand = tetraCellVolume cp c' offHand := by
  have key : ∀ m n : Vec K, tetraCellVolume cp (some m) offHand = tetraCellVolume cp (some n) offHand := by
    intro m n
    simp only [tetraCellVolume, pyr, dot, cross, sub_def]
    congr 1
    have : ∀ x y : K, x = y → (if offHand then -x else x) = (if offHand then -y else y) := fun x y h => by rw [h]
    apply this
    ring
  have hn : tetraCellVolume cp none offHand = tetraCellVolume cp (some (centre cp)) offHand := rfl
  cases c <;> cases c' <;> (try simp only [hn]) <;> exact key _ _

/-- Moving a cell leaves its volume as it is. -/
theorem C24_translation [CharZero K] (cp : Corners K) (t : Vec K) (offHand : Bool) :
    tetraCellVolume (fun k j i => cp k j i + t) none offHand = tetraCellVolume cp none offHand := by
  rw [C24_centre_irrelevant _ none (some ⟨0, 0, 0⟩), C24_centre_irrelevant cp none (some ⟨0, 0, 0⟩)]
  simp only [tetraCellVolume, pyr, dot, cross, sub_def, add_def]
  congr 1
  have : ∀ x y : K, x = y → (if offHand then -x else x) = (if offHand then -y else y) := fun x y h => by rw [h]
  apply this
  ring

/-- A parallelepiped with edges ei, ej, ek in the i, j and k directions has the volume given by the scalar triple product. -/
theorem C24_parallelepiped [CharZero K] (o ei ej ek : Vec K) (offHand : Bool) :
    tetraCellVolume (fun k j i => o + smul (if i then 1 else 0) ei + smul (if j then 1 else 0) ej +
      smul (if k then 1 else 0) ek) none offHand = if offHand then -triple ei ej ek else triple ei ej ek := by
  rw [C24_centre_irrelevant _ none (some o)]
  simp only [tetraCellVolume, pyr, dot, cross, sub_def, add_def, smul, triple, Bool.false_eq_true, if_false, if_true]
  cases offHand
  · simp only [Bool.false_eq_true, if_false]
    ring
  · simp only [if_true]
    ring

/-- The whole-array function and the loop over cells give each cell the volume given by the single cell function. -/
theorem C24_arrays_agree (cps : List (Corners K)) (offHand : Bool) :
    tetraVolumes cps none offHand = cps.map (fun cp => tetraCellVolume cp none offHand) ∧
    tetraVolumesSlow cps none offHand = cps.map (fun cp => tetraCellVolume cp none offHand) := by
  constructor
  · induction cps with
    | nil => cases offHand <;> rfl
    | cons cp cps ih =>
      have step : tetraVolumes (cp :: cps) none offHand = tetraCellVolume cp none offHand :: tetraVolumes cps none offHand := by
        cases offHand
        · rfl
        · simp only [tetraVolumes, List.map_cons, List.zipWith_cons_cons, pyrs, if_true]
          refine congrArg₂ _ ?_ rfl
          simp only [tetraCellVolume, pyr, if_true]
          rw [neg_div]
      rw [step, ih]
      rfl
  · induction cps with
    | nil => rfl
    | cons cp cps ih =>
      rw [List.map_cons, ← ih]
      rfl

/-- The same for given centres. -/
theorem C24_arrays_agree_centres (cps : List (Corners K)) (cs : List (Vec K)) (h : cs.length = cps.length) (offHand : Bool) :
    tetraVolumes cps (some cs) offHand = List.zipWith (fun cp c => tetraCellVolume cp (some c) offHand) cps cs ∧
    tetraVolumesSlow cps (some cs) offHand = List.zipWith (fun cp c => tetraCellVolume cp (some c) offHand) cps cs := by
  constructor
  · induction cps generalizing cs with
    | nil => cases offHand <;> rfl
    | cons cp cps ih =>
      cases cs with
      | nil => simp at h
      | cons c cs =>
        have step : tetraVolumes (cp :: cps) (some (c :: cs)) offHand =
            tetraCellVolume cp (some c) offHand :: tetraVolumes cps (some cs) offHand := by
          cases offHand
          · rfl
          · simp only [tetraVolumes, List.map_cons, List.zipWith_cons_cons, pyrs, if_true]
            refine congrArg₂ _ ?_ rfl
            simp only [tetraCellVolume, pyr, if_true]
            rw [neg_div]
        rw [step, ih cs (by simpa using h)]
        rfl
  · unfold tetraVolumesSlow
    dsimp only
    rw [List.zip_eq_zipWith, List.map_zipWith]

end

/-! ### unstructured cells -/

/-- the six faces of a cell, nodes in order round the face, anticlockwise in a right handed i, j, k space seen from outside -/
def outwardFaces {K : Type} (cp : Corners K) : List (Vec K × Vec K × Vec K × Vec K) :=
  [(cp false false false, cp false true false, cp false true true, cp false false true),
   (cp true false false, cp true false true, cp true true true, cp true true false),
   (cp false false false, cp false false true, cp true false true, cp true false false),
   (cp false true false, cp true true false, cp true true true, cp false true true),
   (cp false false false, cp true false false, cp true true false, cp false true false),
   (cp false false true, cp false true true, cp true true true, cp true false true)]

/-- `f` stores the loop of nodes `q`: starting anywhere, in the same sense if the flag is set and in the opposite sense if
not -/
def Stores {K : Type} (q : Vec K × Vec K × Vec K × Vec K) (f : (Vec K × Vec K × Vec K × Vec K) × Bool) : Prop :=
  match q, f with
  | (a, b, c, d), (n, true) => n = (a, b, c, d) ∨ n = (b, c, d, a) ∨ n = (c, d, a, b) ∨ n = (d, a, b, c)
  | (a, b, c, d), (n, false) => n = (d, c, b, a) ∨ n = (c, b, a, d) ∨ n = (b, a, d, c) ∨ n = (a, d, c, b)

theorem hexaVolume_perm (apex : Vec ℝ) (rh : Bool) {l l' : List ((Vec ℝ × Vec ℝ × Vec ℝ × Vec ℝ) × Bool)}
    (h : l.Perm l') : hexaVolume apex rh l = hexaVolume apex rh l' := by
  induction h with
  | nil => rfl
  | cons x h ih => obtain ⟨⟨a, b, c, d⟩, f⟩ := x; simp only [hexaVolume, ih]
  | swap x y l => obtain ⟨⟨a, b, c, d⟩, f⟩ := x; obtain ⟨⟨a', b', c', d'⟩, f'⟩ := y; simp only [hexaVolume]; ring
  | trans h1 h2 ih1 ih2 => rw [ih1, ih2]

theorem pyramid_stores (apex : Vec ℝ) (rh : Bool) (q : Vec ℝ × Vec ℝ × Vec ℝ × Vec ℝ)
    (f : (Vec ℝ × Vec ℝ × Vec ℝ × Vec ℝ) × Bool) (h : Stores q f) :
    pyramidVolume apex f.1.1 f.1.2.1 f.1.2.2.1 f.1.2.2.2 (rh == f.2) =
      (if rh then 1 else -1) * pyramidVolume apex q.1 q.2.1 q.2.2.1 q.2.2.2 true := by
  obtain ⟨a, b, c, d⟩ := q
  obtain ⟨n, fl⟩ := f
  have h1 : (true == false) = false := rfl
  have h2 : (false == true) = false := rfl
  cases fl <;> cases rh <;> rcases h with h | h | h | h <;> subst h <;>
    simp only [pyramidVolume, pyr, dot, cross, sub_def, Bool.false_eq_true, if_false, if_true, beq_self_eq_true,
      Bool.not_true, Bool.not_false, h1, h2] <;> ring

/-- The volume of a cell of an unstructured hexahedral grid is the volume enclosed by its bilinear faces, however the nodes
of the faces are listed: whatever point is used as apex, whatever the order of the faces, the node each face starts from and
the sense in which its nodes are listed, provided the sense is what its handedness flag says. -/
theorem C44_hexa_volume (cp : Corners ℝ) (apex : Vec ℝ) (rh : Bool) (fs gs : List ((Vec ℝ × Vec ℝ × Vec ℝ × Vec ℝ) × Bool))
    (hp : fs.Perm gs) (hs : List.Forall₂ Stores (outwardFaces cp) gs) :
    hexaVolume apex rh fs = if rh then signedVolume cp else -signedVolume cp := by
  rw [hexaVolume_perm apex rh hp]
  unfold outwardFaces at hs
  have ex : ∀ (q : Vec ℝ × Vec ℝ × Vec ℝ × Vec ℝ) (qs : List (Vec ℝ × Vec ℝ × Vec ℝ × Vec ℝ)) gs,
      List.Forall₂ Stores (q :: qs) gs → ∃ f gs', gs = f :: gs' ∧ List.Forall₂ Stores qs gs' ∧
        hexaVolume apex rh gs = (if rh then 1 else -1) * pyramidVolume apex q.1 q.2.1 q.2.2.1 q.2.2.2 true +
          hexaVolume apex rh gs' := by
    intro q qs gs h
    cases h with
    | cons h1 h2 =>
      rename_i f gs'
      refine ⟨f, gs', rfl, h2, ?_⟩
      rw [← pyramid_stores apex rh q f h1]
      rfl
  obtain ⟨f1, g1, rfl, h1, e1⟩ := ex _ _ _ hs
  obtain ⟨f2, g2, rfl, h2, e2⟩ := ex _ _ _ h1
  obtain ⟨f3, g3, rfl, h3, e3⟩ := ex _ _ _ h2
  obtain ⟨f4, g4, rfl, h4, e4⟩ := ex _ _ _ h3
  obtain ⟨f5, g5, rfl, h5, e5⟩ := ex _ _ _ h4
  obtain ⟨f6, g6, rfl, h6, e6⟩ := ex _ _ _ h5
  cases h6
  rw [e1, e2, e3, e4, e5, e6]
  have key : signedVolume cp = tetraCellVolume cp none false - totalTwist cp / 6 := by
    rw [C24_volume_and_twist_partial]
    simp
  have main : ((outwardFaces cp).map fun q => pyramidVolume apex q.1 q.2.1 q.2.2.1 q.2.2.2 true).sum = signedVolume cp := by
    rw [key, C24_centre_irrelevant cp none (some apex)]
    simp only [outwardFaces, List.map_cons, List.map_nil, List.sum_cons, List.sum_nil, tetraCellVolume, totalTwist]
    generalize cp false false false = a
    generalize cp false false true = b
    generalize cp false true false = c
    generalize cp false true true = d
    generalize cp true false false = e
    generalize cp true false true = f
    generalize cp true true false = g
    generalize cp true true true = h
    simp only [pyramidVolume, pyr, dot, cross, triple, twist, sub_def, Bool.false_eq_true, if_false, Bool.not_true]
    ring
  rw [← main]
  simp only [outwardFaces, List.map_cons, List.map_nil, List.sum_cons, List.sum_nil, hexaVolume]
  cases rh
  · simp only [Bool.false_eq_true, if_false]
    ring
  · simp only [if_true]
    ring

/-- The block grid and the unstructured grid give the same cell different volumes when faces are not planar. -/
theorem C44_block_and_hexa_grids_violated : ∃ (cp : Corners ℝ) (fs : List ((Vec ℝ × Vec ℝ × Vec ℝ × Vec ℝ) × Bool)),
    List.Forall₂ Stores (outwardFaces cp) fs ∧ hexaVolume (centre cp) true fs ≠ tetraCellVolume cp none false := by
  refine ⟨raised, (outwardFaces raised).map fun q => (q, true), ?_, ?_⟩
  · simp only [outwardFaces, List.map_cons, List.map_nil]
    refine .cons (.inl rfl) (.cons (.inl rfl) (.cons (.inl rfl) (.cons (.inl rfl) (.cons (.inl rfl) (.cons (.inl rfl) .nil)))))
  · rw [C44_hexa_volume raised _ true _ _ (List.Perm.refl _) (by
      simp only [outwardFaces, List.map_cons, List.map_nil]
      refine .cons (.inl rfl) (.cons (.inl rfl) (.cons (.inl rfl) (.cons (.inl rfl) (.cons (.inl rfl) (.cons (.inl rfl) .nil))))))]
    rw [C24_volume_bilinear_faces_violated.1, C24_volume_bilinear_faces_violated.2]
    norm_num

section
variable {K : Type} [Field K] [LinearOrder K] [IsStrictOrderedRing K]

/-- The volume of a tetrahedron does not depend on the order of its vertices nor on its position, is not negative, and is a
sixth of the parallelepiped on its edges from any vertex. -/
theorem C44_tetrahedron_volume (a b c d t : Vec K) :
    0 ≤ tetrahedronVolume a b c d ∧ tetrahedronVolume a b c d = |triple (b - a) (c - a) (d - a)| / 6 ∧
    tetrahedronVolume b a c d = tetrahedronVolume a b c d ∧ tetrahedronVolume a c b d = tetrahedronVolume a b c d ∧
    tetrahedronVolume a b d c = tetrahedronVolume a b c d ∧
    tetrahedronVolume (a + t) (b + t) (c + t) (d + t) = tetrahedronVolume a b c d := by
  have neg : ∀ x y : K, x = -y → |x| / 6 = |y| / 6 := fun x y h => by rw [h, abs_neg]
  have pos : ∀ x y : K, x = y → |x| / 6 = |y| / 6 := fun x y h => by rw [h]
  unfold tetrahedronVolume
  refine ⟨by positivity, ?_, ?_, ?_, ?_, ?_⟩
  · apply neg
    simp only [dot, cross, triple, sub_def]
    ring
  · apply neg
    simp only [dot, cross, sub_def]
    ring
  · apply neg
    simp only [dot, cross, sub_def]
    ring
  · apply neg
    simp only [dot, cross, sub_def]
    ring
  · apply pos
    simp only [dot, cross, sub_def, add_def]
    ring

/-- The two ways of dividing a pyramid's base into triangles give, on average, the volume returned. -/
theorem C44_pyramid_volume (apex a b c d : Vec K) :
    pyramidVolume apex a b c d true =
      ((triple (a - apex) (b - apex) (c - apex) + triple (a - apex) (c - apex) (d - apex)) / 6 +
       (triple (a - apex) (b - apex) (d - apex) + triple (b - apex) (c - apex) (d - apex)) / 6) / 2 ∧
    pyramidVolume apex a b c d false = - pyramidVolume apex a b c d true := by
  constructor
  · simp only [pyramidVolume, pyr, dot, cross, triple, sub_def, Bool.not_true, Bool.false_eq_true, if_false]
    ring
  · rfl

end

/-- a cell with planar faces -/
example : PlanarFaces (fun k j i => (⟨if i then 2 else 0, if j then 3 else 0, (if k then 5 else 0) + (if i then 1 else 0)⟩ : Vec ℚ)) := by
  refine ⟨?_, ?_, ?_⟩ <;> intro k <;> cases k <;>
    simp only [twist, triple, sub_def, Bool.false_eq_true, if_false, if_true] <;> norm_num

end Verif.Volume
