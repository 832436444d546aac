import Verif.Marker.PropsFrame
import Mathlib.Tactic.Linarith
import Mathlib.Tactic.NormNum

/-!
# C177: wellbore frames and measured depth datums
-/

namespace Verif.Marker

open Verif.Py Verif.Organize

theorem wframe_clean : Clean "wellbore frame" := ⟨by decide +kernel, by decide⟩
theorem datum_clean : Clean "measured depth datum" := ⟨by decide +kernel, by decide⟩

/-- The tree of a wellbore frame. -/
def wNode (title : Option String) (md : Meta) (c t : Nat) (i : Option Nat) : Node :=
  .mk "WellboreFrameRepresentation" none none (baseKids title md ++
    [leaf "NodeCount" (.int c), .mk "NodeMd" none none [], refNode "Trajectory" t] ++ optRef "RepresentedInterpretation" i)

theorem w_kids (i : Option Nat) (k : List Node) (tag : String) (h : tag ≠ "RepresentedInterpretation") :
    ft (k ++ optRef "RepresentedInterpretation" i) tag = ft k tag := by
  rw [ft_append]
  cases i with
  | none => simp [optRef, ft_nil]
  | some u => simp [optRef, ft_cons, ref_tag, Ne.symm h, ft_nil]

theorem w_traj (title md c t i) : refUuid (wNode title md c t i) "Trajectory" = some t := by
  unfold refUuid wNode
  rw [findTag_mk, w_kids _ _ _ (by decide), ft_append, ft_base _ _ _ (by decide) (by decide)]
  simp [ft_cons, leaf_tag, mk_tag, ref_tag, ref_uuid]

theorem w_count (title md c t i) : findInt (wNode title md c t i) "NodeCount" = some (c : Int) := by
  unfold findInt wNode
  rw [findTag_mk, w_kids _ _ _ (by decide), ft_append, ft_base _ _ _ (by decide) (by decide)]
  simp [ft_cons, leaf, Node.tag, nodeInt, Node.text]

theorem w_md (title md c t i) : (findTag (wNode title md c t i) "NodeMd").isSome := by
  unfold wNode
  rw [findTag_mk, w_kids _ _ _ (by decide), ft_append, ft_base _ _ _ (by decide) (by decide)]
  simp [ft_cons, leaf_tag, mk_tag, ref_tag]

theorem w_interp (title md c t i) : refUuid (wNode title md c t i) "RepresentedInterpretation" = i := by
  unfold refUuid wNode
  rw [findTag_mk, ft_append, ft_append, ft_base _ _ _ (by decide) (by decide)]
  cases i with
  | none => simp [ft_cons, leaf_tag, mk_tag, ref_tag, optRef, ft_nil]
  | some u => simp [ft_cons, leaf_tag, mk_tag, ref_tag, optRef, ref_uuid, ft_nil]

theorem w_title {title md c t i} (h : TitleOrNone title) :
    citationTitle (wNode (orTitle title "wellbore frame") md c t i) = titleOr title "wellbore frame" := by
  rw [← orTitle_eq]
  apply citation_title (orTitle_good h wframe_clean)
  rw [w_kids _ _ _ (by decide), ft_append, ft_base_citation]
  simp

theorem w_meta {title md c t i} (h : GoodMeta md) : loadMeta (wNode title md c t i) = md := by
  apply load_meta h
  rw [lt_append, lt_append, lt_base _ _ _ (by decide)]
  cases i <;> simp [lt_cons, lt_nil, leaf_tag, mk_tag, ref_tag, optRef]

/-- C177: a wellbore frame made from two depths or more, its trajectory and interpretation being in the model, can be stored, which
changes nothing else, and is read again, whatever parts and arrays are added later, with its metadata, trajectory, interpretation, depths, and
its title or the default one; if another trajectory is asked for when it is read, it is refused. -/
theorem C177_frame {s : Store} {h : Arrays} {u t : Nat} {title : Option String} {md : Meta} {i : Option Nat} {mds : List ℚ} (hl : 2 ≤ mds.length)
    (hnew : rootFor s u = none) (ht : (rootFor s t).isSome) (hi : ∀ v, i = some v → (rootFor s v).isSome) (hmd : GoodMeta md)
    (htitle : TitleOrNone title) :
    ∃ f s' h' f', newWFrame u title md (some t) i mds = .ok f ∧ storeWFrame s h f = .ok (s', h', f') ∧ (∃ p, s' = s ++ [p] ∧ p.uuid = u) ∧
      (∀ v, v ≠ u → h'.lookup v = h.lookup v) ∧
      ∀ more moreH given, (∀ q ∈ moreH, q.1 ≠ u) →
        loadWFrame (s' ++ more) (moreH ++ h') given u =
          if given = none ∨ given = some t then .ok ⟨u, titleOr title "wellbore frame", md, some t, i, mds⟩ else .error .assertion := by
  have hst : storeWFrame s h ⟨u, title, md, some t, i, mds⟩ = .ok (s ++ [⟨u, "WellboreFrameRepresentation",
      wNode (orTitle title "wellbore frame") md mds.length t i⟩], (u, mds) :: h, ⟨u, orTitle title "wellbore frame", md, some t, i, mds⟩) := by
    unfold storeWFrame
    have h1 : (rootFor s t).isNone = false := by simpa using ht
    have h2 : (i.any fun v => (rootFor s v).isNone) = false := by
      cases i with
      | none => rfl
      | some v => simpa using hi v rfl
    simp only [h1, h2]
    rfl
  refine ⟨⟨u, title, md, some t, i, mds⟩, _, _, _, ?_, hst, ⟨_, rfl, rfl⟩, ?_, ?_⟩
  · unfold newWFrame
    rw [if_pos (by omega)]
  · intro v hv
    simp [List.lookup_cons, show (v == u) = false by simpa using hv]
  · intro more moreH given hH
    have hr : rootFor (s ++ [⟨u, "WellboreFrameRepresentation", wNode (orTitle title "wellbore frame") md mds.length t i⟩] ++ more) u =
        some (wNode (orTitle title "wellbore frame") md mds.length t i) := by
      rw [List.append_assoc, List.singleton_append]
      exact rootFor_fresh hnew _ _ _
    unfold loadWFrame
    rw [hr]
    simp only [w_traj, w_count]
    rw [lookup_append hH]
    simp only [List.lookup_cons, beq_self_eq_true, w_title htitle, w_meta hmd, w_interp]
    have h3 : (findTag (wNode (orTitle title "wellbore frame") md mds.length t i) "NodeMd").isNone = false := by
      simpa using w_md (orTitle title "wellbore frame") md mds.length t i
    have h4 : ¬ (mds.length : Int) ≤ 1 := by omega
    cases given with
    | none => simp [h3, h4]
    | some g => by_cases hg : g = t <;> simp [h3, h4, hg]

/-- C177: a frame of fewer than two depths is not made, whatever else is given. -/
theorem C177_frame_short {u : Nat} {title : Option String} {md : Meta} {t i : Option Nat} {mds : List ℚ} (h : mds.length ≤ 1) :
    newWFrame u title md t i mds = .error .assertion := by
  unfold newWFrame
  rw [if_neg (by omega)]

/-- C177: a frame without a trajectory in the model, or whose interpretation is not there, is not stored. -/
theorem C177_frame_refused {s : Store} {h : Arrays} {f : WFrame}
    (hbad : (∀ t, f.traj = some t → rootFor s t = none) ∨ ∃ v, f.interp = some v ∧ rootFor s v = none) :
    ∃ e, storeWFrame s h f = .error e := by
  unfold storeWFrame
  cases e : f.traj with
  | none => exact ⟨_, rfl⟩
  | some t =>
    simp only
    rcases hbad with h1 | ⟨v, hv, hn⟩
    · exact ⟨.assertion, by simp [h1 t e]⟩
    · by_cases hr : (rootFor s t).isNone
      · exact ⟨.assertion, by simp only [hr, if_true]⟩
      · exact ⟨.attribute, by simp [hr, hv, hn]⟩

/-! ### Datums -/

/-- The tree of a datum. -/
def dNode (title : Option String) (md : Meta) (x y z : ℚ) (r : String) (c : Nat) : Node :=
  .mk "MdDatum" none none (baseKids title md ++
    [.mk "Location" none none [leaf "Coordinate1" (.num x), leaf "Coordinate2" (.num y), leaf "Coordinate3" (.num z)],
     leaf "MdReference" (.str r), refNode "LocalCrs" c])

theorem d_location (title md x y z r c) : loadLocation (dNode title md x y z r c) = some (x, y, z) := by
  unfold loadLocation dNode
  rw [findTag_mk, ft_append, ft_base _ _ _ (by decide) (by decide)]
  simp [ft_cons, leaf, Node.tag, findNum, findTag_mk, nodeNum, Node.text, mk_tag]

theorem d_reference {title md x y z r c} (h : Clean r) : findText (dNode title md x y z r c) "MdReference" = some r := by
  unfold findText dNode
  rw [findTag_mk, ft_append, ft_base _ _ _ (by decide) (by decide)]
  simp [ft_cons, leaf, Node.tag, nodeText, Node.text, mk_tag, h.1, h.2]

theorem d_crs (title md x y z r c) : refUuid (dNode title md x y z r c) "LocalCrs" = some c := by
  unfold refUuid dNode
  rw [findTag_mk, ft_append, ft_base _ _ _ (by decide) (by decide)]
  simp [ft_cons, leaf_tag, mk_tag, ref_tag, ref_uuid]

theorem d_title {title md x y z r c} (h : TitleOrNone title) :
    citationTitle (dNode (orTitle title "measured depth datum") md x y z r c) = titleOr title "measured depth datum" := by
  rw [← orTitle_eq]
  apply citation_title (orTitle_good h datum_clean)
  rw [ft_append, ft_base_citation]
  simp

theorem d_meta {title md x y z r c} (h : GoodMeta md) : loadMeta (dNode title md x y z r c) = md := by
  apply load_meta h
  rw [lt_append, lt_base _ _ _ (by decide)]
  simp [lt_cons, lt_nil, leaf_tag, mk_tag, ref_tag]

theorem reference_clean {r : String} (h : r ∈ references) : Clean r ∧ lower r = r := by
  simp only [references, List.mem_cons, List.not_mem_nil, or_false] at h
  rcases h with rfl | rfl | rfl | rfl | rfl | rfl | rfl | rfl | rfl | rfl | rfl | rfl | rfl | rfl | rfl | rfl | rfl <;>
    exact ⟨⟨by decide +kernel, by decide⟩, by decide +kernel⟩

/-- C177: a datum made with a location and one of the references there are, its coordinate reference system being in the model, can be
stored, which changes nothing else, and is read again, whatever parts are added later, with its location, reference, coordinate reference
system and metadata, and its title or the default one. -/
theorem C177_datum {s : Store} {u c : Nat} {title : Option String} {md : Meta} {x y z : ℚ} {r : String} (hr : r ∈ references)
    (hnew : rootFor s u = none) (hc : typeOf s c = some "LocalDepth3dCrs" ∨ typeOf s c = some "LocalTime3dCrs") (hmd : GoodMeta md)
    (htitle : TitleOrNone title) :
    ∃ d s' d', newDatum u title md (some (x, y, z)) r (some c) = .ok d ∧ storeDatum s d = .ok (s', d') ∧ (∃ p, s' = s ++ [p] ∧ p.uuid = u) ∧
      ∀ more, loadDatum (s' ++ more) u = .ok ⟨u, titleOr title "measured depth datum", md, some (x, y, z), r, some c⟩ := by
  obtain ⟨hcl, hlow⟩ := reference_clean hr
  have hst : storeDatum s ⟨u, title, md, some (x, y, z), r, some c⟩ = .ok (s ++ [⟨u, "MdDatum",
      dNode (orTitle title "measured depth datum") md x y z r c⟩], ⟨u, orTitle title "measured depth datum", md, some (x, y, z), r, some c⟩) := by
    unfold storeDatum
    have h1 : ¬ (typeOf s c ≠ some "LocalDepth3dCrs" ∧ typeOf s c ≠ some "LocalTime3dCrs") := by
      rintro ⟨a, b⟩
      exact hc.elim a b
    simp only [hlow, hr, not_true_eq_false, if_false, if_neg h1]
    rfl
  refine ⟨⟨u, title, md, some (x, y, z), r, some c⟩, _, _, ?_, hst, ⟨_, rfl, rfl⟩, ?_⟩
  · unfold newDatum
    have : r ≠ "" := hcl.2
    simp [this, hr]
  · intro more
    have hroot : rootFor (s ++ [⟨u, "MdDatum", dNode (orTitle title "measured depth datum") md x y z r c⟩] ++ more) u =
        some (dNode (orTitle title "measured depth datum") md x y z r c) := by
      rw [List.append_assoc, List.singleton_append]
      exact rootFor_fresh hnew _ _ _
    unfold loadDatum
    rw [hroot]
    simp only [d_reference hcl, d_crs, d_location, d_title htitle, d_meta hmd, hcl.1, hlow, hr, not_true_eq_false, if_false]

/-- C177: a datum with a reference but no location, or a location but no reference, or a reference which is not one of those there are, is
not made; one without a location, a known reference or a coordinate reference system of the model is not stored. -/
theorem C177_datum_refused {s : Store} :
    (∀ u title md loc r c, (loc = none ∧ r ≠ "") ∨ (loc ≠ none ∧ r ∉ references) → newDatum u title md loc r c = .error .assertion) ∧
    ∀ d : Datum, d.location = none ∨ lower d.reference ∉ references ∨ (∀ c, d.crs = some c → rootFor s c = none) → ∃ e, storeDatum s d = .error e := by
  refine ⟨?_, ?_⟩
  · rintro u title md loc r c (⟨rfl, h⟩ | ⟨h, hr⟩)
    · unfold newDatum
      simp [h]
    · unfold newDatum
      by_cases e : r = "" <;> simp [h, e, hr]
  · intro d h
    unfold storeDatum
    by_cases h1 : lower d.reference ∉ references
    · exact ⟨_, if_pos h1⟩
    · rw [if_neg h1]
      cases e : d.crs with
      | none => exact ⟨_, rfl⟩
      | some c =>
        cases el : d.location with
        | none => exact ⟨_, rfl⟩
        | some l =>
          rcases h with h | h | h
          · rw [el] at h
            simp at h
          · exact absurd h h1
          · have hn := h c e
            have : typeOf s c = none := by
              unfold rootFor at hn
              unfold typeOf
              cases ef : s.find? fun p => p.uuid == c with
              | none => rfl
              | some p => simp [ef] at hn
            exact ⟨.assertion, by simp [this]⟩

/-- C177: two datums are equivalent exactly if they have the same reference and coordinate reference system and each coordinate of the
first differs from that of the second by no more than a hundred-millionth plus a hundred-thousandth of the second. -/
theorem C177_equivalent {a b : Datum} {l m : ℚ × ℚ × ℚ} {c d : Nat} (hl : a.location = some l) (hm : b.location = some m) (hc : a.crs = some c)
    (hd : b.crs = some d) : eqvDatum a b = true ↔ a.reference = b.reference ∧ c = d ∧
      |l.1 - m.1| ≤ 1 / 10 ^ 8 + |m.1| / 10 ^ 5 ∧ |l.2.1 - m.2.1| ≤ 1 / 10 ^ 8 + |m.2.1| / 10 ^ 5 ∧
      |l.2.2 - m.2.2| ≤ 1 / 10 ^ 8 + |m.2.2| / 10 ^ 5 := by
  have e : ∀ p q : ℚ, npClose p q = true ↔ |p - q| ≤ 1 / 10 ^ 8 + |q| / 10 ^ 5 := by
    intro p q
    unfold npClose
    rw [decide_eq_true_iff]
    constructor <;> intro h <;> norm_num at h ⊢ <;> linarith
  unfold eqvDatum
  rw [hl, hm, hc, hd]
  by_cases h1 : a.reference ≠ b.reference
  · rw [if_pos h1]
    simp [h1]
  rw [if_neg h1]
  simp only
  by_cases h2 : (npClose l.1 m.1 && npClose l.2.1 m.2.1 && npClose l.2.2 m.2.2) = true
  · rw [if_pos h2]
    simp only [Bool.and_eq_true, e] at h2
    push Not at h1
    have : sameUuid (some c) (some d) = true ↔ c = d := by simp [sameUuid]
    rw [this]
    exact ⟨fun h => ⟨h1, h, h2.1.1, h2.1.2, h2.2⟩, fun h => h.2.1⟩
  · rw [if_neg h2]
    simp only [Bool.and_eq_true, e] at h2
    simp only [Bool.false_eq_true, false_iff]
    rintro ⟨_, _, h3, h4, h5⟩
    exact h2 ⟨⟨h3, h4⟩, h5⟩

/-- C177 (violated): equivalence of datums depends on which of the two is asked. -/
theorem C177_equivalent_violated : ∃ a b : Datum, eqvDatum a b = true ∧ eqvDatum b a = false :=
  ⟨⟨1, none, [], some (100000, 0, 0), "kelly bushing", some 9⟩, ⟨2, none, [], some (100001 + 1 / 100000, 0, 0), "kelly bushing", some 9⟩,
    by decide +kernel, by decide +kernel⟩

/-- A model with a coordinate reference system and a trajectory. -/
def exParts : Store :=
  [⟨9, "LocalDepth3dCrs", .mk "LocalDepth3dCrs" none none [citation (some "crs")]⟩,
   ⟨4, "WellboreTrajectoryRepresentation", .mk "WellboreTrajectoryRepresentation" none none [citation (some "W1")]⟩]

example : typeOf exParts 9 = some "LocalDepth3dCrs" ∧ rootFor exParts 3 = none := ⟨rfl, rfl⟩

example : (rootFor exParts 4).isSome ∧ (2 ≤ [(1000 : ℚ), 1010, 1020].length) := ⟨rfl, by decide⟩

example : ((storeDatum exParts ⟨3, none, [], some (1, 2, -3), "Kelly Bushing", some 9⟩).toOption.bind fun r => (loadDatum r.1 3).toOption) =
    some ⟨3, some "measured depth datum", [], some (1, 2, -3), "kelly bushing", some 9⟩ := by decide +kernel

example : ((storeWFrame exParts [] ⟨3, some "", [], some 4, none, [1000, 1010]⟩).toOption.bind fun r => (loadWFrame r.1 r.2.1 none 3).toOption) =
    some ⟨3, some "wellbore frame", [], some 4, none, [1000, 1010]⟩ := by decide +kernel

end Verif.Marker
