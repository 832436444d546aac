import Verif.PolySet.Separate
import Verif.Lines.Props

/-!
# Properties: sets of polylines in text files
-/

namespace Verif.PolySet
open Verif.Py

variable {C P S : Type}

/-! ## C139: charisma -/

/-- the lines of a file of fault sticks: each stick is given by its points and the word which names it -/
def stickLines (sticks : List (List P × S)) : List (P × S) := sticks.flatMap fun g => g.1.map fun c => (c, g.2)

theorem loop_same [DecidableEq S] (r : List P) (id : S) (more : List (P × S)) (hm : more ≠ []) (c : List P) (cs : List Nat) (n : Nat) :
    charismaLoop ⟨c, cs, id, n⟩ (r.map (fun p => (p, id)) ++ more) = charismaLoop ⟨c ++ r, cs, id, n + r.length⟩ more := by
  induction r generalizing c n with
  | nil => simp
  | cons p r ih =>
    rw [List.map_cons, List.cons_append, charismaLoop]
    have hne : (r.map (fun p => (p, id)) ++ more).isEmpty = false := by
      cases r with
      | nil => simpa using hm
      | cons => rfl
    have hstep : charismaStep ⟨c, cs, id, n⟩ false (p, id) = ⟨c ++ [p], cs, id, n + 1⟩ := by
      unfold charismaStep; simp
    rw [hne, hstep, ih]
    simp [Nat.add_comm, Nat.add_left_comm]

theorem loop_end [DecidableEq S] (r : List P) (hr : r ≠ []) (id : S) (c : List P) (cs : List Nat) (n : Nat) :
    charismaLoop ⟨c, cs, id, n⟩ (r.map (fun p => (p, id))) = ⟨c ++ r, cs ++ [n + r.length - 1], id, 1⟩ := by
  rcases List.eq_nil_or_concat r with rfl | ⟨init, p, rfl⟩
  · exact absurd rfl hr
  · rw [List.concat_eq_append, List.map_append, loop_same init id _ (by simp)]
    have hstep : charismaStep ⟨c ++ init, cs, id, n + init.length⟩ true (p, id) =
        ⟨c ++ init ++ [p], cs ++ [n + init.length], id, 1⟩ := by
      unfold charismaStep; simp
    simp only [List.map_cons, List.map_nil]
    rw [charismaLoop, List.isEmpty_nil, hstep, charismaLoop]
    simp

theorem step_change [DecidableEq S] (K cur : List P) (hcur : cur ≠ []) (cs : List Nat) (id id' : S) (hid : id ≠ id') (last : Bool) (x : P) :
    charismaStep ⟨K ++ cur, cs, id, cur.length⟩ last (x, id') =
      if 2 ≤ cur.length then ⟨K ++ cur ++ [x], cs ++ [cur.length], id', 1⟩ else ⟨K ++ [x], cs, id', 1⟩ := by
  have hpos : 0 < cur.length := List.length_pos_of_ne_nil hcur
  unfold charismaStep
  dsimp only
  rw [if_pos (Or.inl hid)]
  by_cases h : 2 ≤ cur.length
  · rw [if_neg (by omega), if_pos h]
    simp
  · rw [if_pos ⟨by omega, hid⟩, if_neg h]
    have h1 : cur.length = 1 := by omega
    obtain ⟨y, rfl⟩ := List.length_eq_one_iff.mp h1
    have hlen : (K ++ [y] ++ [x]).length - 2 = K.length := by simp
    rw [hlen]
    congr 1
    rw [List.append_assoc, List.eraseIdx_append_of_length_le (Nat.le_refl _)]
    simp

/-- those of some sticks which have two points or more -/
def kept (sticks : List (List P × S)) : List (List P × S) := sticks.filter fun g => 2 ≤ g.1.length

theorem loop_to_last [DecidableEq S] (gs : List (List P × S)) (hg : ∀ g ∈ gs, g.1 ≠ []) (id' : S) (y : P) (rest : List (P × S))
    (K : List P) (cs : List Nat) (x : P) (xs : List P) (id : S) (hc : List.IsChain (· ≠ ·) (id :: gs.map (·.2) ++ [id'])) :
    charismaLoop ⟨K ++ [x], cs, id, 1⟩ (xs.map (fun p => (p, id)) ++ (stickLines gs ++ (y, id') :: rest)) =
      charismaLoop ⟨K ++ (kept ((x :: xs, id) :: gs)).flatMap (·.1) ++ [y],
        cs ++ (kept ((x :: xs, id) :: gs)).map (fun g => g.1.length), id', 1⟩ rest := by
  induction gs generalizing K cs x xs id with
  | nil =>
    rw [loop_same xs id _ (by simp [stickLines])]
    simp only [stickLines, List.flatMap_nil, List.nil_append]
    rw [charismaLoop]
    have hid : id ≠ id' := by simpa using hc
    have h := step_change K (x :: xs) (by simp) cs id id' hid rest.isEmpty y
    simp only [List.length_cons] at h
    rw [List.append_assoc, List.singleton_append, Nat.add_comm 1, h]
    by_cases h2 : 2 ≤ xs.length + 1
    · rw [if_pos h2]; simp [kept, h2]
    · rw [if_neg h2]; simp [kept, h2]
  | cons g gs ih =>
    obtain ⟨pts, gid⟩ := g
    have hne := hg _ (List.mem_cons_self ..)
    cases pts with
    | nil => exact absurd rfl hne
    | cons z zs =>
      have hsl : stickLines ((z :: zs, gid) :: gs) ++ (y, id') :: rest =
          (z, gid) :: (zs.map (fun p => (p, gid)) ++ (stickLines gs ++ (y, id') :: rest)) := by
        simp [stickLines]
      rw [hsl, loop_same xs id _ (by simp), charismaLoop]
      simp only [List.map_cons, List.cons_append, List.isChain_cons_cons] at hc
      have h := step_change K (x :: xs) (by simp) cs id gid hc.1
        (zs.map (fun p => (p, gid)) ++ (stickLines gs ++ (y, id') :: rest)).isEmpty z
      simp only [List.length_cons] at h
      rw [List.append_assoc, List.singleton_append, Nat.add_comm 1, h]
      by_cases h2 : 2 ≤ xs.length + 1
      · rw [if_pos h2, ih (fun g hgm => hg g (List.mem_cons_of_mem _ hgm)) _ _ z zs gid (by simpa using hc.2)]
        have hk : kept ((x :: xs, id) :: (z :: zs, gid) :: gs) = (x :: xs, id) :: kept ((z :: zs, gid) :: gs) := by
          unfold kept; rw [List.filter_cons_of_pos (by simpa using h2)]
        rw [hk]
        simp
      · rw [if_neg h2, ih (fun g hgm => hg g (List.mem_cons_of_mem _ hgm)) _ _ z zs gid (by simpa using hc.2)]
        have hk : kept ((x :: xs, id) :: (z :: zs, gid) :: gs) = kept ((z :: zs, gid) :: gs) := by
          unfold kept; rw [List.filter_cons_of_neg (by simpa using h2)]
        rw [hk]

/-- the state after all the sticks but the last and the first point of the last one -/
theorem loop_all [DecidableEq S] (init : List (List P × S)) (hg : ∀ g ∈ init, g.1 ≠ []) (id' : S) (y : P) (rest : List (P × S))
    (hc : List.IsChain (· ≠ ·) (init.map (·.2) ++ [id'])) (hi : init ≠ []) :
    ∃ l ls, stickLines init ++ (y, id') :: rest = l :: ls ∧
      charismaLoop ⟨[l.1], [], l.2, 1⟩ ls = charismaLoop ⟨(kept init).flatMap (·.1) ++ [y],
        (kept init).map (fun g => g.1.length), id', 1⟩ rest := by
  cases init with
  | nil => exact absurd rfl hi
  | cons g gs =>
    obtain ⟨pts, id⟩ := g
    have hne := hg _ (List.mem_cons_self ..)
    cases pts with
    | nil => exact absurd rfl hne
    | cons x xs =>
      refine ⟨(x, id), xs.map (fun p => (p, id)) ++ (stickLines gs ++ (y, id') :: rest), by simp [stickLines], ?_⟩
      have h := loop_to_last gs (fun g hgm => hg g (List.mem_cons_of_mem _ hgm)) id' y rest [] [] x xs id (by simpa using hc)
      simpa using h

/-- A file of fault sticks, in which neighbouring sticks have different names and the last stick has two points or more, is read as
the sticks of two points or more, in order, each with all its points; all are open. -/
theorem C139_read [DecidableEq S] (near : P → P → Bool) (crs : C) (sticks : List (List P × S)) (last : List P × S)
    (hl : sticks.getLast? = some last) (h2 : 2 ≤ last.1.length) (hg : ∀ g ∈ sticks, g.1 ≠ [])
    (hc : List.IsChain (· ≠ ·) (sticks.map (·.2))) :
    fromCharisma near crs (stickLines sticks) =
      .ok ((sticks.filter fun g => 2 ≤ g.1.length).map fun g => ⟨0, crs, g.1, false⟩) := by
  obtain ⟨init, rfl⟩ := List.getLast?_eq_some_iff.mp hl
  obtain ⟨pts, id'⟩ := last
  match pts, h2 with
  | y :: y2 :: ys, _ =>
    have hloop : ∃ l ls, stickLines (init ++ [(y :: y2 :: ys, id')]) = l :: ls ∧
        charismaLoop ⟨[l.1], [], l.2, 1⟩ ls = ⟨(kept init).flatMap (·.1) ++ (y :: y2 :: ys),
          (kept init).map (fun g => g.1.length) ++ [ys.length + 1], id', 1⟩ := by
      have he := loop_end (y2 :: ys) (by simp) id' ((kept init).flatMap (·.1) ++ [y]) ((kept init).map fun g => g.1.length) 1
      cases hi : init with
      | nil =>
        subst hi
        refine ⟨(y, id'), (y2 :: ys).map (fun p => (p, id')), by simp [stickLines], ?_⟩
        simpa [kept, Nat.add_comm] using he
      | cons g gs =>
        rw [← hi]
        obtain ⟨l, ls, h1, h3⟩ := loop_all init (fun g hgm => hg g (by simp [hgm])) id' y ((y2 :: ys).map (fun p => (p, id')))
          (by simpa using hc) (by rw [hi]; simp)
        refine ⟨l, ls, ?_, ?_⟩
        · rw [← h1]; simp [stickLines]
        · rw [h3, he]; simp [Nat.add_comm]
    obtain ⟨l, ls, h1, h3⟩ := hloop
    unfold fromCharisma
    rw [h1]
    dsimp only
    rw [h3]
    have hsep := separate_append near crs ((kept init).map fun g => (g.1, false)) false (ys.length + 1) (y :: y2 :: ys)
      (by
        intro q hq
        obtain ⟨g, hgm, rfl⟩ := List.mem_map.mp hq
        simpa [kept] using (List.mem_filter.mp hgm).2)
      (by simp)
    have ht : (y :: y2 :: ys).take (ys.length + 1 + 1) = y :: y2 :: ys := List.take_of_length_le (by simp)
    rw [ht] at hsep
    simp only [List.map_map, List.flatMap_map, Function.comp_def, tidied, Bool.false_and, Bool.false_eq_true, if_false] at hsep
    have hrep : List.replicate ((kept init).map (fun g => g.1.length) ++ [ys.length + 1]).length false =
        (kept init).map (fun _ => false) ++ [false] := by
      rw [List.map_const', List.length_append, List.length_map, List.replicate_add]; rfl
    rw [hrep, hsep]
    simp [kept]

/-- the hypotheses are met -/
example : fromCharisma (fun a b : Int => a == b) () (stickLines [([1, 2], "a"), ([3], "b"), ([4, 5, 4], "c")]) =
    .ok [⟨0, (), [1, 2], false⟩, ⟨0, (), [4, 5, 4], false⟩] := by decide +kernel

/-- When the last stick has one point only, that point is not left out but joined to the last of the sticks of two points or
more. -/
theorem C139_last_point_violated [DecidableEq S] (near : P → P → Bool) (crs : C) (sticks : List (List P × S)) (y : P) (id' : S)
    (hg : ∀ g ∈ sticks, g.1 ≠ []) (hc : List.IsChain (· ≠ ·) (sticks.map (·.2) ++ [id']))
    (before : List (List P × S)) (last : List P × S)
    (hk : (sticks.filter fun g => 2 ≤ g.1.length) = before ++ [last]) :
    fromCharisma near crs (stickLines (sticks ++ [([y], id')])) =
      .ok (before.map (fun g => ⟨0, crs, g.1, false⟩) ++ [⟨0, crs, last.1 ++ [y], false⟩]) := by
  have hi : sticks ≠ [] := by rintro rfl; simp at hk
  obtain ⟨l, ls, h1, h3⟩ := loop_all sticks hg id' y [] hc hi
  have hmem : ∀ g ∈ before ++ [last], 2 ≤ g.1.length := by
    intro g hgm
    rw [← hk] at hgm
    simpa using (List.mem_filter.mp hgm).2
  have hs : stickLines (sticks ++ [([y], id')]) = l :: ls := by rw [← h1]; simp [stickLines]
  unfold fromCharisma
  rw [hs]
  dsimp only
  rw [h3, charismaLoop]
  dsimp only
  have hkept : kept sticks = before ++ [last] := hk
  rw [hkept]
  have hl2 := hmem last (by simp)
  have ht : (last.1 ++ [y]).take (last.1.length + 1) = last.1 ++ [y] := List.take_of_length_le (by simp)
  have hsep := separate_append near crs (before.map fun g => (g.1, false)) false last.1.length (last.1 ++ [y])
    (by
      intro q hq
      obtain ⟨g, hgm, rfl⟩ := List.mem_map.mp hq
      exact hmem g (by simp [hgm]))
    (by rw [ht]; simp; omega)
  rw [ht] at hsep
  simp only [List.map_map, List.flatMap_map, Function.comp_def, tidied, Bool.false_and, Bool.false_eq_true, if_false] at hsep
  have hrep : List.replicate ((before ++ [last]).map (fun g => g.1.length)).length false =
      before.map (fun _ => false) ++ [false] := by
    rw [List.map_const', List.length_map, List.length_append, List.replicate_add]; rfl
  rw [hrep]
  simp only [List.map_append, List.map_cons, List.map_nil, List.flatMap_append, List.flatMap_cons, List.flatMap_nil,
    List.append_nil, List.append_assoc]
  exact hsep

/-- the hypotheses are met -/
example : fromCharisma (fun a b : Int => a == b) () (stickLines [([1, 2], "a"), ([3], "b"), ([4], "c")]) =
    .ok [⟨0, (), [1, 2, 4], false⟩] := by decide +kernel

theorem toCharisma_lines (polys : List (Poly C P)) (k : Nat) :
    (polys.zipIdx k).flatMap (fun q => q.1.coords.map (fun c => (c, q.2 + 1))) =
        stickLines ((polys.zipIdx k).map fun q => (q.1.coords, q.2 + 1)) ∧
      List.IsChain (· ≠ ·) (((polys.zipIdx k).map fun q => (q.1.coords, q.2 + 1)).map (·.2)) := by
  constructor
  · simp [stickLines, List.flatMap_map]
  · induction polys generalizing k with
    | nil => simp
    | cons p polys ih =>
      cases polys with
      | nil => simp
      | cons q polys =>
        have := ih (k + 1)
        simp only [List.zipIdx_cons, List.map_cons, List.isChain_cons_cons] at this ⊢
        exact ⟨by omega, this⟩

/-- Polylines written to such a file and read from it have the same points in the same order; they are all open. -/
theorem C139_round_trip_partial (near : P → P → Bool) (crs : C) (polys : List (Poly C P)) (h2 : ∀ p ∈ polys, 2 ≤ p.coords.length) :
    fromCharisma near crs (toCharisma polys) = .ok (polys.map fun p => ⟨0, crs, p.coords, false⟩) := by
  cases hp : polys with
  | nil => rfl
  | cons first rest =>
    rw [← hp]
    obtain ⟨h1, hc⟩ := toCharisma_lines polys 0
    have hmem : ∀ g ∈ (polys.zipIdx.map fun q => (q.1.coords, q.2 + 1)), 2 ≤ g.1.length := by
      intro g hg
      obtain ⟨q, hq, rfl⟩ := List.mem_map.mp hg
      exact h2 q.1 (List.fst_mem_of_mem_zipIdx hq)
    obtain ⟨last, hl⟩ : ∃ last, (polys.zipIdx.map fun q => (q.1.coords, q.2 + 1)).getLast? = some last := by
      cases hq : (polys.zipIdx.map fun q => (q.1.coords, q.2 + 1)).getLast? with
      | none => rw [List.getLast?_eq_none_iff] at hq; rw [hp] at hq; simp at hq
      | some l => exact ⟨l, rfl⟩
    unfold toCharisma
    rw [h1, C139_read near crs _ last hl (hmem last (List.mem_of_getLast? hl))
      (fun g hg he => by have := hmem g hg; rw [he] at this; simp at this) hc]
    rw [List.filter_eq_self.mpr (by intro g hg; simpa using hmem g hg)]
    rw [List.map_map]
    congr 1
    have : polys.map (fun p => (⟨0, crs, p.coords, false⟩ : Poly C P)) =
        (polys.zipIdx.map Prod.fst).map (fun p => (⟨0, crs, p.coords, false⟩ : Poly C P)) := by
      rw [List.zipIdx_map_fst]
    rw [this, List.map_map]
    rfl

/-- A closed polyline is open after the round trip. -/
theorem C139_closed_violated :
    ∃ p : Poly Unit Int, p.closed = true ∧ fromCharisma (fun a b => a == b) () (toCharisma [p]) = .ok [⟨0, (), [1, 2, 3], false⟩] :=
  ⟨⟨1, (), [1, 2, 3], true⟩, rfl, by decide +kernel⟩

/-! ## C140: irap -/

/-- whether the two ends of some points are close -/
def endsClose (close : P → P → Bool) (pts : List P) : Bool :=
  match pts.head?, pts.getLast? with
  | some a, some z => close a z
  | _, _ => false

/-- specification: a line read from an irap file as a polyline: closed if its ends are close, and then without its repeated last
point -/
def irapPoly (near close : P → P → Bool) (crs : C) (pts : List P) : Poly C P :=
  ⟨0, crs, tidied near (endsClose close pts) pts, endsClose close pts⟩

theorem ends_of (pts : List P) (h : pts ≠ []) : ∃ a z, pts.head? = some a ∧ pts.getLast? = some z := by
  cases pts with
  | nil => exact absurd rfl h
  | cons a l =>
    refine ⟨a, (a :: l).getLast (by simp), rfl, ?_⟩
    rw [List.getLast?_eq_some_getLast]

theorem irapStepIn_of (close : P → P → Bool) (c : List P) (cs : List Nat) (fl : List Bool) (l : List P) (i : Nat) (hi : i ≠ 0) :
    irapStepIn close ⟨some c, cs, fl⟩ (l, i) =
      .ok (if 2 ≤ l.length then ⟨some (c ++ l), cs ++ [l.length], fl ++ [endsClose close l]⟩ else ⟨some c, cs, fl⟩) := by
  unfold irapStepIn
  dsimp only
  by_cases h : 2 ≤ l.length
  · obtain ⟨a, z, ha, hz⟩ := ends_of l (by rintro rfl; simp at h)
    rw [if_pos (by omega), if_pos h]
    simp only [ha, hz]
    rw [if_neg hi]
    simp [endsClose, ha, hz]
  · rw [if_neg (by omega), if_neg h]

theorem irap_fold (close : P → P → Bool) (ls : List (List P)) (k : Nat) (hk : k ≠ 0) (c : List P) (cs : List Nat) (fl : List Bool) :
    (ls.zipIdx k).foldlM (irapStepIn close) ⟨some c, cs, fl⟩ =
      .ok ⟨some (c ++ (ls.filter (fun l => 2 ≤ l.length)).flatten), cs ++ (ls.filter (fun l => 2 ≤ l.length)).map List.length,
        fl ++ (ls.filter (fun l => 2 ≤ l.length)).map (endsClose close)⟩ := by
  induction ls generalizing k c cs fl with
  | nil => simp [pure, Except.pure]
  | cons l ls ih =>
    rw [List.zipIdx_cons, List.foldlM_cons, irapStepIn_of close c cs fl l k hk, ok_bind']
    by_cases h : 2 ≤ l.length
    · rw [if_pos h, ih (k + 1) (by omega), List.filter_cons_of_pos (by simpa using h)]
      simp
    · rw [if_neg h, ih (k + 1) (by omega), List.filter_cons_of_neg (by simpa using h)]

/-- Lines read from an irap file, the first having two points or more, become the polylines of two points or more, in order, each
closed if its ends are within tolerance, and then without its repeated last point. -/
theorem C140_read (near close : P → P → Bool) (crs : C) (first : List P) (rest : List (List P)) (h2 : 2 ≤ first.length) :
    fromIrap near close crs (first :: rest) =
      .ok (((first :: rest).filter fun l => 2 ≤ l.length).map (irapPoly near close crs)) := by
  have h1 : irapStepIn close ⟨none, [], []⟩ (first, 0) = .ok ⟨some first, [first.length], [endsClose close first]⟩ := by
    obtain ⟨a, z, ha, hz⟩ := ends_of first (by rintro rfl; simp at h2)
    unfold irapStepIn
    rw [if_pos (by dsimp only; omega)]
    simp [ha, hz, endsClose]
  unfold fromIrap
  rw [List.zipIdx_cons, List.foldlM_cons, h1, ok_bind', irap_fold close rest 1 (by omega), ok_bind']
  dsimp only [Option.getD_some]
  have hsep := separate_flat near crs (((first :: rest).filter fun l => 2 ≤ l.length).map fun l => (l, endsClose close l))
    (by
      intro q hq
      obtain ⟨l, hl, rfl⟩ := List.mem_map.mp hq
      simpa using (List.mem_filter.mp hl).2)
  simp only [List.map_map, List.flatMap_map, Function.comp_def] at hsep
  have hf : (first :: rest).filter (fun l => decide (2 ≤ l.length)) = first :: rest.filter (fun l => decide (2 ≤ l.length)) := by
    rw [List.filter_cons_of_pos (by simpa using h2)]
  rw [hf] at hsep ⊢
  simp only [List.map_cons, List.flatMap_cons] at hsep
  have hid : (rest.filter (fun l => decide (2 ≤ l.length))).flatMap (fun x => x) =
      (rest.filter (fun l => decide (2 ≤ l.length))).flatten := by simp
  rw [hid] at hsep
  simp only [List.singleton_append]
  rw [hsep]
  rfl

/-- the hypotheses are met -/
example : fromIrap (fun a b : Int => a == b) (fun a b => a == b) () [[1, 2, 3, 1], [4], [5, 6]] =
    .ok [⟨0, (), [1, 2, 3], true⟩, ⟨0, (), [5, 6], false⟩] := by decide +kernel

/-- A file whose first line has one point only, with a longer one after it, is not read: an exception is raised. -/
theorem C140_first_point_violated (near close : P → P → Bool) (crs : C) (p : P) (short : List (List P)) (l : List P)
    (rest : List (List P)) (hs : ∀ s ∈ short, s.length ≤ 1) (hl : 2 ≤ l.length) :
    fromIrap near close crs ([p] :: short ++ l :: rest) = .error .value := by
  have key : ∀ (short : List (List P)) k, k ≠ 0 → (∀ s ∈ short, s.length ≤ 1) →
      ((short ++ l :: rest).zipIdx k).foldlM (irapStepIn close) ⟨none, [], []⟩ = .error .value := by
    intro short
    induction short with
    | nil =>
      intro k hk _
      obtain ⟨a, z, ha, hz⟩ := ends_of l (by rintro rfl; simp at hl)
      have : irapStepIn close ⟨none, [], []⟩ (l, k) = .error .value := by
        unfold irapStepIn
        rw [if_pos (by dsimp only; omega)]
        simp [ha, hz, hk]
      rw [List.nil_append, List.zipIdx_cons, List.foldlM_cons, this]
      rfl
    | cons s short ih =>
      intro k hk hs
      have : irapStepIn close ⟨none, [], []⟩ (s, k) = .ok ⟨none, [], []⟩ := by
        unfold irapStepIn
        rw [if_neg (by have := hs s (List.mem_cons_self ..); dsimp only; omega)]
      rw [List.cons_append, List.zipIdx_cons, List.foldlM_cons, this, ok_bind']
      exact ih (k + 1) (by omega) (fun t ht => hs t (List.mem_cons_of_mem _ ht))
  unfold fromIrap
  have h1 : irapStepIn close ⟨none, [], []⟩ ([p], 0) = .ok ⟨none, [], []⟩ := by
    unfold irapStepIn; simp
  rw [List.cons_append, List.zipIdx_cons, List.foldlM_cons, h1, ok_bind', key short 1 (by omega) hs]
  rfl

theorem irap_out (eol : P) (first : Poly C P) (rest : List (Poly C P)) (hu : ∀ p ∈ rest, p.uuid ≠ first.uuid) (out : List P) :
    rest.foldl (irapStep eol first) out = out ++ rest.flatMap (fun p => p.coords ++ [eol]) := by
  induction rest generalizing out with
  | nil => simp
  | cons p rest ih =>
    rw [List.foldl_cons, ih (fun q hq => hu q (List.mem_cons_of_mem _ hq))]
    have : irapStep eol first out p = out ++ p.coords ++ [eol] := by
      unfold irapStep; rw [if_neg (hu p (List.mem_cons_self ..))]
    rw [this]
    simp

/-- Polylines written to an irap file and read from it: the same points in the same order; a polyline is closed on reading if its
ends are within tolerance, whatever it was before.  The points must be of three coordinates, none of them the marker (999, 999, 999),
and each polyline must have two points or more and not be the same object as the first.  `fmt` writes a number so that `parse` reads
it back. -/
theorem C140_round_trip_partial {K : Type} (near close : List K → List K → Bool) (crs : C)
    (parse : String → Option K) (isEnd : List K → Bool) (fmt : K → String) (hf : ∀ x, parse (fmt x) = some x)
    (eol : List K) (he3 : eol.length = 3) (he : isEnd eol = true)
    (first : Poly C (List K)) (rest : List (Poly C (List K))) (hu : ∀ p ∈ rest, p.uuid ≠ first.uuid)
    (h2 : ∀ p ∈ first :: rest, 2 ≤ p.coords.length)
    (h3 : ∀ p ∈ first :: rest, ∀ c ∈ p.coords, c.length = 3) (hend : ∀ p ∈ first :: rest, ∀ c ∈ p.coords, isEnd c = false) :
    ∃ pts, toIrap eol (first :: rest) = .ok pts ∧
      fromIrap near close crs (Lines.readLines parse isEnd (pts.map fun c => c.map fmt)) =
        .ok ((first :: rest).map fun p => irapPoly near close crs p.coords) := by
  have h1 : irapStep eol first [] first = first.coords ++ [eol] := by unfold irapStep; simp
  refine ⟨(first :: rest).flatMap (fun p => p.coords ++ [eol]), ?_, ?_⟩
  · unfold toIrap
    dsimp only
    rw [List.foldl_cons, h1, irap_out eol first rest hu]
    simp
  · have hr : ((first :: rest).flatMap (fun p => p.coords ++ [eol])).map (fun c => c.map fmt) =
        Lines.render fmt (eol.map fmt) ((first :: rest).map (·.coords)) := by
      unfold Lines.render
      rw [List.map_flatMap, List.flatMap_map]
      apply List.flatMap_congr
      intro p _
      simp
    rw [hr, Lines.C62_read_back parse isEnd fmt hf (eol.map fmt) (by simpa using he3)
      ⟨eol, Lines.mapM_fmt parse fmt hf eol, he⟩ ((first :: rest).map (·.coords))
      (by intro l hl; obtain ⟨p, hp, rfl⟩ := List.mem_map.mp hl; exact h3 p hp)
      (by intro l hl; obtain ⟨p, hp, rfl⟩ := List.mem_map.mp hl; exact hend p hp)]
    have hfilt : ((first :: rest).map (·.coords)).filter (fun l => l.length ≠ 0) = (first :: rest).map (·.coords) := by
      rw [List.filter_eq_self]
      intro l hl
      obtain ⟨p, hp, rfl⟩ := List.mem_map.mp hl
      have := h2 p hp
      simp
      intro h
      rw [h] at this
      simp at this
    rw [hfilt, List.map_cons, C140_read near close crs _ _ (h2 first (List.mem_cons_self ..))]
    rw [← List.map_cons (f := fun p : Poly C (List K) => p.coords)]
    rw [List.filter_eq_self.mpr (by
      intro l hl
      obtain ⟨p, hp, rfl⟩ := List.mem_map.mp hl
      simpa using h2 p hp), List.map_map]
    rfl

/-- A closed polyline which does not repeat its first point at its end is open after the round trip. -/
theorem C140_closed_violated :
    ∃ p : Poly Unit (List Int), p.closed = true ∧
      ∀ near : List Int → List Int → Bool, irapPoly near (fun a b => a == b) () p.coords = ⟨0, (), p.coords, false⟩ :=
  ⟨⟨1, (), [[0, 0, 0], [1, 0, 0], [0, 1, 0]], true⟩, rfl, fun near => by simp [irapPoly, endsClose, tidied]⟩

/-- The same polyline given twice, once as the first: all that was before it is lost from the file. -/
theorem C140_repeated_first_violated (eol : P) (first again : Poly C P) (between after : List (Poly C P))
    (hs : again.uuid = first.uuid) :
    toIrap eol (first :: between ++ again :: after) = .ok (after.foldl (irapStep eol first) (again.coords ++ [eol])) := by
  unfold toIrap
  rw [List.cons_append]
  dsimp only
  rw [List.foldl_cons, List.foldl_append, List.foldl_cons]
  congr 2
  unfold irapStep
  rw [if_pos hs]

end Verif.PolySet
