import Verif.Plane.Matrix
import Verif.Polygon.Props

/-!
# C111: many points and many triangles
-/

namespace Verif.Plane
open Verif.Py Verif.Polygon

variable {K : Type} [Field K] [LinearOrder K] [IsStrictOrderedRing K]

omit [IsStrictOrderedRing K] [LinearOrder K] in
theorem clockwise_orient (a b c : Pt K) : clockwise a b c = - orient a b c := by
  simp only [clockwise, orient]; ring

omit [IsStrictOrderedRing K] [LinearOrder K] in
theorem orient_sum' (a b c p : Pt K) : orient a b p + orient b c p + orient c a p = orient a b c := by
  simp only [orient]; ring

omit [IsStrictOrderedRing K] [LinearOrder K] in
theorem orient_flip (a b p : Pt K) : orient b a p = - orient a b p := by
  simp only [orient]; ring

/-- the answer for one triangle and one point, in terms of the sides -/
def Answer (edged : Bool) (a b c d : Pt K) : Prop :=
  if edged then
    if clockwise a b c > 0 then orient a b d ≤ 0 ∧ orient b c d ≤ 0 ∧ orient c a d ≤ 0
    else 0 ≤ orient a b d ∧ 0 ≤ orient b c d ∧ 0 ≤ orient c a d
  else
    if clockwise a b c > 0 then orient a b d < 0 ∧ orient b c d < 0 ∧ orient c a d < 0
    else 0 < orient a b d ∧ 0 < orient b c d ∧ 0 < orient c a d

theorem answer_strict (a b c d : Pt K) : Answer false a b c d ↔ StrictlyInside a b c d := by
  have hs := orient_sum' a b c d
  unfold Answer StrictlyInside
  simp only [Bool.false_eq_true, if_false]
  rw [clockwise_orient]
  split
  · rename_i h
    constructor
    · intro h1; exact Or.inr h1
    · rintro (⟨h1, h2, h3⟩ | h1)
      · exfalso; linarith
      · exact h1
  · rename_i h
    constructor
    · intro h1; exact Or.inl h1
    · rintro (h1 | ⟨h1, h2, h3⟩)
      · exact h1
      · exfalso; linarith

theorem orient_mix (a b c d : Pt K) {u v w : K} (hs : u + v + w = 1) (hx : d.x = u * a.x + v * b.x + w * c.x)
    (hy : d.y = u * a.y + v * b.y + w * c.y) :
    orient a b d = w * orient a b c ∧ orient b c d = u * orient a b c ∧ orient c a d = v * orient a b c := by
  have hu : u = 1 - v - w := by linarith
  subst hu
  simp only [orient, hx, hy]
  refine ⟨?_, ?_, ?_⟩ <;> ring

theorem answer_edged (a b c d : Pt K) (h0 : orient a b c ≠ 0) : Answer true a b c d ↔ WithinClosed a b c d := by
  unfold Answer
  simp only [if_true]
  rw [clockwise_orient]
  constructor
  · intro h
    split at h
    · rename_i hc
      have e : orient c b a = - orient a b c := by simp only [orient]; ring
      refine within_swap (within_of_nonneg c b a d (by rw [e]; exact hc) ?_ ?_ ?_)
      · rw [orient_flip]; linarith [h.2.1]
      · rw [orient_flip]; linarith [h.1]
      · rw [orient_flip]; linarith [h.2.2]
    · rename_i hc
      have hp : 0 < orient a b c := lt_of_le_of_ne (by linarith) h0.symm
      exact within_of_nonneg a b c d hp h.1 h.2.1 h.2.2
  · rintro ⟨u, v, w, hu, hv, hw, hs, hx, hy⟩
    obtain ⟨e1, e2, e3⟩ := orient_mix a b c d hs hx hy
    rw [e1, e2, e3]
    split
    · rename_i hc
      have : orient a b c ≤ 0 := by linarith
      exact ⟨mul_nonpos_of_nonneg_of_nonpos hw this, mul_nonpos_of_nonneg_of_nonpos hu this,
        mul_nonpos_of_nonneg_of_nonpos hv this⟩
    · rename_i hc
      have : 0 ≤ orient a b c := by linarith
      exact ⟨mul_nonneg hw this, mul_nonneg hu this, mul_nonneg hv this⟩

omit [IsStrictOrderedRing K] [Field K] [LinearOrder K] in
theorem project_get {a0 a1 : Nat} : ∀ {l : List (List K)} {r : List (Pt K)}, project a0 a1 l = .ok r →
    r.length = l.length ∧ ∀ n : Nat, ∀ d : Pt K, r[n]? = some d ↔ ∃ q, l[n]? = some q ∧ q[a0]? = some d.x ∧ q[a1]? = some d.y := by
  intro l
  induction l with
  | nil => intro r h; cases h; simp
  | cons q l ih =>
    intro r h
    unfold project at h
    split at h
    · rename_i x y r' hx hy hr
      cases h
      obtain ⟨hl, hg⟩ := ih hr
      refine ⟨by simp [hl], ?_⟩
      intro n d
      cases n with
      | zero =>
        simp only [List.getElem?_cons_zero, Option.some.injEq, exists_eq_left', hx, hy]
        constructor
        · rintro rfl; exact ⟨rfl, rfl⟩
        · rintro ⟨rfl, rfl⟩; rfl
      | succ n => simpa only [List.getElem?_cons_succ] using hg n d
    · cases h

omit [IsStrictOrderedRing K] [Field K] [LinearOrder K] in
theorem project_append {a0 a1 : Nat} {l m : List (List K)} {r s : List (Pt K)} (h : project a0 a1 l = .ok r)
    (h' : project a0 a1 (l ++ m) = .ok s) : ∃ s', project a0 a1 m = .ok s' ∧ s = r ++ s' := by
  induction l generalizing r s with
  | nil => cases h; exact ⟨s, h', rfl⟩
  | cons q l ih =>
    rw [List.cons_append] at h'
    unfold project at h h'
    split at h
    · rename_i x y r' hx hy hr
      cases h
      split at h'
      · rename_i x' y' r'' hx' hy' hr'
        cases h'
        rw [hx] at hx'; cases hx'
        rw [hy] at hy'; cases hy'
        obtain ⟨s', h1, h2⟩ := ih hr hr'
        exact ⟨s', h1, by rw [h2]; rfl⟩
      · cases h'
    · cases h

omit [IsStrictOrderedRing K] in
theorem clockwise_get {p : List (Pt K)} : ∀ {t : List (Nat × Nat × Nat)} {r : List K}, clockwiseTriangles p t = .ok r →
    r.length = t.length ∧ ∀ n : Nat, ∀ q : Nat × Nat × Nat, t[n]? = some q → ∃ a b c, p[q.1]? = some a ∧ p[q.2.1]? = some b ∧
      p[q.2.2]? = some c ∧ r[n]? = some (clockwise a b c) := by
  intro t
  induction t with
  | nil => intro r h; cases h; simp
  | cons q t ih =>
    intro r h
    unfold clockwiseTriangles at h
    split at h
    · rename_i a b c r' hc hr
      cases h
      obtain ⟨hl, hg⟩ := ih hr
      refine ⟨by simp [hl], ?_⟩
      intro n q' hq
      cases n with
      | zero =>
        simp only [List.getElem?_cons_zero, Option.some.injEq] at hq
        subst hq
        unfold corners at hc
        split at hc
        · rename_i a' b' c' h1 h2 h3
          cases hc
          exact ⟨a, b, c, h1, h2, h3, rfl⟩
        · cases hc
      | succ n => simpa only [List.getElem?_cons_succ] using hg n q' (by simpa using hq)
    · cases h

theorem inOne_ok {pp : List (Pt K)} {edged : Bool} {t : Nat × Nat × Nat} {m : Nat} {a b c d : Pt K} (ha : pp[t.1]? = some a)
    (hb : pp[t.2.1]? = some b) (hc : pp[t.2.2]? = some c) (hd : pp[m]? = some d) :
    ∃ r, inOne pp edged (clockwise a b c) t m = .ok r ∧ (r = true ↔ Answer edged a b c d) := by
  have key : ∀ l : List K, (if edged then l.all fun v => decide (v ≤ 0) else l.all fun v => decide (v < 0)) = true ↔
      ∀ v ∈ l, if edged then v ≤ 0 else v < 0 := by
    intro l; cases edged <;> simp
  unfold inOne little Answer
  by_cases h : clockwise a b c > 0
  · refine ⟨if edged then [clockwise b a d, clockwise c b d, clockwise a c d].all fun v => decide (v ≤ 0)
      else [clockwise b a d, clockwise c b d, clockwise a c d].all fun v => decide (v < 0),
      by simp [h, clockwiseTriangles, corners, ha, hb, hc, hd], ?_⟩
    rw [key]
    simp only [if_pos h]
    simp only [clockwise_orient, orient_flip a b, orient_flip b c, orient_flip c a, neg_neg]
    cases edged <;> simp
  · refine ⟨if edged then [clockwise a b d, clockwise b c d, clockwise c a d].all fun v => decide (v ≤ 0)
      else [clockwise a b d, clockwise b c d, clockwise c a d].all fun v => decide (v < 0),
      by simp [h, clockwiseTriangles, corners, ha, hb, hc, hd], ?_⟩
    rw [key]
    simp only [if_neg h]
    simp only [clockwise_orient]
    cases edged <;> simp

omit [IsStrictOrderedRing K] in
theorem inRow_get {pp : List (Pt K)} {edged : Bool} {cwt : K} {t : Nat × Nat × Nat} : ∀ {ds : List Nat} {r : List Bool},
    inRow pp edged cwt t ds = .ok r → r.length = ds.length ∧
      ∀ n : Nat, ∀ d : Nat, ds[n]? = some d → ∃ b, r[n]? = some b ∧ inOne pp edged cwt t d = .ok b := by
  intro ds
  induction ds with
  | nil => intro r h; cases h; simp
  | cons m ds ih =>
    intro r h
    unfold inRow at h
    split at h
    · rename_i b r' hb hr
      cases h
      obtain ⟨hl, hg⟩ := ih hr
      refine ⟨by simp [hl], ?_⟩
      intro n d hd
      cases n with
      | zero =>
        simp only [List.getElem?_cons_zero, Option.some.injEq] at hd
        subst hd
        exact ⟨b, rfl, hb⟩
      | succ n => simpa only [List.getElem?_cons_succ] using hg n d (by simpa using hd)
    · cases h
    · cases h

omit [IsStrictOrderedRing K] in
theorem inRows_get {pp : List (Pt K)} {edged : Bool} {ds : List Nat} : ∀ {ts : List ((Nat × Nat × Nat) × K)} {r : List (List Bool)},
    inRows pp edged ds ts = .ok r → r.length = ts.length ∧
      ∀ n : Nat, ∀ e : (Nat × Nat × Nat) × K, ts[n]? = some e → ∃ b, r[n]? = some b ∧ inRow pp edged e.2 e.1 ds = .ok b := by
  intro ts
  induction ts with
  | nil => intro r h; cases h; simp
  | cons m ts ih =>
    intro r h
    obtain ⟨t, cwt⟩ := m
    unfold inRows at h
    split at h
    · rename_i b r' hb hr
      cases h
      obtain ⟨hl, hg⟩ := ih hr
      refine ⟨by simp [hl], ?_⟩
      intro n d hd
      cases n with
      | zero =>
        simp only [List.getElem?_cons_zero, Option.some.injEq] at hd
        subst hd
        exact ⟨b, rfl, hb⟩
      | succ n => simpa only [List.getElem?_cons_succ] using hg n d (by simpa using hd)
    · cases h
    · cases h

/-- the two coordinates which a projection keeps -/
def Seen (projection : String) (q : List K) (d : Pt K) : Prop :=
  (projection = "xy" ∧ q[0]? = some d.x ∧ q[1]? = some d.y) ∨ (projection = "xz" ∧ q[0]? = some d.x ∧ q[2]? = some d.y) ∨
    (projection = "yz" ∧ q[1]? = some d.x ∧ q[2]? = some d.y)

omit [IsStrictOrderedRing K] [Field K] [LinearOrder K] in
theorem seen_axes {projection : String} {a0 a1 : Nat} (h : projectedAxes projection = .ok (a0, a1)) {q : List K} {d : Pt K}
    (hs : Seen projection q d) : q[a0]? = some d.x ∧ q[a1]? = some d.y := by
  unfold projectedAxes at h
  rcases hs with ⟨rfl, h1⟩ | ⟨rfl, h1⟩ | ⟨rfl, h1⟩ <;> simp at h <;> obtain ⟨rfl, rfl⟩ := h <;> exact h1

/-- what is in the result for each triangle and each point -/
theorem answers {width widthDa : Nat} {p : List (List K)} {t : List (Nat × Nat × Nat)} {da : List (List K)}
    {projection : String} {edged : Bool} {r : List (List Bool)}
    (h : pointsInTriangles width widthDa p t da projection edged = .ok r) :
    r.length = t.length ∧ (∀ row ∈ r, row.length = da.length) ∧
    ∀ (n m : Nat) (q : Nat × Nat × Nat) (pa pb pc pd : List K) (a b c d : Pt K), t[n]? = some q → p[q.1]? = some pa →
      p[q.2.1]? = some pb → p[q.2.2]? = some pc → da[m]? = some pd → Seen projection pa a → Seen projection pb b →
      Seen projection pc c → Seen projection pd d →
      ∃ v, (r[n]?.bind fun row => row[m]?) = some v ∧ (v = true ↔ Answer edged a b c d) := by
  unfold pointsInTriangles at h
  split at h
  · cases h
  split at h
  · cases h
  rename_i a0 a1 hax
  split at h
  · cases h
  rename_i pts hpts
  split at h
  · cases h
  rename_i cwt hcwt
  split at h
  · cases h
  rename_i pp hpp
  obtain ⟨s', hs', hpp'⟩ := project_append hpts hpp
  subst hpp'
  obtain ⟨hpl, hpg⟩ := project_get hpts
  obtain ⟨hsl, hsg⟩ := project_get hs'
  obtain ⟨hcl, hcg⟩ := clockwise_get hcwt
  obtain ⟨hrl, hrg⟩ := inRows_get h
  have hrl' : r.length = t.length := by rw [hrl, List.length_zip, hcl, min_self]
  refine ⟨hrl', ?_, ?_⟩
  · intro row hrow
    obtain ⟨n, hn, hrn⟩ := List.getElem_of_mem hrow
    have hn' : n < (t.zip cwt).length := by rw [← hrl]; exact hn
    obtain ⟨b, hb, hb'⟩ := hrg n ((t.zip cwt)[n]) (List.getElem?_eq_getElem hn')
    rw [List.getElem?_eq_getElem hn, hrn] at hb
    cases hb
    simpa using (inRow_get hb').1
  · intro n m q pa pb pc pd a b c d hq hpa hpb hpc hpd sa sb sc sd
    have get : ∀ {i : Nat} {w : List K} {v : Pt K}, p[i]? = some w → Seen projection w v → pts[i]? = some v := by
      intro i w v hw hs
      exact (hpg i v).2 ⟨w, hw, seen_axes hax hs⟩
    have ga := get hpa sa
    have gb := get hpb sb
    have gc := get hpc sc
    have gd : s'[m]? = some d := (hsg m d).2 ⟨pd, hpd, seen_axes hax sd⟩
    obtain ⟨a', b', c', h1, h2, h3, h4⟩ := hcg n q hq
    rw [ga] at h1; cases h1
    rw [gb] at h2; cases h2
    rw [gc] at h3; cases h3
    have hz : (t.zip cwt)[n]? = some (q, clockwise a b c) := by rw [List.getElem?_zip_eq_some]; exact ⟨hq, h4⟩
    obtain ⟨row, hrow, hrow'⟩ := hrg n _ hz
    have hm : m < da.length := by
      by_contra hc'
      rw [List.getElem?_eq_none (not_lt.1 hc')] at hpd; cases hpd
    have hds : ((List.range da.length).map (· + p.length))[m]? = some (m + p.length) := by
      rw [List.getElem?_map, List.getElem?_range hm]; rfl
    obtain ⟨v, hv, hv'⟩ := (inRow_get hrow').2 m _ hds
    have inl : ∀ {i : Nat} {v : Pt K}, pts[i]? = some v → (pts ++ s')[i]? = some v := by
      intro i v hi
      have : i < pts.length := by
        by_contra hc'
        rw [List.getElem?_eq_none (not_lt.1 hc')] at hi; cases hi
      rw [List.getElem?_append_left this, hi]
    have hdd : (pts ++ s')[m + p.length]? = some d := by
      rw [← hpl, List.getElem?_append_right (by omega), Nat.add_sub_cancel, gd]
    obtain ⟨v', hv1, hv2⟩ := inOne_ok (edged := edged) (inl ga) (inl gb) (inl gc) hdd
    rw [hv1] at hv'
    cases hv'
    exact ⟨v, by rw [hrow]; exact hv, hv2⟩

/-- Without edges, a point is found to be in a triangle exactly when it is strictly inside it when both are projected;
whichever way the corners go round, and also for triangles without area, which have nothing inside. -/
theorem C111_inside {width widthDa : Nat} {p : List (List K)} {t : List (Nat × Nat × Nat)} {da : List (List K)}
    {projection : String} {r : List (List Bool)} (h : pointsInTriangles width widthDa p t da projection false = .ok r)
    (n m : Nat) (q : Nat × Nat × Nat) (pa pb pc pd : List K) (a b c d : Pt K) (hq : t[n]? = some q) (hpa : p[q.1]? = some pa)
    (hpb : p[q.2.1]? = some pb) (hpc : p[q.2.2]? = some pc) (hpd : da[m]? = some pd) (sa : Seen projection pa a)
    (sb : Seen projection pb b) (sc : Seen projection pc c) (sd : Seen projection pd d) :
    ∃ v, (r[n]?.bind fun row => row[m]?) = some v ∧ (v = true ↔ StrictlyInside a b c d) := by
  obtain ⟨v, h1, h2⟩ := (answers h).2.2 n m q pa pb pc pd a b c d hq hpa hpb hpc hpd sa sb sc sd
  exact ⟨v, h1, h2.trans (answer_strict a b c d)⟩

/-- With edges, a point is found to be in a triangle with some area exactly when it is inside it or on its boundary.
Missing for the full claim: triangles without area. -/
theorem C111_edged_partial {width widthDa : Nat} {p : List (List K)} {t : List (Nat × Nat × Nat)} {da : List (List K)}
    {projection : String} {r : List (List Bool)} (h : pointsInTriangles width widthDa p t da projection true = .ok r)
    (n m : Nat) (q : Nat × Nat × Nat) (pa pb pc pd : List K) (a b c d : Pt K) (hq : t[n]? = some q) (hpa : p[q.1]? = some pa)
    (hpb : p[q.2.1]? = some pb) (hpc : p[q.2.2]? = some pc) (hpd : da[m]? = some pd) (sa : Seen projection pa a)
    (sb : Seen projection pb b) (sc : Seen projection pc c) (sd : Seen projection pd d) (h0 : orient a b c ≠ 0) :
    ∃ v, (r[n]?.bind fun row => row[m]?) = some v ∧ (v = true ↔ WithinClosed a b c d) := by
  obtain ⟨v, h1, h2⟩ := (answers h).2.2 n m q pa pb pc pd a b c d hq hpa hpb hpc hpd sa sb sc sd
  exact ⟨v, h1, h2.trans (answer_edged a b c d h0)⟩

/-- With edges, a point in line with the corners of a triangle without area is found to be in it however far away. -/
theorem C111_edged_violated :
    pointsInTriangles 2 2 [[(0 : ℚ), 0], [1, 0], [2, 0]] [(0, 1, 2)] [[5, 0]] "xy" true = .ok [[true]] ∧
      ¬ WithinClosed (⟨0, 0⟩ : Pt ℚ) ⟨1, 0⟩ ⟨2, 0⟩ ⟨5, 0⟩ := by
  refine ⟨by decide +kernel, ?_⟩
  rintro ⟨u, v, w, hu, hv, hw, hs, hx, -⟩
  simp only at hx
  linarith

/-- The result has a row for each triangle with an element for each point. -/
theorem C111_shape {width widthDa : Nat} {p : List (List K)} {t : List (Nat × Nat × Nat)} {da : List (List K)}
    {projection : String} {edged : Bool} {r : List (List Bool)}
    (h : pointsInTriangles width widthDa p t da projection edged = .ok r) :
    r.length = t.length ∧ ∀ row ∈ r, row.length = da.length := ⟨(answers h).1, (answers h).2.1⟩

example : pointsInTriangles 3 3 [[(0 : ℚ), 9, 0], [4, 9, 0], [0, 9, 4]] [(0, 1, 2), (0, 2, 1)] [[1, 0, 1], [3, 0, 3], [2, 5, 2]] "xz" true =
    .ok [[true, false, true], [true, false, true]] := by decide +kernel

example : pointsInTriangles 3 3 [[(0 : ℚ), 9, 0], [4, 9, 0], [0, 9, 4]] [(0, 1, 2), (0, 2, 1)] [[1, 0, 1], [3, 0, 3], [2, 5, 2]] "xz" false =
    .ok [[true, false, false], [true, false, false]] := by decide +kernel

end Verif.Plane
