import Verif.Extract.Lemmas2

/-! # Lemmas: the pillars used by the corners of the new grid -/

namespace Verif.Extract
open Verif.Py Verif.CpGrid

variable {g : Pillars.Grid} {b : Box} {s : State}

theorem newTables_nj (es : List NewExtra) : (newTables b es).nj = b.nj ∧ (newTables b es).ni = b.ni := by
  unfold newTables
  split <;> exact ⟨rfl, rfl⟩

theorem newTables_seg {es : List NewExtra} {n : Nat} {e : NewExtra} (h : es[n]? = some e) :
    (newTables b es).hasSplit = true ∧ (newTables b es).spi[n]? = some e.1 ∧ Pillars.segment (newTables b es) n = .ok e.2.2 := by
  have hne : es ≠ [] := by
    rintro rfl
    cases h
  unfold newTables
  rw [if_neg hne]
  refine ⟨rfl, ?_, ?_⟩
  · dsimp only
    rw [List.getElem?_map, h]
    rfl
  · apply segment_tables
    rw [List.getElem?_map, h]
    rfl

theorem newTables_spi {es : List NewExtra} {n p : Nat} (h : (newTables b es).spi[n]? = some p) : ∃ e, es[n]? = some e ∧ e.1 = p := by
  unfold newTables at h
  by_cases he : es = []
  · rw [if_pos he] at h
    cases h
  · rw [if_neg he] at h
    dsimp only at h
    rw [List.getElem?_map] at h
    cases hq : es[n]? with
    | none =>
      rw [hq] at h
      cases h
    | some e =>
      rw [hq] at h
      exact ⟨e, rfl, Option.some.inj h⟩

theorem mem_mine {seg : List Nat} {pj pi : Nat} {c : Nat × Nat} :
    c ∈ mine g b seg pj pi ↔ (c.1 ≤ 1 ∧ c.2 ≤ 1) ∧ hasCol b.nj b.ni (pj - b.j0, pi - b.i0) c ∧ colNo g.ni (pj, pi) c ∈ seg := by
  unfold mine locals
  rw [List.mem_filter, List.mem_filter, decide_eq_true_eq, decide_eq_true_eq, mem_order, and_assoc]

theorem mem_locals {q c : Nat × Nat} : c ∈ locals b q ↔ (c.1 ≤ 1 ∧ c.2 ≤ 1) ∧ hasCol b.nj b.ni q c := by
  unfold locals
  rw [List.mem_filter, decide_eq_true_eq, mem_order]

theorem newMapping_ok (hs : LInv g b g.spi.length s) : ∃ m, Pillars.columnPillarMapping (newTables b s.extras) = .ok m := by
  unfold Pillars.columnPillarMapping
  split
  swap
  · exact ⟨_, rfl⟩
  obtain ⟨e1, e2⟩ := newTables_nj (b := b) s.extras
  apply placeExtras_ok
  · rw [e2]
    unfold Box.ni
    omega
  intro k P hk
  obtain ⟨e, h1, rfl⟩ := newTables_spi hk
  rw [Nat.zero_add]
  refine ⟨_, (newTables_seg h1).2.2, ?_⟩
  intro c hc
  obtain ⟨n', pj, pi, seg, _, _, hin, _, _, _, rfl⟩ := (hs.extras e).mp (List.mem_of_getElem? h1)
  dsimp only at hc ⊢
  obtain ⟨cc, hcc, rfl⟩ := List.mem_map.mp hc
  obtain ⟨h4, hcol, _⟩ := mem_mine.mp hcc
  rw [e1, e2]
  unfold hasCol at hcol
  unfold InBox at hin
  have d1 := Pillars.div_mod_of (n := b.ni + 1) (a := pi - b.i0) (b := pj - b.j0) (by unfold Box.ni; omega)
  have d2 := Pillars.div_mod_of (n := b.ni) (a := pi - b.i0 - cc.2) (b := pj - b.j0 - cc.1) hcol.2.2.2
  unfold lpOf colNo
  dsimp only at *
  rw [d1.1, d1.2, d2.1, d2.2]
  omega

/-- a corner of the new grid listed for one of its extra pillars is listed in the source grid for the extra pillar whose points that
one has -/
theorem applies_source (h : Cond g b) (hs : LInv g b g.spi.length s) {j i jp ip n : Nat} (hj : b.j0 + j ≤ b.j1) (hi : b.i0 + i ≤ b.i1)
    (hjp : jp ≤ 1) (hip : ip ≤ 1) (ha : Pillars.Applies (newTables b s.extras) n j i jp ip) :
    ∃ e n' seg, s.extras[n]? = some e ∧ Pillars.Applies g n' (b.j0 + j) (b.i0 + i) jp ip ∧
      e.2.1 = (g.nj + 1) * (g.ni + 1) + n' ∧ Pillars.segment g n' = .ok seg ∧ ¬ Covers g b seg (b.j0 + j + jp) (b.i0 + i + ip) := by
  obtain ⟨a1, cs, a2, a3⟩ := ha
  replace a2 := Pillars.segment_iff.2 a2
  obtain ⟨e, h1, h2⟩ := newTables_spi a1
  rw [(newTables_seg h1).2.2] at a2
  cases a2
  obtain ⟨n', pj, pi, seg, k1, k2, hin, k3, k4, k5, rfl⟩ := (hs.extras e).mp (List.mem_of_getElem? h1)
  unfold Pillars.naturalPillar at h2
  rw [(newTables_nj (b := b) _).2] at h2 a3
  have hin' : InBox b (b.j0 + j + jp) (b.i0 + i + ip) := by
    unfold InBox
    omega
  obtain ⟨rfl, rfl⟩ := lpOf_inj hin hin' (by
    rw [show lpOf b pj pi = _ from h2]
    unfold lpOf
    congr 2 <;> omega)
  dsimp only at a3
  obtain ⟨c, hc, hx⟩ := List.mem_map.mp a3
  obtain ⟨h4, hcol, hm⟩ := mem_mine.mp hc
  unfold hasCol at hcol
  unfold colNo at hx
  dsimp only at hcol hx
  obtain ⟨e1, e2⟩ := mul_add_inj hcol.2.2.2 (by unfold Box.ni; omega) hx
  have hc1 : c.1 = jp := by omega
  have hc2 : c.2 = ip := by omega
  refine ⟨_, n', seg, h1, ⟨?_, seg, Pillars.segment_iff.1 k3, ?_⟩, rfl, k3, k4⟩
  · rw [k2]
    unfold Pillars.naturalPillar
    congr 1
  · unfold colNo at hm
    dsimp only at hm
    rw [hc1, hc2, Nat.add_sub_cancel, Nat.add_sub_cancel] at hm
    exact hm

theorem mem_local_corner {j i jp ip : Nat} (hj : b.j0 + j ≤ b.j1) (hi : b.i0 + i ≤ b.i1) (hjp : jp ≤ 1) (hip : ip ≤ 1) :
    (jp, ip) ∈ locals b (b.j0 + j + jp - b.j0, b.i0 + i + ip - b.i0) := by
  rw [mem_locals]
  refine ⟨⟨hjp, hip⟩, ?_⟩
  unfold hasCol Box.nj Box.ni
  dsimp only
  omega

theorem last_applies {t : Pillars.Grid} {j i jp ip n : Nat} (h : Pillars.Applies t n j i jp ip) :
    ∃ n, Pillars.Applies t n j i jp ip ∧ ∀ n', n < n' → ¬ Pillars.Applies t n' j i jp ip := by
  have hlt : ∀ n, Pillars.Applies t n j i jp ip → n < t.spi.length := fun n h =>
    (List.getElem?_eq_some_iff.mp h.1).1
  by_contra hcon
  push Not at hcon
  have : ∀ k, ∃ n', k ≤ n' ∧ Pillars.Applies t n' j i jp ip := by
    intro k
    induction k with
    | zero => exact ⟨n, Nat.zero_le _, h⟩
    | succ k ih =>
      obtain ⟨n', h1, h2⟩ := ih
      obtain ⟨n'', h3, h4⟩ := hcon n' h2
      exact ⟨n'', by omega, h4⟩
  obtain ⟨n', h1, h2⟩ := this t.spi.length
  have := hlt n' h2
  omega

/-- the points of the pillar used by a corner of the new grid are those of the pillar used by the same corner in the source grid -/
theorem new_pillar {P : Type} (pts : Nat → Nat → P) (h : Cond g b) (hs : LInv g b g.spi.length s) (hsplit : g.hasSplit = true)
    (once : ∀ n n' j i jp ip, j < g.nj → i < g.ni → jp ≤ 1 → ip ≤ 1 → Pillars.Applies g n j i jp ip → Pillars.Applies g n' j i jp ip → n = n')
    {m m' : Pillars.Mapping} (hm : Pillars.columnPillarMapping g = .ok m) (hm' : Pillars.columnPillarMapping (newTables b s.extras) = .ok m')
    {j i jp ip : Nat} (hj : b.j0 + j ≤ b.j1) (hi : b.i0 + i ≤ b.i1) (hjp : jp ≤ 1) (hip : ip ≤ 1) (r0 r : Nat) :
    newPts pts b r0 s r (m' j i jp ip) = pts (r0 + r) (m (b.j0 + j) (b.i0 + i) jp ip) := by
  have hgj := h.hj
  have hgi := h.hi
  obtain ⟨t1, t2⟩ := newTables_nj (b := b) s.extras
  obtain ⟨s1, s2⟩ := Pillars.C31_mapping_spec hm (j := b.j0 + j) (i := b.i0 + i) (jp := jp) (ip := ip) (by omega) hip
  obtain ⟨d1, d2⟩ := Pillars.C31_mapping_spec hm' (j := j) (i := i) (jp := jp) (ip := ip) (by rw [t2]; unfold Box.ni; omega) hip
  have hin : InBox b (b.j0 + j + jp) (b.i0 + i + ip) := by
    unfold InBox
    omega
  have honce : ∀ n n', Pillars.Applies g n (b.j0 + j) (b.i0 + i) jp ip → Pillars.Applies g n' (b.j0 + j) (b.i0 + i) jp ip → n = n' :=
    fun n n' => once n n' _ _ _ _ (by omega) (by omega) hjp hip
  have hnat : Pillars.naturalPillar (newTables b s.extras) j i jp ip = lpOf b (b.j0 + j + jp) (b.i0 + i + ip) := by
    unfold Pillars.naturalPillar lpOf
    rw [t2]
    congr 2 <;> omega
  have hlt : lpOf b (b.j0 + j + jp) (b.i0 + i + ip) < (b.nj + 1) * (b.ni + 1) := by
    rw [← hnat]
    unfold Pillars.naturalPillar
    rw [t2, Nat.succ_mul]
    have a1 : j + jp ≤ b.nj := by unfold Box.nj; omega
    have a2 : i + ip < b.ni + 1 := by unfold Box.ni; omega
    have := Nat.mul_le_mul_right (b.ni + 1) a1
    omega
  have hcov : ∀ n seg, g.spi[n]? = some ((b.j0 + j + jp) * (g.ni + 1) + (b.i0 + i + ip)) → Pillars.segment g n = .ok seg →
      Covers g b seg (b.j0 + j + jp) (b.i0 + i + ip) → Pillars.Applies g n (b.j0 + j) (b.i0 + i) jp ip := by
    intro n seg h1 h2 h3
    refine ⟨h1, seg, Pillars.segment_iff.1 h2, ?_⟩
    have := h3 _ (mem_local_corner hj hi hjp hip)
    unfold colNo at this
    dsimp only at this
    rw [Nat.add_sub_cancel, Nat.add_sub_cancel] at this
    exact this
  have hfree : (∀ n, ¬ Pillars.Applies (newTables b s.extras) n j i jp ip) →
      newPts pts b r0 s r (m' j i jp ip) = pts (r0 + r) (s.base (lpOf b (b.j0 + j + jp) (b.i0 + i + ip))) := by
    intro hno
    rw [d1 (Or.inr hno), hnat]
    unfold newPts
    rw [if_pos hlt]
  by_cases hex : ∃ n, Pillars.Applies g n (b.j0 + j) (b.i0 + i) jp ip
  · obtain ⟨n, hn⟩ := hex
    rw [s2 n hsplit hn (fun n' hlt' hn' => by have := honce n n' hn hn'; omega)]
    obtain ⟨hn1, seg, hn2, hn3⟩ := id hn
    replace hn2 := Pillars.segment_iff.2 hn2
    by_cases hc : Covers g b seg (b.j0 + j + jp) (b.i0 + i + ip)
    · rw [hfree, hs.covered _ _ n seg hin (List.getElem?_eq_some_iff.mp hn1).1 hn1 hn2 hc]
      intro n' hn'
      obtain ⟨e, n2, seg2, k1, k2, k3, k4, k5⟩ := applies_source h hs hj hi hjp hip hn'
      obtain rfl := honce n n2 hn k2
      rw [hn2] at k4
      cases k4
      exact k5 hc
    · have hmine : (jp, ip) ∈ mine g b seg (b.j0 + j + jp) (b.i0 + i + ip) := by
        rw [mem_mine]
        refine ⟨⟨hjp, hip⟩, (mem_locals.mp (mem_local_corner hj hi hjp hip)).2, ?_⟩
        unfold colNo
        dsimp only
        rw [Nat.add_sub_cancel, Nat.add_sub_cancel]
        exact hn3
      have hmem := (hs.extras _).mpr ⟨n, _, _, seg, (List.getElem?_eq_some_iff.mp hn1).1, hn1, hin, hn2, hc,
        List.ne_nil_of_mem hmine, rfl⟩
      obtain ⟨k, hk⟩ := List.mem_iff_getElem?.mp hmem
      obtain ⟨q1, q2, q3⟩ := newTables_seg (b := b) hk
      have hap : Pillars.Applies (newTables b s.extras) k j i jp ip := by
        refine ⟨by rw [q2, hnat], _, Pillars.segment_iff.1 q3, ?_⟩
        dsimp only
        rw [t2]
        refine List.mem_map.mpr ⟨(jp, ip), hmine, ?_⟩
        unfold colNo
        dsimp only
        congr 2 <;> omega
      obtain ⟨l, hl1, hl2⟩ := last_applies hap
      rw [d2 l q1 hl1 hl2, t1, t2]
      obtain ⟨e, n2, seg2, k1, k2, k3, k4, k5⟩ := applies_source h hs hj hi hjp hip hl1
      obtain rfl := honce n n2 hn k2
      unfold newPts
      rw [if_neg (by omega), Nat.add_sub_cancel_left, k1]
      dsimp only [Option.map, Option.getD]
      rw [k3]
  · push Not at hex
    rw [s1 (Or.inr hex), hfree, hs.free _ _ hin]
    · unfold Pillars.naturalPillar
      congr 1
    · intro n' seg _ h2 h3 h4
      exact hex n' (hcov n' seg h2 h3 h4)
    · intro n' hn'
      obtain ⟨_, n2, _, _, k2, _⟩ := applies_source h hs hj hi hjp hip hn'
      exact hex n2 k2

theorem placeExtras_seg {t : Pillars.Grid} (ps : List Nat) (n : Nat) (m m' : Pillars.Mapping)
    (h : Pillars.placeExtras t ps n m = .ok m') (k p : Nat) (hk : ps[k]? = some p) : ∃ seg, Pillars.segment t (n + k) = .ok seg := by
  induction ps generalizing n m k with
  | nil => cases hk
  | cons q ps ih =>
    rw [Pillars.placeExtras] at h
    cases hs : Pillars.segment t n with
    | error e =>
      rw [hs] at h
      cases h
    | ok cs =>
      rw [hs] at h
      dsimp only at h
      cases k with
      | zero => exact ⟨cs, by rw [Nat.add_zero]; exact hs⟩
      | succ k =>
        cases hp : Pillars.placeCols t q ((t.nj + 1) * (t.ni + 1) + n) cs m with
        | error e =>
          rw [hp] at h
          cases h
        | ok m2 =>
          rw [hp] at h
          obtain ⟨seg, hseg⟩ := ih (n + 1) m2 h k (by simpa using hk)
          exact ⟨seg, by rw [← hseg]; congr 1; omega⟩

/-! ## K gaps -/

/-- number of gaps above layer `k` -/
def gapsAbove (gaps : Option (List Bool)) (k : Nat) : Nat := (((gaps.getD []).take k).filter id).length

theorem raw_get {P : Type} (g : Grid P) {k : Nat} (hk : k < g.nk) : g.raw[k]? = some (k + gapsAbove g.gaps k) := by
  unfold Grid.raw gapsAbove
  cases g.gaps with
  | none =>
    dsimp only
    rw [List.getElem?_range hk]
    simp
  | some a =>
    dsimp only
    rw [show Gcs.rawIndex g.nk a = Gcs.rawIndexLoop a 0 0 g.nk from rfl, (Gcs.rawIndexLoop_spec a 0 0 g.nk).2 k hk]
    simp

theorem take_filter_split (a : List Bool) (n k : Nat) :
    ((a.take (n + k)).filter id).length = ((a.take n).filter id).length + (((a.drop n).take k).filter id).length := by
  rw [List.take_add, List.filter_append, List.length_append]

theorem gapsAbove_inherit (gaps : Option (List Bool)) (b : Box) {k : Nat} (hk : b.k0 + k ≤ b.k1) :
    gapsAbove gaps (b.k0 + k) = gapsAbove gaps b.k0 + gapsAbove (inheritGaps gaps b) k := by
  unfold gapsAbove
  cases gaps with
  | none => simp [inheritGaps]
  | some a =>
    rw [Option.getD_some, take_filter_split]
    congr 1
    unfold inheritGaps
    dsimp only
    have e : ((a.drop b.k0).take k) = (((a.drop b.k0).take (b.k1 - b.k0)).take k) := by
      rw [List.take_take, Nat.min_eq_left (by omega)]
    by_cases h1 : b.k0 < b.k1
    · rw [if_pos h1]
      by_cases h2 : 0 < (((a.drop b.k0).take (b.k1 - b.k0)).filter id).length
      · rw [if_pos h2, Option.getD_some, e]
      · rw [if_neg h2, e]
        have : ((a.drop b.k0).take (b.k1 - b.k0)).filter id = [] := List.length_eq_zero_iff.mp (by omega)
        have h3 : ((((a.drop b.k0).take (b.k1 - b.k0)).take k).filter id) = [] := by
          rw [List.filter_eq_nil_iff] at this ⊢
          exact fun x hx => this x (List.mem_of_mem_take hx)
        rw [h3]
        simp
    · rw [if_neg h1]
      have : k = 0 := by omega
      subst this
      simp

end Verif.Extract
