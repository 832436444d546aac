import Verif.Decoarsen.Spec
import Mathlib.Tactic.Ring
import Mathlib.Tactic.FieldSimp
import Mathlib.Tactic.Linarith

namespace Verif.Decoarsen

theorem inBox_iff (c : Cell) (s : Share) (x : Cell) : inBox c s x = true ↔ InBox c s x := by
  simp only [inBox, Bool.and_eq_true, decide_eq_true_eq, InBox]; tauto

theorem natural_lt {e : Ext} {c : Cell} (h : InGrid e c) : e.natural c < e.count := by
  obtain ⟨hk, hj, hi⟩ := h
  unfold Ext.natural Ext.count
  have h1 : c.k * e.nj + c.j + 1 ≤ e.nk * e.nj := by
    have : (c.k + 1) * e.nj ≤ e.nk * e.nj := Nat.mul_le_mul_right _ hk
    rw [Nat.add_mul] at this; omega
  have h2 : (c.k * e.nj + c.j + 1) * e.ni ≤ e.nk * e.nj * e.ni := Nat.mul_le_mul_right _ h1
  rw [Nat.add_mul] at h2; omega

theorem cellOf_natural {e : Ext} {c : Cell} (h : InGrid e c) : e.cellOf (e.natural c) = c := by
  obtain ⟨hk, hj, hi⟩ := h
  unfold Ext.natural Ext.cellOf
  have h1 : ((c.k * e.nj + c.j) * e.ni + c.i) / e.ni = c.k * e.nj + c.j := by
    rw [Nat.mul_comm, Nat.mul_add_div (by omega), Nat.div_eq_of_lt hi, Nat.add_zero]
  have h2 : ((c.k * e.nj + c.j) * e.ni + c.i) % e.ni = c.i := by
    rw [Nat.mul_comm, Nat.mul_add_mod, Nat.mod_eq_of_lt hi]
  have h3 : (c.k * e.nj + c.j) / e.nj = c.k := by
    rw [Nat.mul_comm, Nat.mul_add_div (by omega), Nat.div_eq_of_lt hj, Nat.add_zero]
  have h4 : (c.k * e.nj + c.j) % e.nj = c.j := by
    rw [Nat.mul_comm, Nat.mul_add_mod, Nat.mod_eq_of_lt hj]
  rw [h1, h2, h3, h4]

theorem natural_cellOf (e : Ext) (n : Nat) : e.natural (e.cellOf n) = n := by
  unfold Ext.natural Ext.cellOf
  show ((n / e.ni / e.nj * e.nj + n / e.ni % e.nj) * e.ni + n % e.ni) = n
  rw [Nat.mul_comm (n / e.ni / e.nj), Nat.div_add_mod, Nat.mul_comm, Nat.div_add_mod]

theorem inGrid_cellOf {e : Ext} {n : Nat} (h : n < e.count) : InGrid e (e.cellOf n) := by
  unfold Ext.count at h
  have hi : 0 < e.ni := Nat.pos_of_ne_zero fun h0 => by rw [h0] at h; omega
  have hj : 0 < e.nj := Nat.pos_of_ne_zero fun h0 => by rw [h0, Nat.mul_zero, Nat.zero_mul] at h; omega
  refine ⟨?_, Nat.mod_lt _ hj, Nat.mod_lt _ hi⟩
  show n / e.ni / e.nj < e.nk
  rw [Nat.div_lt_iff_lt_mul hj, Nat.div_lt_iff_lt_mul hi]; exact h

theorem natural_inj {e : Ext} {c x : Cell} (hc : InGrid e c) (hx : InGrid e x) (h : e.natural c = e.natural x) : c = x := by
  rw [← cellOf_natural hc, h, cellOf_natural hx]

theorem natural_mono (e : Ext) {c x : Cell} (hk : c.k ≤ x.k) (hj : c.j ≤ x.j) (hi : c.i ≤ x.i) : e.natural c ≤ e.natural x := by
  unfold Ext.natural
  have h1 : c.k * e.nj ≤ x.k * e.nj := Nat.mul_le_mul_right _ hk
  have h2 : (c.k * e.nj + c.j) * e.ni ≤ (x.k * e.nj + x.j) * e.ni := Nat.mul_le_mul_right _ (by omega)
  omega

theorem mem_cells {e : Ext} {c : Cell} : c ∈ e.cells ↔ InGrid e c := by
  unfold Ext.cells
  rw [List.mem_map]
  constructor
  · rintro ⟨n, hn, rfl⟩; exact inGrid_cellOf (List.mem_range.1 hn)
  · intro h; exact ⟨e.natural c, List.mem_range.2 (natural_lt h), cellOf_natural h⟩

theorem runEnd_eq (test : Nat → Bool) (f s t : Nat) (h1 : s ≤ t) (h2 : t ≤ s + f) (h3 : ∀ x, s ≤ x → x < t → test x = true)
    (h4 : t < s + f → test t = false) : runEnd test f s = t := by
  induction f generalizing s with
  | zero => simp only [runEnd]; omega
  | succ f ih =>
    unfold runEnd
    rcases Nat.lt_or_ge s t with h | h
    · rw [if_pos (h3 s (le_refl _) h)]
      exact ih (s + 1) h (by omega) (fun x hx => h3 x (by omega)) (fun h => h4 (by omega))
    · have : s = t := by omega
      subst this
      rw [h4 (by omega)]; simp

namespace Boxes
variable {e : Ext} (b : Boxes e)

theorem host_mem {c : Cell} (hc : InGrid e c) : InBox (b.host c) (b.size c) (b.host c) := by
  obtain ⟨h1, h2, h3⟩ := b.mem c hc
  exact ⟨⟨le_refl _, by omega⟩, ⟨le_refl _, by omega⟩, ⟨le_refl _, by omega⟩⟩

theorem host_in {c : Cell} (hc : InGrid e c) : InGrid e (b.host c) := b.fits c hc _ (b.host_mem hc)

theorem host_host {c : Cell} (hc : InGrid e c) : b.host (b.host c) = b.host c ∧ b.size (b.host c) = b.size c :=
  b.same c hc _ (b.host_mem hc)

theorem natural_host_le {c : Cell} (hc : InGrid e c) : e.natural (b.host c) ≤ e.natural c := by
  obtain ⟨h1, h2, h3⟩ := b.mem c hc
  exact natural_mono e h1.1 h2.1 h3.1

/-- the cells of a host's box are those with that host -/
theorem inBox_iff_host {h x : Cell} (hh : InGrid e h) (he : b.host h = h) (hx : InGrid e x) :
    InBox h (b.size h) x ↔ b.host x = h := by
  constructor
  · intro hb
    have := b.same h hh x (by rw [he]; exact hb)
    rw [this.1, he]
  · intro hb
    have h1 := (b.host_host hx).2
    have h2 := b.mem x hx
    rw [hb] at h1 h2
    rw [h1]; exact h2

/-- the ends of a host's box are in the grid -/
theorem ends {h : Cell} (hh : InGrid e h) (he : b.host h = h) :
    (0 < (b.size h).k ∧ h.k + (b.size h).k ≤ e.nk) ∧ (0 < (b.size h).j ∧ h.j + (b.size h).j ≤ e.nj) ∧
      (0 < (b.size h).i ∧ h.i + (b.size h).i ≤ e.ni) := by
  have hm := b.mem h hh
  rw [he] at hm
  obtain ⟨m1, m2, m3⟩ := hm
  have hf := b.fits h hh
  rw [he] at hf
  have h1 := (hf ⟨h.k + (b.size h).k - 1, h.j, h.i⟩ ⟨⟨by simp only; omega, by simp only; omega⟩, m2, m3⟩).1
  have h2 := (hf ⟨h.k, h.j + (b.size h).j - 1, h.i⟩ ⟨m1, ⟨by simp only; omega, by simp only; omega⟩, m3⟩).2.1
  have h3 := (hf ⟨h.k, h.j, h.i + (b.size h).i - 1⟩ ⟨m1, m2, ⟨by simp only; omega, by simp only; omega⟩⟩).2.2
  simp only at h1 h2 h3
  refine ⟨⟨?_, ?_⟩, ⟨?_, ?_⟩, ?_, ?_⟩ <;> omega

/-- the runs from a host for a test which holds on its box, other than at the host, and fails just beyond -/
theorem runs_eq {h : Cell} (hh : InGrid e h) (he : b.host h = h) (test : Cell → Bool)
    (h1 : ∀ x, InBox h (b.size h) x → x ≠ h → test x = true)
    (hk : h.k + (b.size h).k < e.nk → test ⟨h.k + (b.size h).k, h.j, h.i⟩ = false)
    (hj : h.j + (b.size h).j < e.nj → test ⟨h.k, h.j + (b.size h).j, h.i⟩ = false)
    (hi : h.i + (b.size h).i < e.ni → test ⟨h.k, h.j, h.i + (b.size h).i⟩ = false) : runs e test h = b.size h := by
  have hm := b.mem h hh
  rw [he] at hm
  obtain ⟨m1, m2, m3⟩ := hm
  obtain ⟨e1, e2, e3⟩ := b.ends hh he
  unfold runs
  rw [runEnd_eq _ _ _ (h.k + (b.size h).k) (by omega) (by omega)
      (fun x hx1 hx2 => h1 ⟨x, h.j, h.i⟩ ⟨⟨by simp only; omega, hx2⟩, m2, m3⟩ (fun he => by have := congrArg Cell.k he; simp only at this; omega))
      (fun h => hk (by omega)),
    runEnd_eq _ _ _ (h.j + (b.size h).j) (by omega) (by omega)
      (fun x hx1 hx2 => h1 ⟨h.k, x, h.i⟩ ⟨m1, ⟨by simp only; omega, hx2⟩, m3⟩ (fun he => by have := congrArg Cell.j he; simp only at this; omega))
      (fun h => hj (by omega)),
    runEnd_eq _ _ _ (h.i + (b.size h).i) (by omega) (by omega)
      (fun x hx1 hx2 => h1 ⟨h.k, h.j, x⟩ ⟨m1, m2, ⟨by simp only; omega, hx2⟩⟩ (fun he => by have := congrArg Cell.i he; simp only at this; omega))
      (fun h => hi (by omega))]
  show (⟨_, _, _⟩ : Share) = ⟨(b.size h).k, (b.size h).j, (b.size h).i⟩
  congr 1 <;> omega

/-- a cell just beyond a host's box has another host -/
theorem beyond {h x : Cell} (hh : InGrid e h) (he : b.host h = h) (hx : InGrid e x) (hb : ¬ InBox h (b.size h) x) :
    e.natural (b.host x) ≠ e.natural h := fun hn =>
  hb ((b.inBox_iff_host hh he hx).2 (natural_inj (b.host_in hx) hh hn))

end Boxes

/-- the decoarsening array for a division into boxes agrees with it on the grid -/
def ArrayFor {e : Ext} (b : Boxes e) (d : Arr Nat) : Prop := ∀ c, InGrid e c → d c = e.natural (b.host c)

theorem foldl_cells_succ {σ : Type} (e : Ext) (step : σ → Cell → σ) (s : σ) (n : Nat) :
    ((List.range (n + 1)).map e.cellOf).foldl step s = step (((List.range n).map e.cellOf).foldl step s) (e.cellOf n) := by
  rw [List.range_succ, List.map_append, List.foldl_append]; rfl

/-- a cell which has no share yet is a host, when all before it have been seen to -/
theorem host_eq_of_le {e : Ext} (b : Boxes e) {c : Cell} (hc : InGrid e c) (h : e.natural c ≤ e.natural (b.host c)) : b.host c = c :=
  natural_inj (b.host_in hc) hc (Nat.le_antisymm (b.natural_host_le hc) h)

theorem shares_eq {e : Ext} (b : Boxes e) (d : Arr Nat) (hd : ArrayFor b d) (c : Cell) (hc : InGrid e c) :
    shares e d c = b.size c := by
  have inv : ∀ n, n ≤ e.count → ∀ x, InGrid e x →
      ((List.range n).map e.cellOf).foldl (shareStep e d) (fun _ => ⟨0, 0, 0⟩) x =
        if e.natural (b.host x) < n then b.size x else ⟨0, 0, 0⟩ := by
    intro n
    induction n with
    | zero => intro _ x _; simp
    | succ n ih =>
      intro hn x hx
      have ih := ih (by omega)
      rw [foldl_cells_succ]
      generalize ((List.range n).map e.cellOf).foldl (shareStep e d) (fun _ => ⟨0, 0, 0⟩) = sh at ih
      have hg : InGrid e (e.cellOf n) := inGrid_cellOf (by omega)
      have hnat : e.natural (e.cellOf n) = n := natural_cellOf e n
      unfold shareStep
      rw [ih _ hg]
      by_cases hlt : e.natural (b.host (e.cellOf n)) < n
      · -- seen to already
        rw [if_pos hlt, if_neg (by
          have := (b.ends (b.host_in hg) (b.host_host hg).1).1.1
          rw [(b.host_host hg).2] at this; omega), ih x hx]
        by_cases h2 : e.natural (b.host x) < n
        · rw [if_pos h2, if_pos (by omega)]
        · rw [if_neg h2, if_neg (fun h3 => ?_)]
          have h4 : e.natural (b.host x) = n := by omega
          have h5 : b.host x = e.cellOf n := natural_inj (b.host_in hx) hg (by rw [h4, hnat])
          have h6 := (b.host_host hx).1
          rw [h5] at h6
          rw [h6, hnat] at hlt
          omega
      · have hh : b.host (e.cellOf n) = e.cellOf n := host_eq_of_le b hg (by omega)
        rw [if_neg hlt, if_pos rfl]
        have hr : runs e (fun y => decide (d y = e.natural (e.cellOf n))) (e.cellOf n) = b.size (e.cellOf n) := by
          obtain ⟨e1, e2, e3⟩ := b.ends hg hh
          refine b.runs_eq hg hh _ (fun y hy _ => ?_) (fun h => ?_) (fun h => ?_) (fun h => ?_)
          · have hy' : InGrid e y := b.fits _ hg y (by rw [hh]; exact hy)
            rw [decide_eq_true_eq, hd y hy', (b.inBox_iff_host hg hh hy').1 hy]
          · have hy' : InGrid e ⟨(e.cellOf n).k + (b.size (e.cellOf n)).k, (e.cellOf n).j, (e.cellOf n).i⟩ := ⟨h, hg.2⟩
            rw [decide_eq_false_iff_not, hd _ hy']
            exact b.beyond hg hh hy' (fun hb => by have := hb.1.2; simp only at this; omega)
          · have hy' : InGrid e ⟨(e.cellOf n).k, (e.cellOf n).j + (b.size (e.cellOf n)).j, (e.cellOf n).i⟩ := ⟨hg.1, h, hg.2.2⟩
            rw [decide_eq_false_iff_not, hd _ hy']
            exact b.beyond hg hh hy' (fun hb => by have := hb.2.1.2; simp only at this; omega)
          · have hy' : InGrid e ⟨(e.cellOf n).k, (e.cellOf n).j, (e.cellOf n).i + (b.size (e.cellOf n)).i⟩ := ⟨hg.1, hg.2.1, h⟩
            rw [decide_eq_false_iff_not, hd _ hy']
            exact b.beyond hg hh hy' (fun hb => by have := hb.2.2.2; simp only at this; omega)
        simp only [hr]
        unfold assign
        by_cases hb : InBox (e.cellOf n) (b.size (e.cellOf n)) x
        · have hx' := (b.inBox_iff_host hg hh hx).1 hb
          rw [if_pos ((inBox_iff _ _ _).2 hb), hx', hnat, if_pos (by omega), ← (b.host_host hx).2, hx']
        · rw [if_neg (fun h => hb ((inBox_iff _ _ _).1 h)), ih x hx]
          have hne := b.beyond hg hh hx hb
          rw [hnat] at hne
          by_cases h2 : e.natural (b.host x) < n
          · rw [if_pos h2, if_pos (by omega)]
          · rw [if_neg h2, if_neg (by omega)]
  have := inv e.count (le_refl _) c hc
  rw [if_pos (natural_lt (b.host_in hc))] at this
  exact this

theorem kid_ne {e : Ext} {b : Boxes e} {kid : Arr Int} (hk : KidFor b kid) {c : Cell} (hc : InGrid e c) : kid c ≠ -3 ↔ b.host c = c := by
  have := hk c hc
  by_cases h : b.host c = c
  · rw [if_pos h] at this
    refine ⟨fun _ => h, fun _ => ?_⟩
    rcases this with h | h
    · rw [h]; decide
    · exact h.1
  · rw [if_neg h] at this
    exact ⟨fun h' => absurd this h', fun h' => absurd h' h⟩

theorem kid_fold {e : Ext} (b : Boxes e) (kid : Arr Int) (hk : KidFor b kid) (ha : Aligned b) (n : Nat) (hn : n ≤ e.count) (x : Cell)
    (hx : InGrid e x) :
    (((List.range n).map e.cellOf).foldl (kidStep e kid) (fun _ => none, fun _ => ⟨0, 0, 0⟩)).1 x =
        (if e.natural (b.host x) < n then some (e.natural (b.host x)) else none) ∧
      (((List.range n).map e.cellOf).foldl (kidStep e kid) (fun _ => none, fun _ => ⟨0, 0, 0⟩)).2 x =
        if e.natural (b.host x) < n then b.size x else ⟨0, 0, 0⟩ := by
  induction n generalizing x with
  | zero => simp
  | succ n ih =>
    have ih := ih (by omega)
    rw [foldl_cells_succ]
    generalize ((List.range n).map e.cellOf).foldl (kidStep e kid) (fun _ => none, fun _ => ⟨0, 0, 0⟩) = st at ih
    have hg : InGrid e (e.cellOf n) := inGrid_cellOf (by omega)
    have hnat : e.natural (e.cellOf n) = n := natural_cellOf e n
    by_cases hh : b.host (e.cellOf n) = e.cellOf n
    · -- a host: its box is assigned
      have key : kidStep e kid st (e.cellOf n) = (assign st.1 (e.cellOf n) (b.size (e.cellOf n)) (some (e.natural (e.cellOf n))),
          assign st.2 (e.cellOf n) (b.size (e.cellOf n)) (b.size (e.cellOf n))) := by
        have h0 := hk _ hg
        rw [if_pos hh] at h0
        unfold kidStep
        rcases h0 with h0 | ⟨h0, h1⟩
        · rw [if_pos h0]
          have hr : runs e (fun y => decide (kid y = -3)) (e.cellOf n) = b.size (e.cellOf n) := by
            have hal := ha _ hg hh
            refine b.runs_eq hg hh _ (fun y hy hne => ?_) (fun h => ?_) (fun h => ?_) (fun h => ?_)
            · have hy' : InGrid e y := b.fits _ hg y (by rw [hh]; exact hy)
              have h3 := (b.inBox_iff_host hg hh hy').1 hy
              rw [decide_eq_true_eq]
              by_contra h4
              have h5 := (kid_ne hk hy').1 h4
              exact hne (by rw [← h5, h3])
            · have hy' : InGrid e ⟨(e.cellOf n).k + (b.size (e.cellOf n)).k, (e.cellOf n).j, (e.cellOf n).i⟩ := ⟨h, hg.2⟩
              rw [decide_eq_false_iff_not]
              exact (kid_ne hk hy').2 (hal _ (by simp) hy')
            · have hy' : InGrid e ⟨(e.cellOf n).k, (e.cellOf n).j + (b.size (e.cellOf n)).j, (e.cellOf n).i⟩ := ⟨hg.1, h, hg.2.2⟩
              rw [decide_eq_false_iff_not]
              exact (kid_ne hk hy').2 (hal _ (by simp) hy')
            · have hy' : InGrid e ⟨(e.cellOf n).k, (e.cellOf n).j, (e.cellOf n).i + (b.size (e.cellOf n)).i⟩ := ⟨hg.1, hg.2.1, h⟩
              rw [decide_eq_false_iff_not]
              exact (kid_ne hk hy').2 (hal _ (by simp) hy')
          simp only [hr]
        · by_cases h2 : kid (e.cellOf n) = 0
          · rw [if_pos h2]
            have hr : runs e (fun y => decide (kid y = -3)) (e.cellOf n) = b.size (e.cellOf n) := by
              have hal := ha _ hg hh
              refine b.runs_eq hg hh _ (fun y hy hne => ?_) (fun h => ?_) (fun h => ?_) (fun h => ?_)
              · exfalso
                obtain ⟨m1, m2, m3⟩ := hy
                rw [h1] at m1 m2 m3
                apply hne
                cases y
                simp only at m1 m2 m3
                generalize e.cellOf n = q at m1 m2 m3
                cases q
                simp only at m1 m2 m3
                congr 1 <;> omega
              · have hy' : InGrid e ⟨(e.cellOf n).k + (b.size (e.cellOf n)).k, (e.cellOf n).j, (e.cellOf n).i⟩ := ⟨h, hg.2⟩
                rw [decide_eq_false_iff_not]
                exact (kid_ne hk hy').2 (hal _ (by simp) hy')
              · have hy' : InGrid e ⟨(e.cellOf n).k, (e.cellOf n).j + (b.size (e.cellOf n)).j, (e.cellOf n).i⟩ := ⟨hg.1, h, hg.2.2⟩
                rw [decide_eq_false_iff_not]
                exact (kid_ne hk hy').2 (hal _ (by simp) hy')
              · have hy' : InGrid e ⟨(e.cellOf n).k, (e.cellOf n).j, (e.cellOf n).i + (b.size (e.cellOf n)).i⟩ := ⟨hg.1, hg.2.1, h⟩
                rw [decide_eq_false_iff_not]
                exact (kid_ne hk hy').2 (hal _ (by simp) hy')
            simp only [hr]
          · rw [if_neg h2, if_neg h0, h1]
      rw [key]
      simp only [assign]
      by_cases hb : InBox (e.cellOf n) (b.size (e.cellOf n)) x
      · have hx' := (b.inBox_iff_host hg hh hx).1 hb
        have hs := (b.host_host hx).2
        rw [hx'] at hs
        rw [if_pos ((inBox_iff _ _ _).2 hb), if_pos ((inBox_iff _ _ _).2 hb), hx', hnat, if_pos (by omega), if_pos (by omega), hs]
        exact ⟨rfl, rfl⟩
      · have hne := b.beyond hg hh hx hb
        rw [hnat] at hne
        rw [if_neg (fun h => hb ((inBox_iff _ _ _).1 h)), if_neg (fun h => hb ((inBox_iff _ _ _).1 h)), (ih x hx).1, (ih x hx).2]
        by_cases h2 : e.natural (b.host x) < n
        · rw [if_pos h2, if_pos h2, if_pos (by omega), if_pos (by omega)]; exact ⟨rfl, rfl⟩
        · rw [if_neg h2, if_neg h2, if_neg (by omega), if_neg (by omega)]; exact ⟨rfl, rfl⟩
    · have h3 : kid (e.cellOf n) = -3 := by
        have := hk _ hg
        rw [if_neg hh] at this; exact this
      have : kidStep e kid st (e.cellOf n) = st := by
        unfold kidStep
        rw [if_neg (by rw [h3]; decide), if_pos h3]
      rw [this, (ih x hx).1, (ih x hx).2]
      have hne : e.natural (b.host x) ≠ n := fun h4 => by
        have h5 : b.host x = e.cellOf n := natural_inj (b.host_in hx) hg (by rw [h4, hnat])
        have h6 := (b.host_host hx).1
        rw [h5] at h6
        exact hh h6
      by_cases h2 : e.natural (b.host x) < n
      · rw [if_pos h2, if_pos h2, if_pos (by omega), if_pos (by omega)]; exact ⟨rfl, rfl⟩
      · rw [if_neg h2, if_neg h2, if_neg (by omega), if_neg (by omega)]; exact ⟨rfl, rfl⟩

theorem fromKid_eq {e : Ext} (b : Boxes e) (kid : Arr Int) (hk : KidFor b kid) (ha : Aligned b) (hne : ∃ c, InGrid e c ∧ b.host c ≠ c) :
    ∃ d sh, fromKid e kid = .ok (some (d, sh)) ∧ ArrayFor b d ∧ ∀ c, InGrid e c → sh c = b.size c := by
  have hf := kid_fold b kid hk ha e.count (le_refl _)
  have h1 : (e.cells.any fun c => decide (kid c = -3)) = true := by
    rw [List.any_eq_true]
    obtain ⟨c, hc, hh⟩ := hne
    refine ⟨c, mem_cells.2 hc, ?_⟩
    have := hk c hc
    rw [if_neg hh] at this
    simp [this]
  have h2 : (e.cells.all fun c => ((e.cells.foldl (kidStep e kid) (fun _ => none, fun _ => ⟨0, 0, 0⟩)).1 c).isSome) = true := by
    rw [List.all_eq_true]
    intro c hc
    have hc := mem_cells.1 hc
    unfold Ext.cells
    rw [(hf c hc).1, if_pos (natural_lt (b.host_in hc))]; rfl
  refine ⟨_, _, by unfold fromKid; rw [if_pos h1]; dsimp only; rw [if_pos h2], fun c hc => ?_, fun c hc => ?_⟩
  · unfold Ext.cells
    rw [(hf c hc).1, if_pos (natural_lt (b.host_in hc))]; rfl
  · have := (hf c hc).2
    rw [if_pos (natural_lt (b.host_in hc))] at this
    exact this

section values
variable {K : Type} [Field K] [CharZero K]

theorem shareOut_spread {e : Ext} (b : Boxes e) (d : Arr Nat) (sh : Arr Share) (hd : ArrayFor b d) (hs : ∀ c, InGrid e c → sh c = b.size c)
    (r : Rule) (hr : ∀ a, r = .along a → a < 3) (a : Arr K) : Spread e b r a (shareOut e d sh r a) := by
  intro c hc
  have hv : ∀ x, InBox (b.host c) (b.size c) x → a (e.cellOf (d x)) = a (b.host c) ∧ sh x = b.size c := by
    intro x hx
    have hx' := b.fits c hc x hx
    have h2 := b.same c hc x hx
    rw [hd x hx', hs x hx', h2.1, h2.2, cellOf_natural (b.host_in hc)]
    exact ⟨rfl, rfl⟩
  have hmem := b.mem c hc
  have hend := b.ends (b.host_in hc) (b.host_host hc).1
  rw [(b.host_host hc).2] at hend
  obtain ⟨⟨p1, _⟩, ⟨p2, _⟩, ⟨p3, _⟩⟩ := hend
  have q1 : ((b.size c).k : K) ≠ 0 := by exact_mod_cast (by omega : (b.size c).k ≠ 0)
  have q2 : ((b.size c).j : K) ≠ 0 := by exact_mod_cast (by omega : (b.size c).j ≠ 0)
  have q3 : ((b.size c).i : K) ≠ 0 := by exact_mod_cast (by omega : (b.size c).i ≠ 0)
  have hsame : ∀ x, InBox (b.host c) (b.size c) x → shareOut e d sh r a x = shareOut e d sh r a c := by
    intro x hx
    unfold shareOut
    rw [(hv x hx).1, (hv x hx).2, (hv c hmem).1, (hv c hmem).2]
  cases r with
  | volume =>
    refine ⟨?_, hsame⟩
    unfold boxTotal
    rw [Finset.sum_congr rfl fun k hk => Finset.sum_congr rfl fun j hj => Finset.sum_congr rfl fun i hi =>
      hsame ⟨k, j, i⟩ ⟨Finset.mem_Ico.1 hk, Finset.mem_Ico.1 hj, Finset.mem_Ico.1 hi⟩]
    simp only [Finset.sum_const, Nat.card_Ico, nsmul_eq_mul, Nat.add_sub_cancel_left]
    unfold shareOut
    rw [(hv c hmem).1, (hv c hmem).2]
    push_cast
    field_simp
  | along ax =>
    refine ⟨?_, hsame⟩
    have hax := hr ax rfl
    have hcase : ax = 0 ∨ ax = 1 ∨ ax = 2 := by omega
    obtain ⟨m1, m2, m3⟩ := hmem
    rcases hcase with rfl | rfl | rfl
    · simp only [lineTotal, if_true]
      rw [Finset.sum_congr rfl fun k hk => hsame ⟨k, c.j, c.i⟩ ⟨Finset.mem_Ico.1 hk, m2, m3⟩]
      simp only [Finset.sum_const, Nat.card_Ico, nsmul_eq_mul, Nat.add_sub_cancel_left]
      unfold shareOut
      rw [(hv c ⟨m1, m2, m3⟩).1, (hv c ⟨m1, m2, m3⟩).2]
      show _ * (_ / _) = _
      rw [mul_comm, div_mul_cancel₀ _ q1]
    · simp only [lineTotal, if_true, one_ne_zero, if_false]
      rw [Finset.sum_congr rfl fun j hj => hsame ⟨c.k, j, c.i⟩ ⟨m1, Finset.mem_Ico.1 hj, m3⟩]
      simp only [Finset.sum_const, Nat.card_Ico, nsmul_eq_mul, Nat.add_sub_cancel_left]
      unfold shareOut
      rw [(hv c ⟨m1, m2, m3⟩).1, (hv c ⟨m1, m2, m3⟩).2]
      show _ * (_ / _) = _
      rw [mul_comm, div_mul_cancel₀ _ q2]
    · simp only [lineTotal, OfNat.ofNat_ne_zero, OfNat.ofNat_ne_one, if_false]
      rw [Finset.sum_congr rfl fun i hi => hsame ⟨c.k, c.j, i⟩ ⟨m1, m2, Finset.mem_Ico.1 hi⟩]
      simp only [Finset.sum_const, Nat.card_Ico, nsmul_eq_mul, Nat.add_sub_cancel_left]
      unfold shareOut
      rw [(hv c ⟨m1, m2, m3⟩).1, (hv c ⟨m1, m2, m3⟩).2]
      show _ * (_ / _) = _
      rw [mul_comm, div_mul_cancel₀ _ q3]
  | copy => exact (hv c hmem).1
  | skip => exact (hv c hmem).1

omit [CharZero K] in
theorem redistribute_ok (e : Ext) (d : Arr Nat) (sh : Arr Share) (items : List (Item K)) (last : Option (Arr K))
    (h : ∀ t ∈ items, Wanted t → rule t.kind t.facetType t.facet ≠ .skip) :
    redistribute e d sh last items = .ok (items.map fun t =>
      if Wanted t then { t with values := shareOut e d sh (rule t.kind t.facetType t.facet) t.values } else t) := by
  induction items generalizing last with
  | nil => rfl
  | cons t ts ih =>
    have ih := fun l => ih l fun t ht => h t (List.mem_cons_of_mem _ ht)
    unfold redistribute
    by_cases hw : Wanted t
    · rw [if_neg (by rw [Wanted] at hw; rintro (h | h | h)
                     · exact h hw.1
                     · exact h hw.2.1
                     · exact hw.2.2 h), if_neg (h t (List.mem_cons_self) hw)]
      dsimp only
      rw [ih]
      simp only [List.map_cons, if_pos hw]
    · rw [if_pos (by by_contra hn; exact hw (by
                      simp only [not_or, not_not] at hn; exact hn)), ih]
      simp only [List.map_cons, if_neg hw]

end values

theorem rule_axis (kind : String) (ft f : Option String) (a : Nat) (h : rule kind ft f = .along a) : a < 3 := by
  unfold rule at h
  dsimp only at h
  repeat' split at h
  all_goals first | (cases h; done) | (injection h; omega)

end Verif.Decoarsen
