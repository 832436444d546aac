import Verif.Upscale.Lemmas

/-! # C75: what is kept when the properties of a grid are upscaled to a coarser grid -/

namespace Verif.Upscale

variable {K : Type} [Field K] [LinearOrder K] [IsStrictOrderedRing K]

/-- written arrays with rock volume, net to gross ratio and porosity -/
theorem written_rv_ntg_poro (cz : Coarsening) (fv cv rv ntg phi : Arr K) (sat perm : List (Arr K)) (lengths : List (Nat × Arr K))
    (others : List (Bool × Arr K)) :
    let V := coarseSum cz rv
    let N := weightedMean cz ntg rv V (some 0)
    let P := weightedMean cz phi (mulA rv ntg) (mulA V N) (some 0)
    written (upscale cz fv cv ⟨[rv], [ntg], [phi], sat, perm, lengths, others⟩) =
      [(.rockVolume, V), (.netToGross, N), (.porosity, P)]
      ++ sat.map (fun a => (Kind.saturation, weightedMean cz a (mulA (mulA rv ntg) phi) (mulA (mulA V N) P) (some 0)))
      ++ perm.map (fun a => (Kind.permeability, weightedMean cz a (mulA (mulA rv ntg) phi) (mulA (mulA V N) P) (some 0)))
      ++ lengths.map (fun q => (Kind.length, coarseLength cz q.1 q.2))
      ++ others.map (fun q => if q.1 then (Kind.continuous, weightedMean cz q.2 rv V none) else (Kind.discrete, sample cz q.2)) := by
  intro V N P
  have h := written_tail cz
    (⟨[rv, V, N, mulA (mulA rv ntg) phi, mulA (mulA V N) P, P], [(.rockVolume, 1), (.netToGross, 2), (.porosity, 5)]⟩ : St K)
    (by intro q hq; simp at hq; rcases hq with rfl | rfl | rfl <;> simp) 0 1 3 4 (by simp) (by simp) (by simp) (by simp) sat perm lengths others
  exact h

/-- with rock volume and net to gross ratio but no porosity -/
theorem written_rv_ntg (cz : Coarsening) (fv cv rv ntg : Arr K) (sat perm : List (Arr K)) (lengths : List (Nat × Arr K))
    (others : List (Bool × Arr K)) :
    let V := coarseSum cz rv
    let N := weightedMean cz ntg rv V (some 0)
    written (upscale cz fv cv ⟨[rv], [ntg], [], sat, perm, lengths, others⟩) =
      [(.rockVolume, V), (.netToGross, N)]
      ++ sat.map (fun a => (Kind.saturation, weightedMean cz a (mulA rv ntg) (mulA V N) (some 0)))
      ++ perm.map (fun a => (Kind.permeability, weightedMean cz a (mulA rv ntg) (mulA V N) (some 0)))
      ++ lengths.map (fun q => (Kind.length, coarseLength cz q.1 q.2))
      ++ others.map (fun q => if q.1 then (Kind.continuous, weightedMean cz q.2 rv V none) else (Kind.discrete, sample cz q.2)) := by
  intro V N
  exact written_tail cz (⟨[rv, V, N, mulA rv ntg, mulA V N], [(.rockVolume, 1), (.netToGross, 2)]⟩ : St K)
    (by intro q hq; simp at hq; rcases hq with rfl | rfl <;> simp) 0 1 3 4 (by simp) (by simp) (by simp) (by simp) sat perm lengths others

/-- with rock volume and porosity but no net to gross ratio: the arrays of rock volume are those multiplied by porosity -/
theorem written_rv_poro (cz : Coarsening) (fv cv rv phi : Arr K) (sat perm : List (Arr K)) (lengths : List (Nat × Arr K))
    (others : List (Bool × Arr K)) :
    let V := coarseSum cz rv
    let P := weightedMean cz phi rv V (some 0)
    written (upscale cz fv cv ⟨[rv], [], [phi], sat, perm, lengths, others⟩) =
      [(.rockVolume, mulA V P), (.porosity, P)]
      ++ sat.map (fun a => (Kind.saturation, weightedMean cz a (mulA rv phi) (mulA V P) (some 0)))
      ++ perm.map (fun a => (Kind.permeability, weightedMean cz a (mulA rv phi) (mulA V P) (some 0)))
      ++ lengths.map (fun q => (Kind.length, coarseLength cz q.1 q.2))
      ++ others.map (fun q => if q.1 then (Kind.continuous, weightedMean cz q.2 (mulA rv phi) (mulA V P) none)
          else (Kind.discrete, sample cz q.2)) := by
  intro V P
  exact written_tail cz (⟨[mulA rv phi, mulA V P, P], [(.rockVolume, 1), (.porosity, 2)]⟩ : St K)
    (by intro q hq; simp at hq; rcases hq with rfl | rfl <;> simp) 0 1 0 1 (by simp) (by simp) (by simp) (by simp) sat perm lengths others

/-- with net to gross ratio and porosity, and volumes from the geometry of the grids -/
theorem written_ntg_poro (cz : Coarsening) (fv cv ntg phi : Arr K) (sat perm : List (Arr K)) (lengths : List (Nat × Arr K))
    (others : List (Bool × Arr K)) :
    let N := weightedMean cz ntg fv cv (some 0)
    let P := weightedMean cz phi (mulA fv ntg) (mulA cv N) (some 0)
    written (upscale cz fv cv ⟨[], [ntg], [phi], sat, perm, lengths, others⟩) =
      [(.netToGross, N), (.porosity, P)]
      ++ sat.map (fun a => (Kind.saturation, weightedMean cz a (mulA (mulA fv ntg) phi) (mulA (mulA cv N) P) (some 0)))
      ++ perm.map (fun a => (Kind.permeability, weightedMean cz a (mulA (mulA fv ntg) phi) (mulA (mulA cv N) P) (some 0)))
      ++ lengths.map (fun q => (Kind.length, coarseLength cz q.1 q.2))
      ++ others.map (fun q => if q.1 then (Kind.continuous, weightedMean cz q.2 fv cv none) else (Kind.discrete, sample cz q.2)) := by
  intro N P
  exact written_tail cz (⟨[fv, cv, N, mulA (mulA fv ntg) phi, mulA (mulA cv N) P, P], [(.netToGross, 2), (.porosity, 5)]⟩ : St K)
    (by intro q hq; simp at hq; rcases hq with rfl | rfl <;> simp) 0 1 3 4 (by simp) (by simp) (by simp) (by simp) sat perm lengths others

/-- the arrays of one kind in what is written -/
theorem arraysOf_append (kind : Kind) (a b : List (Kind × Arr K)) : arraysOf kind (a ++ b) = arraysOf kind a ++ arraysOf kind b := by
  simp [arraysOf]

theorem arraysOf_map {α : Type} (kind kind' : Kind) (l : List α) (f : α → Arr K) :
    arraysOf kind (l.map fun p => (kind', f p)) = if kind' = kind then l.map f else [] := by
  unfold arraysOf
  split
  · next h => subst h; induction l with
      | nil => rfl
      | cons p l ih => simpa using ih
  · next h => simp [h]

theorem arraysOf_others (kind : Kind) (l : List (Bool × Arr K)) (f g : Bool × Arr K → Arr K) (h1 : kind ≠ .continuous) (h2 : kind ≠ .discrete) :
    arraysOf kind (l.map fun q => if q.1 then (Kind.continuous, f q) else (Kind.discrete, g q)) = [] := by
  unfold arraysOf
  rw [List.map_eq_nil_iff, List.filter_eq_nil_iff]
  intro q hq
  rw [List.mem_map] at hq
  obtain ⟨p, _, rfl⟩ := hq
  cases p.1 <;> simp [Ne.symm h1, Ne.symm h2]

/-- **C75 (volumes are conserved).**  A property collection with a rock volume, a net to gross ratio and a porosity property (arrays without
missing values, not negative) and any saturations, permeabilities, cell lengths and others, is upscaled.  In every coarse cell: rock
volume is the total of that of the fine cells in it; rock volume times net to gross ratio is the total of that product over the fine
cells; so is rock volume times net to gross times porosity; and for each saturation the product of all four.
Partial: net to gross ratio has to be there; see `C75_rock_volume_violated`. -/
theorem C75_volumes_conserved_partial (cz : Coarsening) (fv cv : Arr K) (rv ntg phi : Full K) (sats : List (Full K)) (perm : List (Arr K))
    (lengths : List (Nat × Arr K)) (others : List (Bool × Arr K)) (hrv : ∀ x y z, 0 ≤ rv x y z) (hntg : ∀ x y z, 0 ≤ ntg x y z)
    (hphi : ∀ x y z, 0 ≤ phi x y z) :
    ∃ (V N P : Full K) (S : List (Full K)),
      let w := written (upscale cz fv cv ⟨[lift rv], [lift ntg], [lift phi], sats.map lift, perm, lengths, others⟩)
      arraysOf .rockVolume w = [lift V] ∧ arraysOf .netToGross w = [lift N] ∧ arraysOf .porosity w = [lift P] ∧
      arraysOf .saturation w = S.map lift ∧
      (∀ k j i, V k j i = total cz rv k j i) ∧
      (∀ k j i, V k j i * N k j i = total cz (fun x y z => rv x y z * ntg x y z) k j i) ∧
      (∀ k j i, V k j i * N k j i * P k j i = total cz (fun x y z => rv x y z * ntg x y z * phi x y z) k j i) ∧
      List.Forall₂ (fun s s' => ∀ k j i, V k j i * N k j i * P k j i * s' k j i =
        total cz (fun x y z => rv x y z * ntg x y z * phi x y z * s x y z) k j i) sats S := by
  let V := total cz rv
  let N := wmean cz ntg rv V
  let W : Full K := fun k j i => V k j i * N k j i
  let w : Full K := fun x y z => rv x y z * ntg x y z
  let P := wmean cz phi w W
  let w' : Full K := fun x y z => w x y z * phi x y z
  let W' : Full K := fun k j i => W k j i * P k j i
  have hW : W = total cz w := by
    funext k j i
    show total cz rv k j i * wmean cz ntg rv (total cz rv) k j i = _
    rw [mul_wmean_total cz ntg rv hrv]
    simp only [w, mul_comm]
  have hw : ∀ x y z, 0 ≤ w x y z := fun x y z => mul_nonneg (hrv x y z) (hntg x y z)
  have hW' : W' = total cz w' := by
    funext k j i
    show W k j i * wmean cz phi w W k j i = _
    rw [hW, mul_wmean_total cz phi w hw]
    simp only [w', mul_comm]
  have hw' : ∀ x y z, 0 ≤ w' x y z := fun x y z => mul_nonneg (hw x y z) (hphi x y z)
  refine ⟨V, N, P, sats.map fun s => wmean cz s w' W', ?_⟩
  have eV : coarseSum cz (lift rv) = lift V := coarseSum_lift cz rv
  have eN : weightedMean cz (lift ntg) (lift rv) (lift V) (some 0) = lift N := weightedMean_lift cz _ _ _
  have eP : weightedMean cz (lift phi) (lift w) (lift W) (some 0) = lift P := weightedMean_lift cz _ _ _
  rw [written_rv_ntg_poro]
  simp only [eV, eN, mulA_lift]
  rw [show weightedMean cz (lift phi) (lift fun k j i => rv k j i * ntg k j i) (lift fun k j i => V k j i * N k j i) (some 0) = lift P from eP]
  simp only [mulA_lift, arraysOf_append, arraysOf_map]
  refine ⟨?_, ?_, ?_, ?_, fun k j i => rfl, fun k j i => congrFun (congrFun (congrFun hW k) j) i,
    fun k j i => congrFun (congrFun (congrFun hW' k) j) i, ?_⟩
  · rw [arraysOf_others _ _ _ _ (by decide) (by decide)]; simp [arraysOf]
  · rw [arraysOf_others _ _ _ _ (by decide) (by decide)]; simp [arraysOf]
  · rw [arraysOf_others _ _ _ _ (by decide) (by decide)]; simp [arraysOf]
  · rw [arraysOf_others _ _ _ _ (by decide) (by decide)]
    simp only [if_pos, reduceCtorEq, if_false, List.append_nil]
    simp only [arraysOf, List.filter, reduceCtorEq, decide_false, List.map_nil, List.nil_append, List.map_map, if_true]
    exact List.map_congr_left fun s _ => weightedMean_lift cz s w' W'
  · rw [List.forall₂_map_right_iff]
    refine List.forall₂_same.2 fun s _ k j i => ?_
    show W' k j i * wmean cz s w' W' k j i = _
    rw [hW', mul_wmean_total cz s w' hw']
    simp only [w', w, mul_comm]

example : ∃ (cz : Coarsening) (rv ntg phi : Full Rat), (∀ x y z, 0 ≤ rv x y z) ∧ (∀ x y z, 0 ≤ ntg x y z) ∧ (∀ x y z, 0 ≤ phi x y z) ∧
    cz.rk = [2, 1] ∧ total cz (fun x y z => rv x y z * ntg x y z * phi x y z) 0 0 0 = 5 :=
  ⟨⟨[2, 1], [1], [1]⟩, fun x _ _ => (x : Rat) + 1, fun x _ _ => (x : Rat) + 1, fun _ _ _ => 1, fun x _ _ => by positivity,
    fun x _ _ => by positivity, fun _ _ _ => by positivity, rfl, by decide +kernel⟩

/-- **C75 (field totals).**  Added up over all the coarse cells, the volumes are those of the whole fine grid. -/
theorem C75_field_totals_partial (cz : Coarsening) (fv cv : Arr K) (rv ntg phi : Full K) (sats : List (Full K)) (perm : List (Arr K))
    (lengths : List (Nat × Arr K)) (others : List (Bool × Arr K)) (hrv : ∀ x y z, 0 ≤ rv x y z) (hntg : ∀ x y z, 0 ≤ ntg x y z)
    (hphi : ∀ x y z, 0 ≤ phi x y z) :
    ∃ (V N P : Full K) (S : List (Full K)),
      let w := written (upscale cz fv cv ⟨[lift rv], [lift ntg], [lift phi], sats.map lift, perm, lengths, others⟩)
      let coarse (a : Full K) := ∑ k ∈ Finset.range cz.rk.length, ∑ j ∈ Finset.range cz.rj.length, ∑ i ∈ Finset.range cz.ri.length, a k j i
      let fine (a : Full K) := ∑ x ∈ Finset.range cz.rk.sum, ∑ y ∈ Finset.range cz.rj.sum, ∑ z ∈ Finset.range cz.ri.sum, a x y z
      arraysOf .rockVolume w = [lift V] ∧ arraysOf .netToGross w = [lift N] ∧ arraysOf .porosity w = [lift P] ∧
      arraysOf .saturation w = S.map lift ∧
      coarse V = fine rv ∧ (coarse fun k j i => V k j i * N k j i) = (fine fun x y z => rv x y z * ntg x y z) ∧
      (coarse fun k j i => V k j i * N k j i * P k j i) = (fine fun x y z => rv x y z * ntg x y z * phi x y z) ∧
      List.Forall₂ (fun s s' => (coarse fun k j i => V k j i * N k j i * P k j i * s' k j i) =
        (fine fun x y z => rv x y z * ntg x y z * phi x y z * s x y z)) sats S := by
  obtain ⟨V, N, P, S, h1, h2, h3, h4, h5, h6, h7, h8⟩ :=
    C75_volumes_conserved_partial cz fv cv rv ntg phi sats perm lengths others hrv hntg hphi
  refine ⟨V, N, P, S, h1, h2, h3, h4, ?_, ?_, ?_, h8.imp fun s s' h => ?_⟩
  · simp only [h5]; exact total_total cz rv
  · simp only [h6]; exact total_total cz _
  · simp only [h7]; exact total_total cz _
  · simp only [h]; exact total_total cz _

theorem between_wmean (cz : Coarsening) (a w W : Full K) (hW : W = total cz w) (hw : ∀ x y z, 0 ≤ w x y z) (k j i : Nat)
    (h0 : W k j i ≠ 0) (z : Option K) : Between cz k j i a (weightedMean cz (lift a) (lift w) (lift W) z) := by
  intro lo hi h
  subst hW
  refine ⟨wmean cz a w (total cz w) k j i, ?_, wmean_range cz a w hw k j i h0 lo hi h⟩
  simp only [weightedMean, nansum_lift_mul]
  simp only [lift, wmean, if_neg h0]

/-- **C75 (means).**  Under the same conditions, in a coarse cell with pore volume, the coarse values of net to gross ratio, porosity,
saturations, permeabilities and other continuous properties lie between the least and the greatest of the values in the fine cells.
Partial: a rock volume and a net to gross ratio property have to be there, and no values may be missing (see `C75_missing_values_violated`). -/
theorem C75_means_in_range_partial (cz : Coarsening) (fv cv : Arr K) (rv ntg phi : Full K) (sats perms conts : List (Full K))
    (lengths : List (Nat × Arr K)) (hrv : ∀ x y z, 0 ≤ rv x y z) (hntg : ∀ x y z, 0 ≤ ntg x y z)
    (hphi : ∀ x y z, 0 ≤ phi x y z) (k j i : Nat) (hpv : 0 < total cz (fun x y z => rv x y z * ntg x y z * phi x y z) k j i) :
    let w := written (upscale cz fv cv ⟨[lift rv], [lift ntg], [lift phi], sats.map lift, perms.map lift, lengths,
      conts.map fun c => (true, lift c)⟩)
    List.Forall₂ (Between cz k j i) [ntg] (arraysOf .netToGross w) ∧ List.Forall₂ (Between cz k j i) [phi] (arraysOf .porosity w) ∧
    List.Forall₂ (Between cz k j i) sats (arraysOf .saturation w) ∧ List.Forall₂ (Between cz k j i) perms (arraysOf .permeability w) ∧
    List.Forall₂ (Between cz k j i) conts (arraysOf .continuous w) := by
  let V := total cz rv
  let N := wmean cz ntg rv V
  let W : Full K := fun k j i => V k j i * N k j i
  let w : Full K := fun x y z => rv x y z * ntg x y z
  let P := wmean cz phi w W
  let w' : Full K := fun x y z => w x y z * phi x y z
  let W' : Full K := fun k j i => W k j i * P k j i
  have hW : W = total cz w := by
    funext k j i
    show total cz rv k j i * wmean cz ntg rv (total cz rv) k j i = _
    rw [mul_wmean_total cz ntg rv hrv]
    simp only [w, mul_comm]
  have hw : ∀ x y z, 0 ≤ w x y z := fun x y z => mul_nonneg (hrv x y z) (hntg x y z)
  have hW' : W' = total cz w' := by
    funext k j i
    show W k j i * wmean cz phi w W k j i = _
    rw [hW, mul_wmean_total cz phi w hw]
    simp only [w', mul_comm]
  have hw' : ∀ x y z, 0 ≤ w' x y z := fun x y z => mul_nonneg (hw x y z) (hphi x y z)
  have n' : W' k j i ≠ 0 := by rw [hW']; exact ne_of_gt hpv
  have n1 : W k j i ≠ 0 := fun h => n' (by show W k j i * _ = 0; rw [h, zero_mul])
  have n0 : V k j i ≠ 0 := fun h => n1 (by show V k j i * _ = 0; rw [h, zero_mul])
  have eV : coarseSum cz (lift rv) = lift V := coarseSum_lift cz rv
  have eN : weightedMean cz (lift ntg) (lift rv) (lift V) (some 0) = lift N := weightedMean_lift cz _ _ _
  have eP : weightedMean cz (lift phi) (lift w) (lift W) (some 0) = lift P := weightedMean_lift cz _ _ _
  have bN := between_wmean cz ntg rv V rfl hrv k j i n0 (some 0)
  have bP := between_wmean cz phi w W hW hw k j i n1 (some 0)
  rw [eN] at bN
  rw [eP] at bP
  intro ws
  have e : ws = [(.rockVolume, lift V), (.netToGross, lift N), (.porosity, lift P)]
      ++ sats.map (fun a => (Kind.saturation, weightedMean cz (lift a) (lift w') (lift W') (some 0)))
      ++ perms.map (fun a => (Kind.permeability, weightedMean cz (lift a) (lift w') (lift W') (some 0)))
      ++ lengths.map (fun q => (Kind.length, coarseLength cz q.1 q.2))
      ++ conts.map (fun a => (Kind.continuous, weightedMean cz (lift a) (lift rv) (lift V) none)) := by
    show written _ = _
    rw [written_rv_ntg_poro]
    simp only [eV, eN, mulA_lift]
    rw [show weightedMean cz (lift phi) (lift fun k j i => rv k j i * ntg k j i) (lift fun k j i => V k j i * N k j i) (some 0) = lift P from eP]
    simp only [mulA_lift, List.map_map]
    rfl
  rw [e]
  simp only [arraysOf_append, arraysOf_map]
  refine ⟨?_, ?_, ?_, ?_, ?_⟩
  · simpa [arraysOf] using bN
  · simpa [arraysOf] using bP
  · simp only [arraysOf, List.filter, reduceCtorEq, decide_false, List.map_nil, List.nil_append, if_true, if_false, List.append_nil]
    rw [List.forall₂_map_right_iff]
    exact List.forall₂_same.2 fun s _ => between_wmean cz s w' W' hW' hw' k j i n' _
  · simp only [arraysOf, List.filter, reduceCtorEq, decide_false, List.map_nil, List.nil_append, if_true, if_false, List.append_nil]
    rw [List.forall₂_map_right_iff]
    exact List.forall₂_same.2 fun s _ => between_wmean cz s w' W' hW' hw' k j i n' _
  · simp only [arraysOf, List.filter, reduceCtorEq, decide_false, List.map_nil, List.nil_append, if_true, if_false]
    rw [List.forall₂_map_right_iff]
    exact List.forall₂_same.2 fun s _ => between_wmean cz s rv V rfl hrv k j i n0 _

/-- **C75 (volumes from the geometry).**  With no rock volume property the volumes are those of the two geometries.  Where the coarse
cell has volume, its volume times net to gross ratio is the total for the fine cells, and so on for porosity and saturation. -/
theorem C75_volumes_conserved_geometry_partial (cz : Coarsening) (fv cv ntg phi : Full K) (sats : List (Full K)) (perm : List (Arr K))
    (lengths : List (Nat × Arr K)) (others : List (Bool × Arr K)) (hcv : ∀ k j i, cv k j i ≠ 0) (hfv : ∀ x y z, 0 ≤ fv x y z)
    (hntg : ∀ x y z, 0 ≤ ntg x y z) (hphi : ∀ x y z, 0 ≤ phi x y z) :
    ∃ (N P : Full K) (S : List (Full K)),
      let w := written (upscale cz (lift fv) (lift cv) ⟨[], [lift ntg], [lift phi], sats.map lift, perm, lengths, others⟩)
      arraysOf .rockVolume w = [] ∧ arraysOf .netToGross w = [lift N] ∧ arraysOf .porosity w = [lift P] ∧
      arraysOf .saturation w = S.map lift ∧
      (∀ k j i, cv k j i * N k j i = total cz (fun x y z => fv x y z * ntg x y z) k j i) ∧
      (∀ k j i, cv k j i * N k j i * P k j i = total cz (fun x y z => fv x y z * ntg x y z * phi x y z) k j i) ∧
      List.Forall₂ (fun s s' => ∀ k j i, cv k j i * N k j i * P k j i * s' k j i =
        total cz (fun x y z => fv x y z * ntg x y z * phi x y z * s x y z) k j i) sats S := by
  let N := wmean cz ntg fv cv
  let W : Full K := fun k j i => cv k j i * N k j i
  let w : Full K := fun x y z => fv x y z * ntg x y z
  let P := wmean cz phi w W
  let w' : Full K := fun x y z => w x y z * phi x y z
  let W' : Full K := fun k j i => W k j i * P k j i
  have hW : W = total cz w := by
    funext k j i
    show cv k j i * wmean cz ntg fv cv k j i = _
    have := mul_wmean cz ntg fv cv k j i fun h => absurd h (hcv k j i)
    unfold wmean
    rw [this]
    simp only [w, mul_comm]
  have hw : ∀ x y z, 0 ≤ w x y z := fun x y z => mul_nonneg (hfv x y z) (hntg x y z)
  have hW' : W' = total cz w' := by
    funext k j i
    show W k j i * wmean cz phi w W k j i = _
    rw [hW, mul_wmean_total cz phi w hw]
    simp only [w', mul_comm]
  have hw' : ∀ x y z, 0 ≤ w' x y z := fun x y z => mul_nonneg (hw x y z) (hphi x y z)
  refine ⟨N, P, sats.map fun s => wmean cz s w' W', ?_⟩
  have eN : weightedMean cz (lift ntg) (lift fv) (lift cv) (some 0) = lift N := weightedMean_lift cz _ _ _
  have eP : weightedMean cz (lift phi) (lift w) (lift W) (some 0) = lift P := weightedMean_lift cz _ _ _
  rw [written_ntg_poro]
  simp only [eN, mulA_lift]
  rw [show weightedMean cz (lift phi) (lift fun k j i => fv k j i * ntg k j i) (lift fun k j i => cv k j i * N k j i) (some 0) = lift P from eP]
  simp only [mulA_lift, arraysOf_append, arraysOf_map]
  refine ⟨?_, ?_, ?_, ?_, fun k j i => congrFun (congrFun (congrFun hW k) j) i,
    fun k j i => congrFun (congrFun (congrFun hW' k) j) i, ?_⟩
  · rw [arraysOf_others _ _ _ _ (by decide) (by decide)]; simp [arraysOf]
  · rw [arraysOf_others _ _ _ _ (by decide) (by decide)]; simp [arraysOf]
  · rw [arraysOf_others _ _ _ _ (by decide) (by decide)]; simp [arraysOf]
  · rw [arraysOf_others _ _ _ _ (by decide) (by decide)]
    simp only [if_pos, reduceCtorEq, if_false, List.append_nil]
    simp only [arraysOf, List.filter, reduceCtorEq, decide_false, List.map_nil, List.nil_append, List.map_map, if_true]
    exact List.map_congr_left fun s _ => weightedMean_lift cz s w' W'
  · rw [List.forall₂_map_right_iff]
    refine List.forall₂_same.2 fun s _ k j i => ?_
    show W' k j i * wmean cz s w' W' k j i = _
    rw [hW', mul_wmean_total cz s w' hw']
    simp only [w', w, mul_comm]

/-- the state is well formed and has imported only rock volumes, net to gross ratios and porosities -/
def Early (s : St K) : Prop := Wf s ∧ ∀ q ∈ s.imported, q.1 = .rockVolume ∨ q.1 = .netToGross ∨ q.1 = .porosity

omit [LinearOrder K] [IsStrictOrderedRing K] in
theorem Early.add {s : St K} (h : Early s) (kind : Kind) (hk : kind = .rockVolume ∨ kind = .netToGross ∨ kind = .porosity) (a : Arr K) :
    Early (s.add kind a) := by
  refine ⟨add_wf _ h.1 _ _, fun q hq => ?_⟩
  simp only [St.add, List.mem_append, List.mem_singleton] at hq
  rcases hq with hq | hq
  · exact h.2 q hq
  · rw [hq]; exact hk

omit [LinearOrder K] [IsStrictOrderedRing K] in
theorem Early.addEach {α : Type} {s : St K} (h : Early s) (kind : α → Kind) (hk : ∀ p, kind p = .rockVolume ∨ kind p = .netToGross ∨ kind p = .porosity)
    (f : α → Arr K) (l : List α) : Early (s.addEach kind f l) := by
  induction l generalizing s with
  | nil => exact h
  | cons p l ih => exact ih (h.add _ (hk p) _)

omit [LinearOrder K] [IsStrictOrderedRing K] in
theorem Early.alloc {s : St K} (h : Early s) (a : Arr K) : Early (s.alloc a) := by
  refine ⟨fun q hq => ?_, h.2⟩
  have := h.1 q hq
  simp only [St.alloc, List.length_append]; omega

omit [LinearOrder K] [IsStrictOrderedRing K] in
theorem Early.mul {s : St K} (h : Early s) (r : Nat) (a : Arr K) : Early (s.mul r a) := by
  refine ⟨fun q hq => ?_, h.2⟩
  have := h.1 q hq
  simp only [St.mul, List.length_set]; exact this

omit [LinearOrder K] [IsStrictOrderedRing K] in
theorem rockVolume_early (cz : Coarsening) (fv cv : Arr K) (l : List (Arr K)) (s : St K) (h : Early s) (r : Option (Nat × Nat))
    (hr : ∀ q ∈ r, q.1 < s.heap.length ∧ q.2 < s.heap.length) :
    Early (rockVolume cz fv cv l s r).1 ∧ (rockVolume cz fv cv l s r).2.1 < (rockVolume cz fv cv l s r).1.heap.length ∧
      (rockVolume cz fv cv l s r).2.2 < (rockVolume cz fv cv l s r).1.heap.length := by
  induction l generalizing s r with
  | nil =>
    cases r with
    | none =>
      refine ⟨⟨fun q hq => ?_, h.2⟩, ?_, ?_⟩
      · have := h.1 q hq
        simp only [rockVolume, List.length_append]; omega
      · simp [rockVolume]
      · simp [rockVolume]
    | some r => exact ⟨h, hr r rfl⟩
  | cons p l ih =>
    refine ih _ ((h.alloc p).add _ (Or.inl rfl) _) _ ?_
    intro q hq
    simp only [Option.mem_def, Option.some.injEq] at hq
    subst hq
    simp [St.alloc, St.add]

/-- what is written, whatever properties there are -/
theorem written_upscale (cz : Coarsening) (fv cv : Arr K) (p : Fine K) :
    ∃ (s : St K) (fr cr fn cn : Nat), Early s ∧
    written (upscale cz fv cv p) =
    written s ++ p.sat.map (fun a => (Kind.saturation, weightedMean cz a (s.heap.read fn) (s.heap.read cn) (some 0)))
      ++ p.perm.map (fun a => (Kind.permeability, weightedMean cz a (s.heap.read fn) (s.heap.read cn) (some 0)))
      ++ p.lengths.map (fun q => (Kind.length, coarseLength cz q.1 q.2))
      ++ p.others.map (fun q => if q.1 then (Kind.continuous, weightedMean cz q.2 (s.heap.read fr) (s.heap.read cr) none)
          else (Kind.discrete, sample cz q.2)) := by
  have h0 := rockVolume_early cz fv cv p.rv ⟨[], []⟩ ⟨fun q hq => (by simp at hq), fun q hq => (by simp at hq)⟩ none (by simp)
  unfold upscale
  generalize rockVolume cz fv cv p.rv ⟨[], []⟩ none = t at h0 ⊢
  obtain ⟨s, fr, cr⟩ := t
  obtain ⟨h0, hfr, hcr⟩ := h0
  dsimp only at h0 hfr hcr ⊢
  have ae : ∀ {α : Type} (s : St K) (kd : α → Kind) (f : α → Arr K) (l : List α), s.heap.length ≤ (s.addEach kd f l).heap.length :=
    fun s kd f l => by rw [addEach_heap, List.length_append]; omega
  simp only [lastOf]
  have h1 : ∀ f : Arr K → Arr K, Early (s.addEach (fun _ => Kind.netToGross) f p.ntg) := fun f => h0.addEach _ (fun _ => Or.inr (Or.inl rfl)) _ _
  have h3 : ∀ (s : St K) (f : Arr K → Arr K), Early s → Early (s.addEach (fun _ => Kind.porosity) f p.poro) :=
    fun s f h => h.addEach _ (fun _ => Or.inr (Or.inr rfl)) _ _
  cases p.ntg.getLast? with
  | none =>
    cases p.poro.getLast? with
    | none =>
      have e := h3 _ (fun a => weightedMean cz a ((s.addEach (fun _ => Kind.netToGross) (fun a => weightedMean cz a (s.heap.read fr)
        (s.heap.read cr) (some 0)) p.ntg).heap.read fr) ((s.addEach (fun _ => Kind.netToGross) (fun a => weightedMean cz a (s.heap.read fr)
        (s.heap.read cr) (some 0)) p.ntg).heap.read cr) (some 0)) (h1 fun a => weightedMean cz a (s.heap.read fr) (s.heap.read cr) (some 0))
      refine ⟨_, fr, cr, fr, cr, e, written_tail cz _ e.1 fr cr fr cr ?_ ?_ ?_ ?_ p.sat p.perm p.lengths p.others⟩ <;>
        simp only [addEach_heap, List.length_append] <;> omega
    | some q =>
      have e := ((h3 _ (fun a => weightedMean cz a ((s.addEach (fun _ => Kind.netToGross) (fun a => weightedMean cz a (s.heap.read fr)
        (s.heap.read cr) (some 0)) p.ntg).heap.read fr) ((s.addEach (fun _ => Kind.netToGross) (fun a => weightedMean cz a (s.heap.read fr)
        (s.heap.read cr) (some 0)) p.ntg).heap.read cr) (some 0))
        (h1 fun a => weightedMean cz a (s.heap.read fr) (s.heap.read cr) (some 0))).mul fr q).mul cr
          (weightedMean cz q ((s.addEach (fun _ => Kind.netToGross) (fun a => weightedMean cz a (s.heap.read fr)
        (s.heap.read cr) (some 0)) p.ntg).heap.read fr) ((s.addEach (fun _ => Kind.netToGross) (fun a => weightedMean cz a (s.heap.read fr)
        (s.heap.read cr) (some 0)) p.ntg).heap.read cr) (some 0))
      refine ⟨_, fr, cr, fr, cr, e, written_tail cz _ e.1 fr cr fr cr ?_ ?_ ?_ ?_ p.sat p.perm p.lengths p.others⟩ <;>
        simp only [St.mul, List.length_set, addEach_heap, List.length_append] <;> omega
  | some r =>
    generalize hs1 : s.addEach (fun _ => Kind.netToGross) (fun a => weightedMean cz a (s.heap.read fr) (s.heap.read cr) (some 0)) p.ntg = s1
    have e1 : Early s1 := hs1 ▸ h1 _
    have l1 : s.heap.length ≤ s1.heap.length := hs1 ▸ ae _ _ _ _
    simp only [Option.map_some]
    generalize hs2 : (s1.alloc (mulA (s1.heap.read fr) r)).alloc
      (mulA (s1.heap.read cr) (weightedMean cz r (s.heap.read fr) (s.heap.read cr) (some 0))) = s2
    have e2 : Early s2 := hs2 ▸ (e1.alloc _).alloc _
    have l2 : s2.heap.length = s1.heap.length + 2 := by rw [← hs2]; simp [St.alloc]
    cases p.poro.getLast? with
    | none =>
      have e := h3 s2 (fun a => weightedMean cz a (s2.heap.read s1.heap.length) (s2.heap.read (s1.heap.length + 1)) (some 0)) e2
      refine ⟨_, fr, cr, _, _, e, written_tail cz _ e.1 fr cr s1.heap.length (s1.heap.length + 1) ?_ ?_ ?_ ?_ p.sat p.perm p.lengths p.others⟩ <;>
        simp only [addEach_heap, List.length_append] <;> omega
    | some q =>
      have e := ((h3 s2 (fun a => weightedMean cz a (s2.heap.read s1.heap.length) (s2.heap.read (s1.heap.length + 1)) (some 0)) e2).mul
        s1.heap.length q).mul (s1.heap.length + 1) (weightedMean cz q (s2.heap.read s1.heap.length) (s2.heap.read (s1.heap.length + 1)) (some 0))
      refine ⟨_, fr, cr, _, _, e, written_tail cz _ e.1 fr cr s1.heap.length (s1.heap.length + 1) ?_ ?_ ?_ ?_ p.sat p.perm p.lengths p.others⟩ <;>
        simp only [St.mul, List.length_set, addEach_heap, List.length_append] <;> omega

theorem arraysOf_early (s : St K) (h : Early s) (kind : Kind) (h1 : kind ≠ .rockVolume) (h2 : kind ≠ .netToGross) (h3 : kind ≠ .porosity) :
    arraysOf kind (written s) = [] := by
  unfold arraysOf written
  rw [List.map_eq_nil_iff, List.filter_eq_nil_iff]
  intro q hq
  rw [List.mem_map] at hq
  obtain ⟨p, hp, rfl⟩ := hq
  have := h.2 p hp
  simp only [decide_eq_true_eq]
  rintro rfl
  rcases this with h | h | h
  · exact h1 h
  · exact h2 h
  · exact h3 h

/-- **C75 (cell lengths).**  The coarse cell length in a direction lies between the least and the greatest of the sums of the fine
lengths along the lines of fine cells in that direction (so it is that sum if they are all the same), whatever other properties there are. -/
theorem C75_lengths_in_range (cz : Coarsening) (fv cv : Arr K) (rv ntg phi sats perm : List (Arr K)) (lengths : List (Nat × Full K))
    (others : List (Bool × Arr K)) (hax : ∀ q ∈ lengths, q.1 < 3) (k j i : Nat) (hc : ∃ x y z, InCell cz k j i x y z) :
    List.Forall₂ (fun q a => ∀ lo hi, (∀ x y z, InCell cz k j i x y z → lo ≤ lineSum cz q.1 q.2 k j i x y z ∧
        lineSum cz q.1 q.2 k j i x y z ≤ hi) → ∃ v, a k j i = some v ∧ lo ≤ v ∧ v ≤ hi) lengths
      (arraysOf .length (written (upscale cz fv cv ⟨rv, ntg, phi, sats, perm, lengths.map fun q => (q.1, lift q.2), others⟩))) := by
  obtain ⟨s, fr, cr, fn, cn, hs, e⟩ := written_upscale cz fv cv ⟨rv, ntg, phi, sats, perm, lengths.map fun q => (q.1, lift q.2), others⟩
  rw [e]
  simp only [arraysOf_append, arraysOf_map]
  rw [arraysOf_others _ _ _ _ (by decide) (by decide), arraysOf_early s hs _ (by decide) (by decide) (by decide)]
  simp only [reduceCtorEq, if_true, if_false, List.append_nil, List.nil_append, List.map_map]
  rw [List.forall₂_map_right_iff]
  refine List.forall₂_same.2 fun q hq lo hi h => ?_
  obtain ⟨x0, y0, z0, hx0, hy0, hz0⟩ := hc
  have ck : (Finset.Ico (first cz.rk k) (first cz.rk (k + 1))).card = cz.rk.getD k 0 := by rw [Nat.card_Ico, first_succ]; omega
  have cj : (Finset.Ico (first cz.rj j) (first cz.rj (j + 1))).card = cz.rj.getD j 0 := by rw [Nat.card_Ico, first_succ]; omega
  have ci : (Finset.Ico (first cz.ri i) (first cz.ri (i + 1))).card = cz.ri.getD i 0 := by rw [Nat.card_Ico, first_succ]; omega
  have nk : (Finset.Ico (first cz.rk k) (first cz.rk (k + 1))).Nonempty := ⟨x0, Finset.mem_Ico.2 hx0⟩
  have nj : (Finset.Ico (first cz.rj j) (first cz.rj (j + 1))).Nonempty := ⟨y0, Finset.mem_Ico.2 hy0⟩
  have ni : (Finset.Ico (first cz.ri i) (first cz.ri (i + 1))).Nonempty := ⟨z0, Finset.mem_Ico.2 hz0⟩
  refine ⟨_, rfl, ?_⟩
  obtain ⟨ax, a⟩ := q
  have hax := hax _ hq
  dsimp only at hax h ⊢
  rw [nansum_lift]
  have hcase : ax = 0 ∨ ax = 1 ∨ ax = 2 := by omega
  rcases hcase with rfl | rfl | rfl
  · have := double_bound _ _ (fun y z => lineSum cz 0 a k j i x0 y z) lo hi nj ni fun y hy z hz =>
      h x0 y z ⟨hx0, Finset.mem_Ico.1 hy, Finset.mem_Ico.1 hz⟩
    rw [cj, ci] at this
    have e : total cz a k j i = ∑ y ∈ Finset.Ico (first cz.rj j) (first cz.rj (j + 1)), ∑ z ∈ Finset.Ico (first cz.ri i) (first cz.ri (i + 1)),
        lineSum cz 0 a k j i x0 y z := by
      unfold total
      rw [Finset.sum_comm]
      refine Finset.sum_congr rfl fun y _ => ?_
      rw [Finset.sum_comm]
      exact Finset.sum_congr rfl fun z _ => by simp [lineSum]
    rw [e]; exact this
  · have := double_bound _ _ (fun z x => lineSum cz 1 a k j i x y0 z) lo hi ni nk fun z hz x hx =>
      h x y0 z ⟨Finset.mem_Ico.1 hx, hy0, Finset.mem_Ico.1 hz⟩
    rw [ck, ci] at this
    have e : total cz a k j i = ∑ z ∈ Finset.Ico (first cz.ri i) (first cz.ri (i + 1)), ∑ x ∈ Finset.Ico (first cz.rk k) (first cz.rk (k + 1)),
        lineSum cz 1 a k j i x y0 z := by
      unfold total
      rw [Finset.sum_comm (s := Finset.Ico (first cz.ri i) (first cz.ri (i + 1)))]
      refine Finset.sum_congr rfl fun x _ => ?_
      rw [Finset.sum_comm]
      exact Finset.sum_congr rfl fun z _ => by simp [lineSum]
    rw [e]; exact this
  · have := double_bound _ _ (fun x y => lineSum cz 2 a k j i x y z0) lo hi nk nj fun x hx y hy =>
      h x y z0 ⟨Finset.mem_Ico.1 hx, Finset.mem_Ico.1 hy, hz0⟩
    rw [ck, cj] at this
    have e : total cz a k j i = ∑ x ∈ Finset.Ico (first cz.rk k) (first cz.rk (k + 1)), ∑ y ∈ Finset.Ico (first cz.rj j) (first cz.rj (j + 1)),
        lineSum cz 2 a k j i x y z0 := by
      unfold total
      refine Finset.sum_congr rfl fun x _ => ?_
      exact Finset.sum_congr rfl fun y _ => by simp [lineSum]
    rw [e]; exact this

example : ∃ (cz : Coarsening) (a : Full Rat), (∃ x y z, InCell cz 0 0 0 x y z) ∧ cz.rk = [2] ∧ cz.ri = [3] ∧
    ∀ x y z, InCell cz 0 0 0 x y z → lineSum cz 0 a 0 0 0 x y z = 3 :=
  ⟨⟨[2], [1], [3]⟩, fun x _ _ => (x : Rat) + 1, ⟨0, 0, 0, by unfold InCell; decide⟩, rfl, rfl, fun x y z _ => by
    simp [lineSum, first, Finset.sum_Ico_eq_sum_range, Finset.sum_range_succ]; norm_num⟩

/-- **C75 (discrete properties).**  The coarse value of a discrete property is its value in one of the fine cells. -/
theorem C75_discrete_value_taken (cz : Coarsening) (fv cv : Arr K) (p : Fine K) (hp : ∀ q ∈ p.others, q.1 = false) (k j i : Nat)
    (hc : ∃ x y z, InCell cz k j i x y z) :
    List.Forall₂ (fun q a => ∃ x y z, InCell cz k j i x y z ∧ a k j i = q x y z) (p.others.map (·.2))
      (arraysOf .discrete (written (upscale cz fv cv p))) := by
  obtain ⟨s, fr, cr, fn, cn, hs, e⟩ := written_upscale cz fv cv p
  rw [e]
  simp only [arraysOf_append, arraysOf_map]
  rw [arraysOf_early s hs _ (by decide) (by decide) (by decide)]
  simp only [reduceCtorEq, if_false, List.append_nil, List.nil_append]
  rw [show p.others.map (fun q => if q.1 then (Kind.continuous, weightedMean cz q.2 (s.heap.read fr) (s.heap.read cr) none)
      else (Kind.discrete, sample cz q.2)) = p.others.map fun q => (Kind.discrete, sample cz q.2) from
    List.map_congr_left fun q hq => by rw [hp q hq]; simp, arraysOf_map, if_pos rfl, List.forall₂_map_left_iff, List.forall₂_map_right_iff]
  obtain ⟨x0, y0, z0, hx0, hy0, hz0⟩ := hc
  exact List.forall₂_same.2 fun q _ => ⟨first cz.rk k, first cz.rj j, first cz.ri i,
    ⟨⟨le_refl _, by omega⟩, ⟨le_refl _, by omega⟩, ⟨le_refl _, by omega⟩⟩, rfl⟩

/-- **C75 violated (rock volume).**  With rock volume and porosity but no net to gross ratio, what is written as the coarse rock volume
is the pore volume: the array is multiplied in place by porosity after it has been put in the list of imported properties. -/
theorem C75_rock_volume_is_pore_volume_violated (cz : Coarsening) (fv cv : Arr K) (rv phi : Full K) (sat perm : List (Arr K))
    (lengths : List (Nat × Arr K)) (others : List (Bool × Arr K)) (hrv : ∀ x y z, 0 ≤ rv x y z) :
    arraysOf .rockVolume (written (upscale cz fv cv ⟨[lift rv], [], [lift phi], sat, perm, lengths, others⟩)) =
      [lift (total cz fun x y z => rv x y z * phi x y z)] := by
  rw [written_rv_poro]
  simp only [arraysOf_append, arraysOf_map]
  rw [arraysOf_others _ _ _ _ (by decide) (by decide)]
  simp only [reduceCtorEq, if_false, List.append_nil, coarseSum_lift, weightedMean_lift, mulA_lift]
  simp only [arraysOf, List.filter, decide_true, List.map_cons, reduceCtorEq, decide_false, List.map_nil]
  congr 2
  funext k j i
  rw [mul_wmean_total cz phi rv hrv]
  simp only [mul_comm]

/-- a coarsening of two cells to one -/
def pair : Coarsening := ⟨[1], [1], [2]⟩

/-- rock volume 1 in each of two cells, porosity 1/4: the rock volume written is 1/2, not 2 -/
theorem C75_rock_volume_violated : ∃ (rv phi : Full Rat), (∀ x y z, rv x y z = 1) ∧ (∀ x y z, phi x y z = 1 / 4) ∧
    ∃ V, arraysOf .rockVolume (written (upscale pair blank blank ⟨[lift rv], [], [lift phi], [], [], [], []⟩)) = [V] ∧
      V 0 0 0 = some (1 / 2) ∧ total pair rv 0 0 0 = 2 := by
  refine ⟨fun _ _ _ => 1, fun _ _ _ => 1 / 4, fun _ _ _ => rfl, fun _ _ _ => rfl, _,
    C75_rock_volume_is_pore_volume_violated pair blank blank _ _ [] [] [] [] (fun _ _ _ => by norm_num), ?_, ?_⟩
  · decide +kernel
  · decide +kernel

/-- **C75 violated (the volumes of the grid).**  With neither rock volume nor net to gross ratio, the array of cell volumes held by the
fine grid (the first in memory) is itself multiplied by porosity. -/
theorem C75_grid_volumes_kept_violated (cz : Coarsening) (fv cv phi : Arr K) :
    (upscale cz fv cv ⟨[], [], [phi], [], [], [], []⟩).heap.read 0 = mulA fv phi := rfl

/-- **C75 violated (permeability).**  With net to gross ratio one and porosities 1/5 and 2/5, permeabilities 0 and 300 in two cells of
equal volume become 200, not 150: the weights, which are passed on as net rock volumes, have become pore volumes. -/
theorem C75_permeability_weights_violated : ∃ (rv ntg phi perm : Full Rat), (∀ x y z, rv x y z = 1) ∧ (∀ x y z, ntg x y z = 1) ∧
    ∃ a, arraysOf .permeability (written (upscale pair blank blank ⟨[lift rv], [lift ntg], [lift phi], [], [lift perm], [], []⟩)) = [a] ∧
      a 0 0 0 = some 200 ∧
      total pair (fun x y z => rv x y z * ntg x y z * perm x y z) 0 0 0 / total pair (fun x y z => rv x y z * ntg x y z) 0 0 0 = 150 := by
  refine ⟨fun _ _ _ => 1, fun _ _ _ => 1, fun _ _ z => if z = 0 then 1 / 5 else 2 / 5, fun _ _ z => if z = 0 then 0 else 300,
    fun _ _ _ => rfl, fun _ _ _ => rfl, _, rfl, ?_, ?_⟩
  · decide +kernel
  · decide +kernel

/-- **C75 violated (missing values).**  Where the net to gross ratio of one of two cells of equal volume is missing and that of the other
is one, the coarse value is one half, which is below every value there is. -/
theorem C75_missing_values_violated : ∃ (rv : Full Rat) (ntg : Arr Rat), (∀ x y z, rv x y z = 1) ∧
    (∀ x y z v, ntg x y z = some v → v = 1) ∧
    ∃ a, arraysOf .netToGross (written (upscale pair blank blank ⟨[lift rv], [ntg], [], [], [], [], []⟩)) = [a] ∧ a 0 0 0 = some (1 / 2) := by
  refine ⟨fun _ _ _ => 1, fun _ _ z => if z = 0 then some 1 else none, fun _ _ _ => rfl, ?_, _, rfl, ?_⟩
  · intro x y z v h
    dsimp only at h
    split at h
    · exact (Option.some.inj h).symm
    · cases h
  · decide +kernel

/-- **C75 violated (realizations).**  With two realizations of rock volume and of net to gross ratio copied at once, the first
realization of net to gross ratio is weighted with the second of rock volume: net volume is not conserved. -/
theorem C75_realizations_violated : ∃ (rv1 rv2 ntg1 ntg2 : Full Rat), (∀ x y z, 0 < rv1 x y z) ∧ (∀ x y z, 0 < rv2 x y z) ∧
    ∃ V1 V2 N1 N2, (let w := written (upscale pair blank blank ⟨[lift rv1, lift rv2], [lift ntg1, lift ntg2], [], [], [], [], []⟩)
      arraysOf .rockVolume w = [V1, V2] ∧ arraysOf .netToGross w = [N1, N2]) ∧
      V1 0 0 0 = some 4 ∧ N1 0 0 0 = some (1 / 2) ∧ total pair (fun x y z => rv1 x y z * ntg1 x y z) 0 0 0 = 3 := by
  refine ⟨fun _ _ z => if z = 0 then 3 else 1, fun _ _ _ => 1, fun _ _ z => if z = 0 then 1 else 0, fun _ _ _ => 1, ?_, ?_,
    _, _, _, _, ⟨rfl, rfl⟩, ?_, ?_, ?_⟩
  · intro x y z; dsimp only; split <;> norm_num
  · intro x y z; norm_num
  · decide +kernel
  · decide +kernel
  · decide +kernel

end Verif.Upscale
