import Verif.Mesh.Lemmas

/-!
# C169, C170: points of meshes, and meshes stored and loaded
-/

namespace Verif.Mesh
open Verif.Py

/-! ### Kinds of new meshes -/

/-- the meshes which arguments can make -/
inductive Made (f : Nat) (s : Store) (a : Args) : Mesh → Prop
  | explicit (crs nj ni : Nat) (p : Pts) : a.xyz = some (nj, ni, p) → p.width = 3 → 1 < nj → 1 < ni →
      Made f s a ⟨a.role, ni, nj, .explicit, some p, none, none, crs⟩
  | regular (crs nj ni : Nat) (o di dj : Vec) : a.xyz = none → a.z = none → a.ni = some ni → a.nj = some nj → a.origin = some o →
      a.dxyz = some (di, dj) → 0 < nj → 0 < ni → Made f s a ⟨a.role, ni, nj, .regular, none, some ⟨o, di, dj⟩, none, crs⟩
  | regz (crs nj ni : Nat) (o di dj : Vec) (zin : ZIn) (z : Zs) (p : Pts) : a.xyz = none → a.z = some zin → a.support = none → a.ni = some ni →
      a.nj = some nj → a.origin = some o → a.dxyz = some (di, dj) → 0 < nj → 0 < ni → zShape nj ni zin = .ok z →
      setZ (regularPts ⟨o, di, dj⟩ ni nj) z = .ok p → Made f s a ⟨a.role, ni, nj, .regz, some p, some ⟨o, di, dj⟩, none, crs⟩
  | refz (crs nj ni r : Nat) (zin : ZIn) (z : Zs) (rm : Mesh) (p q : Pts) : a.xyz = none → a.z = some zin → a.support = some r → a.ni = some ni →
      a.nj = some nj → 0 < nj → 0 < ni → zShape nj ni zin = .ok z → load f s r = .ok rm → rm.nj = nj → rm.ni = ni →
      fullArray f s r rm = .ok p → setZ p z = .ok q → Made f s a ⟨a.role, ni, nj, .refz, some q, none, some r, crs⟩

theorem made_of_make {f : Nat} {s : Store} {a : Args} {m : Mesh} (h : make f s a = .ok m) :
    Made f s a m ∧ a.crs = some m.crs ∧ (a.role = "map" ∨ a.role = "pick") := by
  unfold make at h
  split_ifs at h with hr
  obtain ⟨role, crs, xyz, ni, nj, origin, dxyz, z, support⟩ := a
  dsimp only at h hr
  cases xyz with
  | some t =>
    obtain ⟨tj, ti, q⟩ := t
    cases crs with
    | some crs =>
      dsimp only at h
      unfold ofXyz at h
      split_ifs at h with hc
      cases h
      exact ⟨.explicit crs tj ti q rfl hc.1 hc.2.1 hc.2.2, rfl, hr⟩
    | none =>
      dsimp only at h
      cases ni <;> cases nj <;> try (cases h; done)
      dsimp only at h
      cases z <;> dsimp only at h
      · cases origin <;> cases dxyz <;> cases h
      · cases support <;> dsimp only at h
        · cases origin <;> cases dxyz <;> cases h
        · cases h
  | none =>
    dsimp only at h
    cases ni <;> cases nj <;> try (cases h; done)
    rename_i ni nj
    dsimp only at h
    cases z with
    | none =>
      dsimp only at h
      cases origin <;> cases dxyz <;> cases crs <;> try (cases h; done)
      dsimp only at h
      unfold ofRegular at h
      split_ifs at h with hc
      cases h
      exact ⟨.regular _ nj ni _ _ _ rfl rfl rfl rfl rfl rfl hc.1 hc.2, rfl, hr⟩
    | some zin =>
      dsimp only at h
      cases support with
      | none =>
        dsimp only at h
        cases origin <;> cases dxyz <;> cases crs <;> try (cases h; done)
        rename_i o d crs
        dsimp only at h
        unfold ofRegz at h
        split_ifs at h with hc
        cases hz : zShape nj ni zin with
        | error e => rw [hz] at h; cases h
        | ok z =>
          rw [hz, Verif.Box.ok_bind] at h
          cases hp : setZ (regularPts ⟨o, d.1, d.2⟩ ni nj) z with
          | error e => rw [hp] at h; cases h
          | ok p =>
            rw [hp] at h
            cases h
            exact ⟨.regz _ nj ni o d.1 d.2 zin z p rfl rfl rfl rfl rfl rfl rfl hc.1 hc.2 hz hp, rfl, hr⟩
      | some r =>
        cases crs with
        | none => cases h
        | some crs =>
          dsimp only at h
          unfold ofRefz at h
          split_ifs at h with hc
          cases hz : zShape nj ni zin with
          | error e => rw [hz] at h; cases h
          | ok z =>
            rw [hz, Verif.Box.ok_bind] at h
            cases hl : load f s r with
            | error e => rw [hl] at h; cases h
            | ok rm =>
              rw [hl, Verif.Box.ok_bind] at h
              split_ifs at h with hx
              cases hp : fullArray f s r rm with
              | error e => rw [hp] at h; cases h
              | ok p =>
                rw [hp, Verif.Box.ok_bind] at h
                cases hq : setZ p z with
                | error e => rw [hq] at h; cases h
                | ok q =>
                  rw [hq] at h
                  cases h
                  exact ⟨.refz crs nj ni r zin z rm p q rfl rfl rfl rfl rfl hc.1 hc.2 hz hl hx.1 hx.2 hp hq, rfl, hr⟩

theorem zShape_given {nj ni : Nat} {zin : ZIn} {z : Zs} (h : zShape nj ni zin = .ok z) : z = zGiven ni zin := by
  cases zin with
  | grid a b w =>
    unfold zShape at h
    dsimp only at h
    split_ifs at h
    cases h
    rfl
  | flat n w =>
    unfold zShape at h
    dsimp only at h
    split_ifs at h
    cases h
    rfl

theorem setZ_eq {p q : Pts} {z : Zs} (h : setZ p z = .ok q) :
    2 < p.width ∧ q = ⟨p.width, fun j i c => if c = 2 then z j i else p.val j i c⟩ := by
  unfold setZ at h
  split_ifs at h with hw
  cases h
  exact ⟨hw, rfl⟩

theorem setZ_again {p q : Pts} {z : Zs} (h : setZ p z = .ok q) : setZ p (fun j i => q.val j i 2) = .ok q := by
  obtain ⟨hw, rfl⟩ := setZ_eq h
  unfold setZ
  rw [if_pos hw]
  congr 2

/-! ### C169 -/

/-- **C169** the points of a new mesh are those given: an array of points as it is; or the nodes of the lattice, with the z values given if any; or
the x and y of the mesh referred to, of the same extent, with the z values given -/
theorem C169_points (f : Nat) (s : Store) (u : Nat) (a : Args) (m : Mesh) (h : make (f + 1) s a = .ok m) :
    ∃ p, fullArray (f + 1) s u m = .ok p ∧ a.crs = some m.crs ∧ a.role = m.role ∧
      (∀ nj ni q, a.xyz = some (nj, ni, q) → m.nj = nj ∧ m.ni = ni ∧ p = q) ∧
      (a.xyz = none → a.nj = some m.nj ∧ a.ni = some m.ni ∧
        (∀ o di dj, a.z = none → a.origin = some o → a.dxyz = some (di, dj) →
          Holds p m.nj m.ni (fun j i => some (node ⟨o, di, dj⟩ j i 0)) (fun j i => some (node ⟨o, di, dj⟩ j i 1))
            (fun j i => some (node ⟨o, di, dj⟩ j i 2))) ∧
        (∀ z o di dj, a.z = some z → a.support = none → a.origin = some o → a.dxyz = some (di, dj) →
          Holds p m.nj m.ni (fun j i => some (node ⟨o, di, dj⟩ j i 0)) (fun j i => some (node ⟨o, di, dj⟩ j i 1)) (zGiven m.ni z)) ∧
        (∀ z r, a.z = some z → a.support = some r → ∃ rm q, load (f + 1) s r = .ok rm ∧ rm.nj = m.nj ∧ rm.ni = m.ni ∧
          fullArray (f + 1) s r rm = .ok q ∧ 2 < q.width ∧ p.width = q.width ∧
          ∀ j i, p.val j i 0 = q.val j i 0 ∧ p.val j i 1 = q.val j i 1 ∧ p.val j i 2 = zGiven m.ni z j i)) := by
  obtain ⟨hm, hc, _⟩ := made_of_make h
  cases hm with
  | explicit crs nj ni p hx =>
    refine ⟨p, rfl, hc, rfl, ?_, ?_⟩
    · intro nj' ni' q hq
      rw [hx] at hq
      cases hq
      exact ⟨rfl, rfl, rfl⟩
    · intro hn
      rw [hx] at hn
      cases hn
  | regular crs nj ni o di dj hx hz hi hj ho hd =>
    refine ⟨regularPts ⟨o, di, dj⟩ ni nj, rfl, hc, rfl, ?_, ?_⟩
    · intro nj' ni' q hq
      rw [hx] at hq
      cases hq
    · intro _
      refine ⟨hj, hi, ?_, ?_, ?_⟩
      · intro o' di' dj' _ ho' hd'
        rw [ho] at ho'
        rw [hd] at hd'
        cases ho'
        cases hd'
        exact regularPts_holds _ _ _
      · intro z o' di' dj' hz'
        rw [hz] at hz'
        cases hz'
      · intro z r hz'
        rw [hz] at hz'
        cases hz'
  | regz crs nj ni o di dj zin z p hx hz hs hi hj ho hd h1 h2 hzs hp =>
    refine ⟨p, rfl, hc, rfl, ?_, ?_⟩
    · intro nj' ni' q hq
      rw [hx] at hq
      cases hq
    · intro _
      refine ⟨hj, hi, ?_, ?_, ?_⟩
      · intro o' di' dj' hz'
        rw [hz] at hz'
        cases hz'
      · intro z' o' di' dj' hz' _ ho' hd'
        rw [hz] at hz'
        rw [ho] at ho'
        rw [hd] at hd'
        cases hz'
        cases ho'
        cases hd'
        obtain ⟨_, rfl⟩ := setZ_eq hp
        have hr := regularPts_holds ⟨o, di, dj⟩ ni nj
        refine ⟨rfl, ?_⟩
        intro j i hj hi
        refine ⟨(hr.2 j i hj hi).1, (hr.2 j i hj hi).2.1, ?_⟩
        rw [← zShape_given hzs]
        rfl
      · intro z' r hz' hs'
        rw [hs] at hs'
        cases hs'
  | refz crs nj ni r zin z rm p q hx hz hs hi hj h1 h2 hzs hl he1 he2 hf hq =>
    refine ⟨q, rfl, hc, rfl, ?_, ?_⟩
    · intro nj' ni' q' hq'
      rw [hx] at hq'
      cases hq'
    · intro _
      refine ⟨hj, hi, ?_, ?_, ?_⟩
      · intro o' di' dj' hz'
        rw [hz] at hz'
        cases hz'
      · intro z' o' di' dj' hz' hs'
        rw [hs] at hs'
        cases hs'
      · intro z' r' hz' hs'
        rw [hz] at hz'
        rw [hs] at hs'
        cases hz'
        cases hs'
        obtain ⟨hw, rfl⟩ := setZ_eq hq
        refine ⟨rm, p, hl, he1, he2, hf, hw, rfl, ?_⟩
        intro j i
        refine ⟨rfl, rfl, ?_⟩
        rw [← zShape_given hzs]
        rfl

/-- **C169** a regular mesh is made just if there are nodes, and one with z values just if their shape is that of the mesh or its size -/
theorem C169_accepted (f : Nat) (s : Store) (role : String) (hr : role = "map" ∨ role = "pick") (crs ni nj : Nat) (o di dj : Vec) :
    ((∃ m, make f s ⟨role, some crs, none, some ni, some nj, some o, some (di, dj), none, none⟩ = .ok m) ↔ 0 < nj ∧ 0 < ni) ∧
    (∀ a b z, (∃ m, make f s ⟨role, some crs, none, some ni, some nj, some o, some (di, dj), some (.grid a b z), none⟩ = .ok m) ↔
      0 < nj ∧ 0 < ni ∧ a = nj ∧ b = ni) ∧
    (∀ n z, (∃ m, make f s ⟨role, some crs, none, some ni, some nj, some o, some (di, dj), some (.flat n z), none⟩ = .ok m) ↔
      0 < nj ∧ 0 < ni ∧ n = nj * ni) := by
  refine ⟨?_, ?_, ?_⟩
  · simp only [make, hr, if_true, ofRegular]
    split_ifs with h <;> simp [h]
  · intro a b z
    simp only [make, hr, if_true, ofRegz]
    split_ifs with h
    · by_cases hab : a = nj ∧ b = ni
      · simp [zShape, hab, h, setZ, regularPts, Verif.Box.ok_bind]
      · simp [zShape, hab, h, Verif.Box.err_bind]
    · simp only [reduceCtorEq, exists_false, false_iff]
      tauto
  · intro n z
    simp only [make, hr, if_true, ofRegz]
    split_ifs with h
    · by_cases hn : n = nj * ni
      · simp [zShape, hn, h, setZ, regularPts, Verif.Box.ok_bind]
      · simp [zShape, hn, h, Verif.Box.err_bind]
    · simp only [reduceCtorEq, exists_false, false_iff]
      tauto

/-! ### C170 -/

theorem lookup_cons_self {α : Type} (u : Nat) (x : α) (l : List (Nat × α)) : List.lookup u ((u, x) :: l) = some x := by
  simp [List.lookup]

theorem lookup_cons_ne {α : Type} {u v : Nat} (h : v ≠ u) (x : α) (l : List (Nat × α)) : List.lookup v ((u, x) :: l) = List.lookup v l := by
  rw [List.lookup_cons, beq_eq_false_iff_ne.mpr h]

theorem lookup_cons_fresh {α : Type} {u : Nat} {l : List (Nat × α)} (h : l.lookup u = none) (x : α) :
    ∀ v y, l.lookup v = some y → List.lookup v ((u, x) :: l) = some y := by
  intro v y hv
  by_cases e : v = u
  · subst e
    rw [h] at hv
    cases hv
  · rw [lookup_cons_ne e]
    exact hv

theorem ext_writeArrays {f : Nat} {s t : Store} {u : Nat} {m : Mesh} {b : Bool} (hu : Fresh s u) (h : writeArrays f s u m b = .ok t) :
    Ext s t ∧ t.nodes = s.nodes ∧ (∀ v, v ≠ u → Fresh s v → Fresh t v) := by
  unfold writeArrays at h
  cases hf : m.flavour with
  | regular =>
    rw [hf] at h
    cases h
    exact ⟨Ext.refl s, rfl, fun _ _ g => g⟩
  | explicit =>
    rw [hf] at h
    dsimp only at h
    cases hp : fullArray f s u m with
    | error e => rw [hp] at h; cases h
    | ok p =>
      rw [hp] at h
      cases h
      refine ⟨⟨fun _ _ h => h, lookup_cons_fresh hu.2.1 _, fun _ _ h => h⟩, rfl, ?_⟩
      intro v hv g
      exact ⟨g.1, (lookup_cons_ne hv _ _).trans g.2.1, g.2.2⟩
  | regz =>
    rw [hf] at h
    dsimp only at h
    cases hp : fullArray f s u m with
    | error e => rw [hp] at h; cases h
    | ok p =>
      rw [hp] at h
      cases h
      refine ⟨⟨fun _ _ h => h, fun _ _ h => h, lookup_cons_fresh hu.2.2 _⟩, rfl, ?_⟩
      intro v hv g
      exact ⟨g.1, g.2.1, (lookup_cons_ne hv _ _).trans g.2.2⟩
  | refz =>
    rw [hf] at h
    dsimp only at h
    cases hp : fullArray f s u m with
    | error e => rw [hp] at h; cases h
    | ok p =>
      rw [hp] at h
      cases h
      refine ⟨⟨fun _ _ h => h, fun _ _ h => h, lookup_cons_fresh hu.2.2 _⟩, rfl, ?_⟩
      intro v hv g
      exact ⟨g.1, g.2.1, (lookup_cons_ne hv _ _).trans g.2.2⟩

theorem ext_addNode {s : Store} {u : Nat} (hu : s.nodes.lookup u = none) (n : Node) : Ext s { s with nodes := (u, n) :: s.nodes } :=
  ⟨lookup_cons_fresh hu n, fun _ _ h => h, fun _ _ h => h⟩

theorem store_ok {f : Nat} {s t : Store} {u : Nat} {m : Mesh} {b : Bool} (h : store f s u m b = .ok t) :
    ∃ s' n, writeArrays f s u m b = .ok s' ∧ storeNode m b = .ok n ∧ t = { s' with nodes := (u, n) :: s'.nodes } := by
  unfold store at h
  cases hw : writeArrays f s u m b with
  | error e => rw [hw] at h; cases h
  | ok s' =>
    rw [hw, Verif.Box.ok_bind] at h
    cases hn : storeNode m b with
    | error e => rw [hn] at h; cases h
    | ok n =>
      rw [hn] at h
      cases h
      exact ⟨s', n, rfl, rfl, rfl⟩

theorem storeNode_ok {m : Mesh} {b : Bool} {n : Node} (h : storeNode m b = .ok n) :
    ∃ p, storePoints m b = .ok p ∧ n = ⟨m.role, some m.ni, some m.nj, some m.crs, some p⟩ := by
  unfold storeNode at h
  cases hp : storePoints m b with
  | error e => rw [hp] at h; cases h
  | ok p =>
    rw [hp] at h
    cases h
    exact ⟨p, rfl, rfl⟩

theorem ext_store {f : Nat} {s t : Store} {u : Nat} {m : Mesh} {b : Bool} (hu : Fresh s u) (h : store f s u m b = .ok t) :
    Ext s t ∧ (∀ v, v ≠ u → Fresh s v → Fresh t v) := by
  obtain ⟨s', n, hw, hn, rfl⟩ := store_ok h
  obtain ⟨he, hns, hf⟩ := ext_writeArrays hu hw
  refine ⟨he.trans (ext_addNode (by rw [hns]; exact hu.1) n), ?_⟩
  intro v hv g
  have := hf v hv g
  exact ⟨(lookup_cons_ne hv _ _).trans this.1, this.2.1, this.2.2⟩

/-- **C170** a new mesh which is stored is loaded with the same extent, role, flavour, crs and points, whatever was stored before, and all that was
stored before is still there -/
theorem C170_stored (f : Nat) (s t : Store) (u : Nat) (a : Args) (m : Mesh) (p : Pts) (hu : Fresh s u) (hm : make (f + 1) s a = .ok m)
    (hp : fullArray (f + 1) s u m = .ok p) (ht : store (f + 1) s u m false = .ok t) :
    (∀ g, f + 1 < g → ∃ m', load g t u = .ok m' ∧ look m' = look m ∧ fullArray g t u m' = .ok p) ∧
    (∀ g v mv pv, load g s v = .ok mv → fullArray g s v mv = .ok pv → load g t v = .ok mv ∧ fullArray g t v mv = .ok pv) := by
  obtain ⟨hext, _⟩ := ext_store hu ht
  refine ⟨?_, fun g v mv pv h1 h2 => ⟨load_mono hext g g v mv le_rfl h1, fullArray_mono hext g g v mv pv le_rfl h2⟩⟩
  intro g hg
  obtain ⟨g, rfl⟩ : ∃ k, g = k + 1 := ⟨g - 1, by omega⟩
  obtain ⟨s', n, hw, hn, rfl⟩ := store_ok ht
  obtain ⟨x, hx, rfl⟩ := storeNode_ok hn
  obtain ⟨hmade, _, _⟩ := made_of_make hm
  cases hmade with
  | explicit crs nj ni q hq hq3 =>
    cases hx
    cases hw
    cases hp
    refine ⟨⟨a.role, ni, nj, .explicit, none, none, none, crs⟩, ?_, rfl, ?_⟩
    · unfold load
      dsimp only
      rw [lookup_cons_self]
    · unfold fullArray
      dsimp only
      rw [lookup_cons_self]
      rfl
  | regular crs nj ni o di dj =>
    unfold storePoints at hx
    dsimp only at hx
    cases hl : storeLat ni nj ⟨o, di, dj⟩ with
    | error e => rw [hl] at hx; cases hx
    | ok lx =>
      rw [hl] at hx
      cases hx
      cases hw
      cases hp
      refine ⟨⟨a.role, ni, nj, .regular, none, some ⟨o, di, dj⟩, none, crs⟩, ?_, rfl, rfl⟩
      unfold load
      dsimp only
      rw [lookup_cons_self]
      dsimp only
      rw [loadLat_storeLat _ _ _ _ hl]
      rfl
  | regz crs nj ni o di dj zin z q hx' hz hs hi hj ho hd h1 h2 hzs hq =>
    unfold storePoints at hx
    dsimp only at hx
    cases hl : storeLat ni nj ⟨o, di, dj⟩ with
    | error e => rw [hl] at hx; cases hx
    | ok lx =>
      rw [hl] at hx
      cases hx
      cases hw
      cases hp
      refine ⟨⟨a.role, ni, nj, .regz, none, some ⟨o, di, dj⟩, none, crs⟩, ?_, rfl, ?_⟩
      · unfold load
        dsimp only
        rw [lookup_cons_self]
        dsimp only
        rw [loadLat_storeLat _ _ _ _ hl]
        rfl
      · unfold fullArray
        dsimp only
        rw [lookup_cons_self]
        dsimp only
        exact setZ_again hq
  | refz crs nj ni r zin z rm q0 q hx' hz hs hi hj h1 h2 hzs hl he1 he2 hf hq =>
    cases hx
    cases hw
    cases hp
    refine ⟨⟨a.role, ni, nj, .refz, none, none, some r, crs⟩, ?_, rfl, ?_⟩
    · unfold load
      dsimp only
      rw [lookup_cons_self]
      dsimp only
      rw [load_mono hext (f + 1) g r rm (by omega) hl, Verif.Box.ok_bind, if_pos ⟨he1.symm, he2.symm⟩, refUseOk_store]
      rfl
    · unfold fullArray
      dsimp only
      rw [load_mono hext (f + 1) g r rm (by omega) hl, Verif.Box.ok_bind, fullArray_mono hext (f + 1) g r rm q0 (by omega) hf, Verif.Box.ok_bind,
        lookup_cons_self]
      exact setZ_again hq

theorem step_ext (f : Nat) (s : Store) (c : Nat × Args) (hu : Fresh s c.1) : Ext s (step f s c) ∧ ∀ v, v ≠ c.1 → Fresh s v → Fresh (step f s c) v := by
  unfold step
  cases hm : make f s c.2 with
  | error e => exact ⟨Ext.refl s, fun _ _ g => g⟩
  | ok m =>
    dsimp only
    cases hw : writeArrays f s c.1 m false with
    | error e => exact ⟨Ext.refl s, fun _ _ g => g⟩
    | ok s' =>
      dsimp only
      cases hn : storeNode m false with
      | error e =>
        obtain ⟨he, _, hf⟩ := ext_writeArrays hu hw
        exact ⟨he, hf⟩
      | ok n =>
        have : store f s c.1 m false = .ok { s' with nodes := (c.1, n) :: s'.nodes } := by
          unfold store
          rw [hw, Verif.Box.ok_bind, hn]
          rfl
        exact ext_store hu this

theorem steps_ext (f : Nat) (cs : List (Nat × Args)) : ∀ s : Store, (∀ c ∈ cs, Fresh s c.1) → (cs.map (·.1)).Nodup →
    Ext s (steps f s cs) ∧ ∀ v, v ∉ cs.map (·.1) → Fresh s v → Fresh (steps f s cs) v := by
  induction cs with
  | nil => intro s _ _; exact ⟨Ext.refl s, fun _ _ g => g⟩
  | cons c cs ih =>
    intro s hs hnd
    rw [List.map_cons, List.nodup_cons] at hnd
    obtain ⟨h1, h2⟩ := step_ext f s c (hs c (List.mem_cons_self ..))
    have hs' : ∀ d ∈ cs, Fresh (step f s c) d.1 := by
      intro d hd
      refine h2 d.1 ?_ (hs d (List.mem_cons_of_mem _ hd))
      intro e
      exact hnd.1 (e ▸ List.mem_map_of_mem (f := (·.1)) hd)
    obtain ⟨h3, h4⟩ := ih (step f s c) hs' hnd.2
    refine ⟨h1.trans h3, ?_⟩
    intro v hv g
    rw [List.map_cons, List.mem_cons, not_or] at hv
    exact h4 v hv.2 (h2 v hv.1 g)

/-- **C170** in any sequence of meshes made and stored, of any flavours and with any references to one another, each mesh stored can be loaded at the
end, with the extent, role, flavour, crs and points it had when it was made -/
theorem C170_history (f : Nat) (cs before after : List (Nat × Args)) (u : Nat) (a : Args) (hcs : cs = before ++ (u, a) :: after)
    (hnd : (cs.map (·.1)).Nodup) (m : Mesh) (p : Pts) (t : Store) (hm : make (f + 1) (steps (f + 1) nothing before) a = .ok m)
    (hp : fullArray (f + 1) (steps (f + 1) nothing before) u m = .ok p) (ht : store (f + 1) (steps (f + 1) nothing before) u m false = .ok t) :
    ∀ g, f + 1 < g → ∃ m', load g (steps (f + 1) nothing cs) u = .ok m' ∧ look m' = look m ∧ fullArray g (steps (f + 1) nothing cs) u m' = .ok p := by
  subst hcs
  intro g hg
  have hnone : ∀ v, Fresh nothing v := fun v => ⟨rfl, rfl, rfl⟩
  rw [List.map_append, List.map_cons] at hnd
  have hnd' := List.nodup_append.mp hnd
  obtain ⟨_, hfr⟩ := steps_ext (f + 1) before nothing (fun c _ => hnone c.1) hnd'.1
  have hu : Fresh (steps (f + 1) nothing before) u :=
    hfr u (fun hmem => hnd'.2.2 u hmem u (List.mem_cons_self ..) rfl) (hnone u)
  have hstep : step (f + 1) (steps (f + 1) nothing before) (u, a) = t := by
    obtain ⟨s', n, hw, hn, rfl⟩ := store_ok ht
    unfold step
    rw [hm]
    dsimp only
    rw [hw]
    dsimp only
    rw [hn]
  have hall : steps (f + 1) nothing (before ++ (u, a) :: after) = steps (f + 1) t after := by
    unfold steps
    rw [List.foldl_append, List.foldl_cons]
    exact congrArg (fun z => List.foldl (step (f + 1)) z after) hstep
  obtain ⟨hx, hft⟩ := ext_store hu ht
  have hafter : ∀ c ∈ after, Fresh t c.1 := by
    intro c hc
    have hne : c.1 ≠ u := by
      intro e
      have := (List.nodup_cons.mp hnd'.2.1).1
      exact this (e ▸ List.mem_map_of_mem (f := (·.1)) hc)
    refine hft c.1 hne (hfr c.1 ?_ (hnone c.1))
    intro hmem
    exact hnd'.2.2 c.1 hmem c.1 (List.mem_cons_of_mem _ (List.mem_map_of_mem (f := (·.1)) hc)) rfl
  obtain ⟨hx2, _⟩ := steps_ext (f + 1) after t hafter (List.nodup_cons.mp hnd'.2.1).2
  obtain ⟨m', h1, h2, h3⟩ := (C170_stored f _ t u a m p hu hm hp ht).1 g hg
  rw [hall]
  exact ⟨m', load_mono hx2 g g u m' le_rfl h1, h2, fullArray_mono hx2 g g u m' p le_rfl h3⟩

theorem storeOff_iff (n : Nat) (d : Vec) : (∃ o, storeOff n d = .ok o) ↔ d ≠ fun _ => 0 := by
  unfold storeOff
  by_cases h : d = fun _ => 0
  · subst h
    rw [if_neg dot_zero]
    simp
  · rw [if_pos (dot_pos h)]
    simp [h]

theorem storeLat_iff (ni nj : Nat) (l : Lat) : (∃ x, storeLat ni nj l = .ok x) ↔ l.di ≠ (fun _ => 0) ∧ l.dj ≠ (fun _ => 0) := by
  rw [← storeOff_iff ni l.di, ← storeOff_iff nj l.dj]
  unfold storeLat
  cases storeOff nj l.dj with
  | error e => simp [Verif.Box.err_bind]
  | ok oj =>
    cases storeOff ni l.di with
    | error e => simp [Verif.Box.ok_bind, Verif.Box.err_bind]
    | ok oi => simp [Verif.Box.ok_bind]

/-- **C170** a new mesh is stored unless it is regular, with or without z values, and one of its steps is nought, in which case storing is refused -/
theorem C170_refused (f : Nat) (s : Store) (u : Nat) (a : Args) (m : Mesh) (hm : make (f + 1) s a = .ok m) :
    (∃ t, store (f + 1) s u m false = .ok t) ↔ ∀ l, m.lat = some l → l.di ≠ (fun _ => 0) ∧ l.dj ≠ (fun _ => 0) := by
  obtain ⟨hmade, _, _⟩ := made_of_make hm
  cases hmade with
  | explicit crs nj ni q hq hq3 =>
    exact ⟨fun _ l h => (by cases h), fun _ => ⟨_, rfl⟩⟩
  | regular crs nj ni o di dj =>
    have := storeLat_iff ni nj ⟨o, di, dj⟩
    constructor
    · rintro ⟨t, ht⟩ l hl
      cases hl
      obtain ⟨s', n, hw, hn, rfl⟩ := store_ok ht
      obtain ⟨x, hx, rfl⟩ := storeNode_ok hn
      unfold storePoints at hx
      dsimp only at hx
      apply this.mp
      cases hl : storeLat ni nj ⟨o, di, dj⟩ with
      | error e => rw [hl] at hx; cases hx
      | ok lx => exact ⟨lx, rfl⟩
    · intro h
      obtain ⟨x, hx⟩ := this.mpr (h _ rfl)
      unfold store writeArrays storeNode storePoints
      dsimp only
      rw [hx]
      exact ⟨_, rfl⟩
  | regz crs nj ni o di dj zin z q hx' hz hs hi hj ho hd h1 h2 hzs hq =>
    have := storeLat_iff ni nj ⟨o, di, dj⟩
    constructor
    · rintro ⟨t, ht⟩ l hl
      cases hl
      obtain ⟨s', n, hw, hn, rfl⟩ := store_ok ht
      obtain ⟨x, hx, rfl⟩ := storeNode_ok hn
      unfold storePoints at hx
      dsimp only at hx
      apply this.mp
      cases hl : storeLat ni nj ⟨o, di, dj⟩ with
      | error e => rw [hl] at hx; cases hx
      | ok lx => exact ⟨lx, rfl⟩
    · intro h
      obtain ⟨x, hx⟩ := this.mpr (h _ rfl)
      unfold store writeArrays storeNode storePoints fullArray
      dsimp only
      rw [hx]
      exact ⟨_, rfl⟩
  | refz crs nj ni r zin z rm q0 q =>
    exact ⟨fun _ l h => (by cases h), fun _ => ⟨_, rfl⟩⟩

/-- **C170 fails** for points stored without z: whatever the mesh, it is loaded with two coordinates for each point; and no mesh with z values can be
based on it -/
theorem C170_xy_violated (f : Nat) (s t : Store) (u : Nat) (a : Args) (m : Mesh) (q : Nat × Nat × Pts) (ha : a.xyz = some q)
    (hm : make (f + 1) s a = .ok m) (ht : store (f + 1) s u m true = .ok t) (g : Nat) :
    (∃ m' p', load (g + 1) t u = .ok m' ∧ look m' = look m ∧ fullArray (g + 1) t u m' = .ok p' ∧ p'.width = 2 ∧ q.2.2.width = 3) ∧
    (∀ role crs zin, (role = "map" ∨ role = "pick") → ∀ z, zShape m.nj m.ni zin = .ok z →
      make (g + 1) t ⟨role, some crs, none, some m.ni, some m.nj, none, none, some zin, some u⟩ = .error .index) := by
  obtain ⟨s', n, hw, hn, rfl⟩ := store_ok ht
  obtain ⟨x, hx, rfl⟩ := storeNode_ok hn
  obtain ⟨hmade, _, _⟩ := made_of_make hm
  cases hmade with
  | explicit crs nj ni p hq h3 h1 h2 =>
    rw [ha] at hq
    cases hq
    cases hx
    cases hw
    have hload : load (g + 1) (⟨(u, (⟨a.role, some ni, some nj, some crs, some (.coords false)⟩ : Node)) :: s.nodes,
        (u, (⟨2, p.val⟩ : Pts)) :: s.points, s.zs⟩ : Store) u =
        .ok ⟨a.role, ni, nj, .explicit, none, none, none, crs⟩ := by
      unfold load
      dsimp only
      rw [lookup_cons_self]
    have harr : fullArray (g + 1) (⟨(u, (⟨a.role, some ni, some nj, some crs, some (.coords false)⟩ : Node)) :: s.nodes,
        (u, (⟨2, p.val⟩ : Pts)) :: s.points, s.zs⟩ : Store) u
        ⟨a.role, ni, nj, .explicit, none, none, none, crs⟩ = .ok ⟨2, p.val⟩ := by
      unfold fullArray
      dsimp only
      rw [lookup_cons_self]
    refine ⟨⟨_, _, hload, rfl, harr, rfl, h3⟩, ?_⟩
    intro role crs' zin hr z hz
    unfold make
    rw [if_pos hr]
    dsimp only
    unfold ofRefz
    rw [if_pos ⟨by omega, by omega⟩, hz, Verif.Box.ok_bind]
    refine Eq.trans (congrArg (fun r => r >>= _) hload) ?_
    rw [Verif.Box.ok_bind, if_pos ⟨rfl, rfl⟩]
    refine Eq.trans (congrArg (fun r => r >>= _) harr) ?_
    rw [Verif.Box.ok_bind]
    rfl
  | regular crs nj ni o di dj hq => rw [ha] at hq; cases hq
  | regz crs nj ni o di dj zin z p hq => rw [ha] at hq; cases hq
  | refz crs nj ni r zin z rm p q' hq => rw [ha] at hq; cases hq

/-! ### The hypotheses can be met -/

/-- a regular mesh and one with z values on it -/
noncomputable def exampleCommands : List (Nat × Args) :=
  [(1, ⟨"map", some 9, none, some 3, some 2, some ![5, 6, 0], some (![10, 0, 0], ![0, -10, 0]), none, none⟩),
   (2, ⟨"map", some 9, none, some 3, some 2, none, none, some (.flat 6 fun n => some n), some 1⟩)]

example : (exampleCommands.map (·.1)).Nodup := by decide

example : ∃ m, make 5 nothing (exampleCommands[0]).2 = .ok m := by
  have := (C169_accepted 5 nothing "map" (Or.inl rfl) 9 3 2 ![5, 6, 0] ![10, 0, 0] ![0, -10, 0]).1.mpr ⟨by decide, by decide⟩
  exact this

/-- the second mesh is made on the first, once that is stored -/
example (s : Store) (rm : Mesh) (p : Pts) (h : load 5 s 1 = .ok rm) (hj : rm.nj = 2) (hi : rm.ni = 3) (hp : fullArray 5 s 1 rm = .ok p) (hw : p.width = 3) :
    ∃ m, make 5 s (exampleCommands[1]).2 = .ok m := by
  simp [exampleCommands, make, ofRefz, zShape, h, hj, hi, hp, setZ, hw, Verif.Box.ok_bind]

end Verif.Mesh
