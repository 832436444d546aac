import Verif.Units.Table
import Verif.Units.Spec

/-! # The unit table of resqpy meets the requirements

These are facts about one particular table, checked by evaluation in the kernel. -/

namespace Verif.Units
set_option maxRecDepth 100000

/-- the requirements on a row, as a test; the base unit determines the dimension -/
def rowOk (r : Row) : Bool :=
  decide (0 < r.a.2) && decide (0 < r.b.1) && decide (0 < r.b.2) && decide (0 < r.c.1) && decide (0 < r.c.2) &&
  decide (r.d.1 = 0) && decide (baseDims[r.base]? = some r.dim)

theorem rows_ok : unitRows.all rowOk = true := by decide +kernel

theorem names_ok :
    unitRows.all (fun r => decide (r.name.toList ≠ [] ∧ strip r.name.toList = r.name.toList)) = true := by
  decide +kernel

/-- positions in the table of the units that aliases and case insensitive names stand for -/
def positions : List Nat := [
  1023, 1025, 355, 366, 379, 428, 1382, 1364, 1369, 1368, 1367, 1370, 1365, 0, 19, 1130, 783, 794, 800, 801,
  795, 817, 798, 818, 807, 788, 1197, 352, 353, 680, 728, 1426, 277, 284, 1344, 3, 1190, 783, 864, 366,
  818, 76, 355, 817, 884, 19, 1197]

/-- the units at those positions -/
def positioned : List String := positions.filterMap fun i => unitRows[i]?.map Row.name

theorem aliases_positioned : unitAliases.all (fun p => decide (p.2 ∈ positioned)) = true := by decide +kernel

theorem caseless_positioned : unitCaseless.all (fun p => decide (p ∈ positioned)) = true := by decide +kernel

theorem positioned_valid (s : String) (h : s ∈ positioned) : valid theData s.toList = true := by
  unfold positioned at h
  obtain ⟨i, _, hi⟩ := List.mem_filterMap.1 h
  cases e : unitRows[i]? with
  | none => rw [e] at hi; cases hi
  | some r =>
    rw [e] at hi
    cases hi
    unfold valid find
    rw [List.find?_isSome]
    exact ⟨r, List.mem_iff_getElem?.2 ⟨i, e⟩, by simp⟩

theorem theData_sound : Sound theData := by
  have h := List.all_eq_true.1 rows_ok
  refine ⟨fun r hr => ?_, fun r hr s hs hrs => ?_⟩
  · have := h r hr
    simp only [rowOk, Bool.and_eq_true, decide_eq_true_eq] at this
    obtain ⟨⟨⟨⟨⟨⟨h1, h2⟩, h3⟩, h4⟩, h5⟩, h6⟩, _⟩ := this
    exact ⟨h1, h2, h3, h4, h5, h6⟩
  · have h1 := h r hr
    have h2 := h s hs
    simp only [rowOk, Bool.and_eq_true, decide_eq_true_eq] at h1 h2
    have := h1.2.symm.trans (hrs ▸ h2.2)
    simpa using this

theorem theData_names : NamesSound theData := by
  refine ⟨fun r hr => ?_, fun p hp => ?_, fun p hp => ?_⟩
  · have := List.all_eq_true.1 names_ok r hr
    simpa using this
  · have := List.all_eq_true.1 aliases_positioned p hp
    exact positioned_valid _ (by simpa using this)
  · have := List.all_eq_true.1 caseless_positioned p hp
    exact positioned_valid _ (by simpa using this)

/-- positions in the table of the units of length, plane angle and the quantities that make up transmissibility -/
def memberPositions : List Nat := [
  191, 192, 193, 194, 195, 196, 197, 198, 199, 200, 201, 202, 203, 204, 355, 356, 357, 358, 359, 360,
  361, 362, 363, 364, 365, 366, 367, 368, 369, 370, 371, 372, 373, 374, 375, 376, 377, 378, 379, 380,
  381, 382, 383, 384, 385, 386, 387, 388, 389, 390, 391, 392, 393, 394, 395, 396, 397, 398, 399, 400,
  401, 402, 403, 404, 405, 406, 407, 409, 410, 411, 412, 413, 414, 415, 416, 417, 418, 419, 420, 421,
  422, 423, 424, 428, 429, 430, 431, 432, 433, 434, 435, 436, 437, 438, 439, 440, 441, 783, 784, 785,
  786, 787, 788, 789, 790, 791, 792, 794, 795, 796, 797, 798, 799, 800, 801, 802, 803, 804, 805, 806,
  807, 808, 809, 810, 811, 812, 817, 818, 819, 820, 821, 822, 823, 1163, 1165, 1168, 1169, 1170, 1171, 1172,
  1173, 1174, 1175, 1176, 1177, 1178, 1179, 1180, 1181, 1182, 1183, 1184, 1185, 1186, 1187, 1188, 1189, 1190, 1191, 1192,
  1193, 1194, 1195, 1196, 1197, 1198, 1199, 1223, 1224, 1225, 1226, 1227, 1228, 1229, 1230, 1231, 1232, 1233, 1234, 1235,
  1236, 1237, 1238, 1239, 1240, 1241, 1242, 1243, 1244, 1245, 1246, 1247, 1248, 1249, 1250, 1251, 1252, 1364, 1365, 1366,
  1367, 1368, 1369, 1370, 1371, 1372, 1373, 1374, 1375, 1376, 1377, 1378, 1379, 1380, 1381, 1382, 1383, 1384, 1385, 1386,
  1387]

/-- the units at those positions -/
def memberNames : List String := memberPositions.filterMap fun i => unitRows[i]?.map Row.name

theorem members_positioned :
    (volumeUoms ++ viscosityUoms ++ pressureUoms ++ timeUoms ++ lengthUoms ++ angleUoms).all
      (fun p => decide (p ∈ memberNames) && decide (p ≠ "degC") && decide (p ≠ "degF")) = true := by
  decide +kernel

theorem offsets_ok :
    unitRows.all (fun r => decide (r.a.1 = 0) || decide (r.name = "degC") || decide (r.name = "degF")) = true := by
  decide +kernel

/-- the units of length, plane angle and the quantities that make up transmissibility are in the table and have no
offset -/
theorem members_ok (s : String)
    (h : s ∈ volumeUoms ++ viscosityUoms ++ pressureUoms ++ timeUoms ++ lengthUoms ++ angleUoms) :
    valid theData s.toList = true ∧ IsScale theData s.toList := by
  have h1 := List.all_eq_true.1 members_positioned s h
  simp only [Bool.and_eq_true, decide_eq_true_eq] at h1
  obtain ⟨⟨h1, h2⟩, h3⟩ := h1
  constructor
  · unfold memberNames at h1
    obtain ⟨i, _, hi⟩ := List.mem_filterMap.1 h1
    cases e : unitRows[i]? with
    | none => rw [e] at hi; cases hi
    | some r =>
      rw [e] at hi
      cases hi
      unfold valid find
      rw [List.find?_isSome]
      exact ⟨r, List.mem_iff_getElem?.2 ⟨i, e⟩, by simp⟩
  · intro r hr
    unfold find at hr
    have hm := List.mem_of_find?_eq_some hr
    have hn := List.find?_some hr
    simp only [decide_eq_true_eq] at hn
    have hn' : r.name = s := String.toList_inj.1 hn
    have := List.all_eq_true.1 offsets_ok r hm
    simp only [Bool.or_eq_true, decide_eq_true_eq] at this
    rcases this with (h | h) | h
    · exact h
    · exact absurd (hn'.symm.trans h) h2
    · exact absurd (hn'.symm.trans h) h3

end Verif.Units
