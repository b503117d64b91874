import Verif.Spec.Names
import Verif.Props.VizMain
import Mathlib.Data.List.Lex

/-!
# C78: the order of the files of a recording
-/

namespace Verif.Props
open Spec Kitti Viz

lemma padded_lt (w : ℕ) : ∀ (i j : ℕ) (ext ext' : List (Fin 256)), i < 10 ^ w → j < 10 ^ w →
    (padded w i ++ ext < padded w j ++ ext' ↔ i < j ∨ i = j ∧ ext < ext') := by
  induction w with
  | zero =>
    intro i j ext ext' hi hj
    simp only [pow_zero, Nat.lt_one_iff] at hi hj
    subst hi hj
    simp [padded]
  | succ w ih =>
    intro i j ext ext' hi hj
    have hp : 0 < 10 ^ w := by positivity
    have h1 : i / 10 ^ w < 10 := by rw [Nat.div_lt_iff_lt_mul hp, ← pow_succ']; exact hi
    have h2 : j / 10 ^ w < 10 := by rw [Nat.div_lt_iff_lt_mul hp, ← pow_succ']; exact hj
    have e1 := Nat.div_add_mod i (10 ^ w)
    have e2 := Nat.div_add_mod j (10 ^ w)
    have m1 := Nat.mod_lt i hp
    have m2 := Nat.mod_lt j hp
    simp only [padded, List.cons_append]
    rw [List.cons_lt_cons_iff, ih _ _ _ _ m1 m2]
    have hd : ∀ {a b : ℕ}, a < 10 → b < 10 →
        ((Fin.ofNat 256 (48 + a) < Fin.ofNat 256 (48 + b) ↔ a < b) ∧
         (Fin.ofNat 256 (48 + a) = Fin.ofNat 256 (48 + b) ↔ a = b)) := by
      intro a b ha hb
      simp only [Fin.lt_def, Fin.ext_iff, Fin.val_ofNat]
      omega
    rw [(hd h1 h2).1, (hd h1 h2).2]
    rcases lt_trichotomy (i / 10 ^ w) (j / 10 ^ w) with h | h | h
    · have : i < j := by
        by_contra hc
        exact absurd (Nat.div_le_div_right (c := 10 ^ w) (not_lt.mp hc)) (not_le.mpr h)
      simp only [h, this, true_or]
    · have h3 : (i % 10 ^ w < j % 10 ^ w ↔ i < j) ∧ (i % 10 ^ w = j % 10 ^ w ↔ i = j) := by
        rw [h] at e1
        constructor <;> omega
      rw [h3.1, h3.2, h]
      simp
    · have h4 : j < i := by
        by_contra hc
        exact absurd (Nat.div_le_div_right (c := 10 ^ w) (not_lt.mp hc)) (not_le.mpr h)
      constructor
      · rintro (h5 | ⟨h5, -⟩) <;> omega
      · rintro (h5 | ⟨h5, -⟩) <;> omega

/-- C78: names with indices padded to the same width are in the order of the indices. -/
theorem C78_padded {w i j : ℕ} (ext : List (Fin 256)) (hi : i < 10 ^ w) (hj : j < 10 ^ w) :
    indexName w ext i < indexName w ext j ↔ i < j := by
  unfold indexName
  rw [padded_lt w i j ext ext hi hj]
  simp

/-- C78: then the files are read in the order of the indices. -/
theorem C78_listing {w : ℕ} {ext : List (Fin 256)} {idx : List ℕ} {paths : List (List (Fin 256))}
    (h : IndexFolder w ext idx paths) : seqFilesInDir (.ok (paths.map .ok)) = .ok (idx.map (indexName w ext)) := by
  obtain ⟨s, h1, h2⟩ := seqFiles_spec paths
  rw [h2]
  obtain ⟨h3, h4, h5⟩ := h
  refine congrArg _ (sorted_unique h1 ⟨.refl _, ?_⟩ h5)
  rw [List.pairwise_map]
  refine (List.Pairwise.and_mem.mp h3).imp ?_
  rintro i j ⟨hi, hj, hlt⟩
  exact le_of_lt ((C78_padded ext (h4 i hi) (h4 j hj)).mpr hlt)

lemma indexFolder_sorted {w : ℕ} {ext : List (Fin 256)} {idx : List ℕ} {paths : List (List (Fin 256))}
    (h : IndexFolder w ext idx paths) : SortedListing (idx.map (indexName w ext)) paths := by
  obtain ⟨s, h1, h2⟩ := seqFiles_spec paths
  rw [C78_listing h] at h2
  exact Except.ok.inj h2 ▸ h1

/-- C78: so the clouds of a folder come in the order of the indices, whatever the order of the listing. -/
theorem C78_clouds {w : ℕ} {ext : List (Fin 256)} {idx : List ℕ} {paths : List (List (Fin 256))}
    (h : IndexFolder w ext idx paths) (contents : List (Fin 256) → Io (List (BitVec 8)))
    (cs : List (PointCloud 3 (BitVec 32))) :
    readCloudDir (.ok (paths.map .ok)) contents = .ok (.ok cs) ↔
      List.Forall₂ (fun i c => readCloud (contents (indexName w ext i)) = .ok (.ok c)) idx cs := by
  rw [C49_success contents (indexFolder_sorted h), List.forall₂_map_left_iff]

/-- C78: in a recording folder whose two subfolders hold the same indices, each padded to one width, recording `k`
of the visualizer is made of the two files with the `k`-th index. -/
theorem C78_recordings {env : OxtEnv F64 F32 (Quat F32)} {d : Folder (List (Fin 256))} {w w' : ℕ}
    {ext ext' : List (Fin 256)} {idx : List ℕ} {po pv : List (List (Fin 256))} (ho : IndexFolder w ext idx po)
    (hv : IndexFolder w' ext' idx pv) (h1 : d.oxts = .ok (po.map .ok)) (h2 : d.velodyne = .ok (pv.map .ok))
    {rs : Recordings} (h : main env (some (some d)) = .ok (.window rs)) :
    rs.poses.length = idx.length ∧ rs.clouds.length = idx.length ∧
    ∀ (k i : ℕ), idx[k]? = some i →
      ∃ text fix rot bytes pose,
        d.oxtFile (indexName w ext i) = .ok text ∧ Record env text fix rot ∧
        d.velodyneFile (indexName w' ext' i) = .ok bytes ∧ rs.poses[k]? = some pose ∧ pose.rotation = rot ∧
        (rs.get k).1 = pose.translation ∧ (rs.get k).2.points = fileCloud bytes pose := by
  obtain ⟨l1, l2, h3⟩ := C60_recordings (indexFolder_sorted ho) (indexFolder_sorted hv) h1 h2 h
  have hl : po.length = idx.length := by rw [ho.2.2.length_eq, List.length_map]
  refine ⟨l1.trans hl, l2.trans hl, fun k i hk => ?_⟩
  obtain ⟨text, fix, rot, p0, text0, fix0, rot0, bytes, pose, e1, e2, -, -, -, e3, -, e4, e5, -, e6, e7⟩ :=
    h3 k (indexName w ext i) (indexName w' ext' i) (by rw [List.getElem?_map, hk]; rfl)
      (by rw [List.getElem?_map, hk]; rfl)
  exact ⟨text, fix, rot, bytes, pose, e1, e2, e3, e4, e5, e6, e7⟩

/-- C78 (limit): without padding the order is another one: files 10 to 19 come before files 2 to 9. -/
theorem C78_unpadded (ext : List (Fin 256)) {i j : ℕ} (hi : 2 ≤ i) (hi' : i ≤ 9) (hj : 10 ≤ j) (hj' : j ≤ 19) :
    indexName 2 ext j < indexName 1 ext i := by
  unfold indexName
  simp only [padded, List.cons_append, List.cons_lt_cons_iff, Fin.lt_def, Fin.val_ofNat]
  omega

/-- C78 (limit): every file of the folder is read, and one whose name begins with a byte below the digits, as hidden
files do, comes before all others. -/
theorem C78_hidden {b : Fin 256} (hb : b.val < 48) (r ext : List (Fin 256)) {w i : ℕ} (hw : 0 < w)
    (hi : i < 10 ^ w) : b :: r < indexName w ext i := by
  obtain ⟨w, rfl⟩ : ∃ v, w = v + 1 := ⟨w - 1, by omega⟩
  have hp : 0 < 10 ^ w := by positivity
  have h1 : i / 10 ^ w < 10 := by rw [Nat.div_lt_iff_lt_mul hp, ← pow_succ']; exact hi
  unfold indexName
  simp only [padded, List.cons_append, List.cons_lt_cons_iff]
  generalize i / 10 ^ w = q at h1
  left
  rw [Fin.lt_def, Fin.val_ofNat]
  omega

/-- The names of a KITTI recording, and folders listed out of order. -/
example : indexName 10 (ascii ".bin") 42 = ascii "0000000042.bin" ∧
    IndexFolder 10 (ascii ".bin") [8, 9, 10] [ascii "0000000010.bin", ascii "0000000008.bin", ascii "0000000009.bin"] ∧
    IndexFolder 10 (ascii ".txt") [8, 9, 10] [ascii "0000000009.txt", ascii "0000000008.txt", ascii "0000000010.txt"] ∧
    indexName 2 (ascii ".bin") 10 = ascii "10.bin" ∧ indexName 1 (ascii ".bin") 2 = ascii "2.bin" ∧
    ascii ".DS_Store" = 46 :: ascii "DS_Store" := by
  unfold IndexFolder
  decide +kernel

/-- With these names, a folder in which the window opens. -/
example (po pv : List (List (Fin 256))) (hl : po.length = pv.length) :
    ∃ (env : OxtEnv F64 F32 (Quat F32)) (d : Folder (List (Fin 256))) (rs : Recordings),
    d.oxts = .ok (po.map .ok) ∧ d.velodyne = .ok (pv.map .ok) ∧ main env (some (some d)) = .ok (.window rs) := by
  obtain ⟨rs, h⟩ := (C60_window_iff (env := oneEnv)
    (d := ⟨.ok (po.map .ok), fun _ => oddFolder.oxtFile 1, .ok (pv.map .ok), fun _ => oddFolder.velodyneFile 1⟩)
    rfl rfl).1.mpr ⟨fun _ _ => oddFolder_good, fun _ _ => ⟨_, rfl, by decide⟩, hl⟩
  exact ⟨_, _, rs, rfl, rfl, h⟩

end Verif.Props
