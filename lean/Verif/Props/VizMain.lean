import Verif.Model.VizMain
import Verif.Props.Kitti
import Verif.Props.Pose
import Verif.Props.VizRuns

/-!
# C60: starting the visualizer; C61: the numbers in a file
-/

namespace Verif.Props
open Spec Kitti Viz

section C60
variable {P : Type} [LinearOrder P] {env : OxtEnv F64 F32 (Quat F32)} {d : Folder P}
  {so po sv pv : List P}

/-- The file is a record. -/
def GoodOxt (env : OxtEnv F64 F32 (Quat F32)) (input : Io (List Char)) : Prop :=
  ∃ text fix rot, input = .ok text ∧ Record env text fix rot

/-- The file is a sequence of 16-byte points. -/
def GoodCloud (input : Io (List (BitVec 8))) : Prop := ∃ bytes, input = .ok bytes ∧ 16 ∣ bytes.length

lemma recorded_of_good {s : List P} {contents : P → Io (List Char)}
    (h : ∀ p ∈ s, GoodOxt env (contents p)) : ∃ fixes, Recorded env contents s fixes := by
  induction s with
  | nil => exact ⟨[], .nil⟩
  | cons p s ih =>
    obtain ⟨fixes, hf⟩ := ih fun q hq => h q (List.mem_cons_of_mem _ hq)
    obtain ⟨text, fix, rot, h1, h2⟩ := h p List.mem_cons_self
    exact ⟨(fix, rot) :: fixes, .cons ⟨text, h1, h2⟩ hf⟩

lemma clouds_of_good {s : List P} {contents : P → Io (List (BitVec 8))}
    (h : ∀ p ∈ s, GoodCloud (contents p)) :
    ∃ cs, List.Forall₂ (fun p c => readCloud (contents p) = .ok (.ok c)) s cs := by
  induction s with
  | nil => exact ⟨[], .nil⟩
  | cons p s ih =>
    obtain ⟨cs, hf⟩ := ih fun q hq => h q (List.mem_cons_of_mem _ hq)
    obtain ⟨bytes, h1, h2⟩ := h p List.mem_cons_self
    obtain ⟨c, h3, -⟩ := C48_read bytes h2
    exact ⟨c :: cs, .cons (by rw [h1]; exact h3) hf⟩

/-- The first element with a property. -/
lemma first_bad {s : List P} {Q : P → Prop} (h : ¬ ∀ p ∈ s, Q p) :
    ∃ s1 p s2, s = s1 ++ p :: s2 ∧ (∀ q ∈ s1, Q q) ∧ ¬ Q p := by
  induction s with
  | nil => simp at h
  | cons a s ih =>
    by_cases ha : Q a
    · obtain ⟨s1, p, s2, h1, h2, h3⟩ := ih fun hs => h fun p hp => by
        rcases List.mem_cons.mp hp with rfl | hp
        · exact ha
        · exact hs p hp
      refine ⟨a :: s1, p, s2, by rw [h1]; rfl, fun q hq => ?_, h3⟩
      rcases List.mem_cons.mp hq with rfl | hq
      · exact ha
      · exact h2 q hq
    · exact ⟨[], a, s, rfl, by simp, ha⟩

lemma oxts_error (ho : SortedListing so po) (h : ¬ ∀ p ∈ so, GoodOxt env (d.oxtFile p)) :
    ∃ e, readOxtDir env (.ok (po.map .ok)) d.oxtFile = .error e := by
  obtain ⟨s1, p, s2, rfl, h1, h2⟩ := first_bad h
  obtain ⟨fixes, hf⟩ := recorded_of_good h1
  cases hp : d.oxtFile p with
  | error e => exact ⟨e, C51_first_error ho hf (.inl hp)⟩
  | ok text =>
    refine ⟨_, C51_first_error ho hf (.inr ⟨rfl, text, hp, ?_⟩)⟩
    rintro ⟨fix, rot, hr⟩
    exact h2 ⟨text, fix, rot, hp, hr⟩

lemma velodyne_error (hv : SortedListing sv pv) (h : ¬ ∀ p ∈ sv, GoodCloud (d.velodyneFile p)) :
    ∃ e, readCloudDir (.ok (pv.map .ok)) d.velodyneFile = .ok (.error e) := by
  obtain ⟨s1, p, s2, rfl, h1, h2⟩ := first_bad h
  have h1' : ∀ q ∈ s1, ∃ c, readCloud (d.velodyneFile q) = .ok (.ok c) := by
    intro q hq
    obtain ⟨bytes, h3, h4⟩ := h1 q hq
    obtain ⟨c, h5, -⟩ := C48_read bytes h4
    exact ⟨c, by rw [h3]; exact h5⟩
  cases hp : d.velodyneFile p with
  | error e => exact ⟨e, C49_first_error _ hv h1' (by rw [hp]; exact C48_io_error e)⟩
  | ok bytes =>
    exact ⟨_, C49_first_error _ hv h1' (by
      rw [hp]; exact C48_invalid bytes fun h16 => h2 ⟨bytes, hp, h16⟩)⟩

lemma velodyne_ok (hv : SortedListing sv pv) (h : ∀ p ∈ sv, GoodCloud (d.velodyneFile p)) :
    ∃ cs, readCloudDir (.ok (pv.map .ok)) d.velodyneFile = .ok (.ok cs) ∧ cs.length = pv.length ∧
      List.Forall₂ (fun p c => readCloud (d.velodyneFile p) = .ok (.ok c)) sv cs := by
  obtain ⟨cs, h1⟩ := clouds_of_good h
  exact ⟨cs, (C49_success _ hv cs).mpr h1, by rw [← h1.length_eq, hv.1.length_eq], h1⟩

lemma main_ok {rs : Recordings} (h : main env (some (some d)) = .ok (.window rs)) :
    ∃ poses clouds, readOxtDir env d.oxts d.oxtFile = .ok poses ∧
      readCloudDir d.velodyne d.velodyneFile = .ok (.ok clouds) ∧ clouds.length = poses.length ∧
      rs = ⟨poses, (clouds.zip poses).map fun cp => (decodeCloud cp.1).transform cp.2.toHomogeneous⟩ := by
  unfold main at h
  simp only at h
  cases h1 : readOxtDir env d.oxts d.oxtFile with
  | error e => rw [h1] at h; cases h
  | ok poses =>
    rw [h1] at h
    simp only at h
    rw [M.bind_eq_ok] at h
    obtain ⟨r, h2, h3⟩ := h
    cases r with
    | error e => cases h3
    | ok clouds =>
      simp only at h3
      split_ifs at h3 with h4
      refine ⟨poses, clouds, rfl, h2, not_not.mp h4, ?_⟩
      injection h3 with h3
      injection h3 with h3
      exact h3.symm

/-- C60: with both directories listed, the window opens exactly if every file of `oxts/data` is a
record, every file of `velodyne_points/data` is a sequence of points and there are as many of both;
otherwise the program panics. -/
theorem C60_window_iff (h1 : d.oxts = .ok (po.map .ok)) (h2 : d.velodyne = .ok (pv.map .ok)) :
    ((∃ rs, main env (some (some d)) = .ok (.window rs)) ↔
      (∀ p ∈ po, GoodOxt env (d.oxtFile p)) ∧ (∀ p ∈ pv, GoodCloud (d.velodyneFile p)) ∧
        po.length = pv.length) ∧
    ((∃ rs, main env (some (some d)) = .ok (.window rs)) ∨
      ∃ e, main env (some (some d)) = .error (.panic e)) := by
  obtain ⟨so, ho, -⟩ := seqFiles_spec po
  obtain ⟨sv, hv, -⟩ := seqFiles_spec pv
  have mo : (∀ p ∈ po, GoodOxt env (d.oxtFile p)) ↔ ∀ p ∈ so, GoodOxt env (d.oxtFile p) :=
    ⟨fun h p hp => h p (ho.1.mem_iff.mp hp), fun h p hp => h p (ho.1.mem_iff.mpr hp)⟩
  have mv : (∀ p ∈ pv, GoodCloud (d.velodyneFile p)) ↔ ∀ p ∈ sv, GoodCloud (d.velodyneFile p) :=
    ⟨fun h p hp => h p (hv.1.mem_iff.mp hp), fun h p hp => h p (hv.1.mem_iff.mpr hp)⟩
  rw [mo, mv]
  by_cases g1 : ∀ p ∈ so, GoodOxt env (d.oxtFile p)
  · obtain ⟨fixes, hf⟩ := recorded_of_good g1
    obtain ⟨poses, e1, e2, -⟩ := C51_poses ho hf
    by_cases g2 : ∀ p ∈ sv, GoodCloud (d.velodyneFile p)
    · obtain ⟨cs, e3, e4, -⟩ := velodyne_ok hv g2
      by_cases g3 : po.length = pv.length
      · have : ∃ rs, main env (some (some d)) = .ok (.window rs) := by
          unfold main
          simp only [h1, h2, e1, e3, M.bind_ok]
          rw [if_neg (by omega)]
          exact ⟨_, rfl⟩
        exact ⟨⟨fun _ => ⟨g1, g2, g3⟩, fun _ => this⟩, .inl this⟩
      · have : main env (some (some d)) = .error (.panic .assertion) := by
          unfold main
          simp only [h1, h2, e1, e3, M.bind_ok]
          rw [if_pos (by omega)]
        exact ⟨⟨fun ⟨rs, h⟩ => (by rw [this] at h; cases h), fun h => absurd h.2.2 g3⟩, .inr ⟨_, this⟩⟩
    · obtain ⟨e, e3⟩ := velodyne_error hv g2
      have : main env (some (some d)) = .error (.panic .unwrap) := by
        unfold main
        simp only [h1, h2, e1, e3, M.bind_ok]
      exact ⟨⟨fun ⟨rs, h⟩ => (by rw [this] at h; cases h), fun h => absurd h.2.1 g2⟩, .inr ⟨_, this⟩⟩
  · obtain ⟨e, e1⟩ := oxts_error ho g1
    have : main env (some (some d)) = .error (.panic .unwrap) := by
      unfold main
      simp only [h1, e1]
    exact ⟨⟨fun ⟨rs, h⟩ => (by rw [this] at h; cases h), fun h => absurd h.1 g1⟩, .inr ⟨_, this⟩⟩

/-- The points of the file moved by the pose: the three first numbers of each 16 bytes. -/
noncomputable def fileCloud (bytes : List (BitVec 8)) (pose : Pose F32 (Quat F32)) : List (Point 3 F32) :=
  (PointCloud.fromPoints ((List.range (bytes.length / 16)).map fun j => fun i : Fin 3 =>
    f32OfBits (wordAt bytes (16 * j + 4 * i.val)))).transform pose.toHomogeneous |>.points

lemma decode_points (c : PointCloud 3 (BitVec 32)) :
    (decodeCloud c).points = c.points.map fun x i => f32OfBits (x i) := by
  unfold PointCloud.points
  rw [List.map_ofFn]
  congr 1
  funext j i
  simp [PointCloud.column, decodeCloud, Function.comp]

/-- C60: when the window opens, there is one recording per file. Recording `k` has the `k`-th file of
each directory in path order: its sensor position is the offset of the `k`-th fix from the first (zero
for the first), its points are those of the `k`-th cloud file, moved by the pose with that position
and the `k`-th record's angles. -/
theorem C60_recordings (ho : SortedListing so po) (hv : SortedListing sv pv)
    (h1 : d.oxts = .ok (po.map .ok)) (h2 : d.velodyne = .ok (pv.map .ok)) {rs : Recordings}
    (h : main env (some (some d)) = .ok (.window rs)) :
    rs.poses.length = po.length ∧ rs.clouds.length = po.length ∧
    ∀ (k : ℕ) (p q : P), so[k]? = some p → sv[k]? = some q →
      ∃ text fix rot p0 text0 fix0 rot0 bytes pose,
        d.oxtFile p = .ok text ∧ Record env text fix rot ∧
        so[0]? = some p0 ∧ d.oxtFile p0 = .ok text0 ∧ Record env text0 fix0 rot0 ∧
        d.velodyneFile q = .ok bytes ∧ 16 ∣ bytes.length ∧
        rs.poses[k]? = some pose ∧ pose.rotation = rot ∧
        pose.translation = (if k = 0 then fun _ => Fp.lit 0 else gpsToMeters env fix fix0) ∧
        (rs.get k).1 = pose.translation ∧ (rs.get k).2.points = fileCloud bytes pose := by
  have hgood := ((C60_window_iff (env := env) h1 h2).1.mp ⟨rs, h⟩)
  obtain ⟨go, gv, gl⟩ := hgood
  obtain ⟨fixes, hf⟩ := recorded_of_good (s := so) fun p hp => go p (ho.1.mem_iff.mp hp)
  obtain ⟨poses, e1, e2, e3, e4, e5⟩ := C51_poses ho hf
  obtain ⟨cs, f1, f2, f3⟩ := velodyne_ok (d := d) hv fun p hp => gv p (hv.1.mem_iff.mp hp)
  obtain ⟨poses', clouds', m1, m2, m3, m4⟩ := main_ok h
  rw [h1] at m1
  rw [h2] at m2
  have : poses = poses' := Except.ok.inj (e1.symm.trans m1)
  subst this
  have : cs = clouds' := Except.ok.inj (Except.ok.inj (f1.symm.trans m2))
  subst this
  subst m4
  refine ⟨e2, by simp [m3, e2], fun k p q hp hq => ?_⟩
  have hk : k < so.length := (List.getElem?_eq_some_iff.mp hp).1
  have hfl := hf.length_eq
  have hsl := ho.1.length_eq
  have hkf : k < fixes.length := by omega
  have hkp : k < poses.length := by omega
  have hkc : k < cs.length := by omega
  have hfk := (List.forall₂_iff_get.mp hf).2 k hk hkf
  have hf0 := (List.forall₂_iff_get.mp hf).2 0 (by omega) (by omega)
  have hck := (List.forall₂_iff_get.mp f3).2 k (List.getElem?_eq_some_iff.mp hq).1 hkc
  simp only [List.get_eq_getElem] at hfk hf0 hck
  obtain ⟨text, t1, t2⟩ := hfk
  obtain ⟨text0, z1, z2⟩ := hf0
  have ep : so[k] = p := (List.getElem?_eq_some_iff.mp hp).2
  have eq' : sv[k]'(List.getElem?_eq_some_iff.mp hq).1 = q := (List.getElem?_eq_some_iff.mp hq).2
  rw [ep] at t1
  rw [eq'] at hck
  obtain ⟨bytes, b1, b2⟩ := gv q (hv.1.mem_iff.mp (List.mem_of_getElem? hq))
  obtain ⟨c, c1, c2, c3⟩ := C48_read bytes b2
  rw [b1, c1] at hck
  have hc : c = cs[k] := Except.ok.inj (Except.ok.inj hck)
  refine ⟨text, fixes[k].1, fixes[k].2, so[0], text0, fixes[0].1, fixes[0].2, bytes, poses[k],
    t1, t2, List.getElem?_eq_getElem _, z1, z2, b1, b2, List.getElem?_eq_getElem _,
    e3 k _ _ (List.getElem?_eq_getElem hkp) (List.getElem?_eq_getElem hkf), ?_, ?_, ?_⟩
  · split_ifs with h0
    · subst h0
      funext i
      exact e4 _ (List.getElem?_eq_getElem hkp) i
    · exact e5 k _ _ _ (by omega) (List.getElem?_eq_getElem hkp) (List.getElem?_eq_getElem hkf)
        (List.getElem?_eq_getElem _)
  · simp only [Recordings.get]
    rw [List.getElem?_eq_getElem hkp]
    rfl
  · have hz : k < (cs.zip poses).length := by simp; omega
    simp only [Recordings.get]
    rw [List.getElem?_eq_getElem (by simpa using hz), Option.getD_some, List.getElem_map,
      List.getElem_zip]
    simp only [fileCloud]
    congr 1
    unfold PointCloud.transform
    congr 2
    rw [decode_points, C13_points_fromPoints, ← hc]
    apply List.ext_getElem?
    intro j
    rw [List.getElem?_map, List.getElem?_map]
    by_cases hj : j < bytes.length / 16
    · rw [c3 j hj, List.getElem?_range hj]
      rfl
    · rw [List.getElem?_eq_none (by omega), List.getElem?_eq_none (by simp; omega)]
      rfl

/-- C60: files are paired by position only. If the directories list the same names (as a KITTI
recording does), files of the same name are paired. -/
theorem C60_same_names (ho : SortedListing so po) (hv : SortedListing sv pv) (h : po.Perm pv)
    (k : ℕ) : so[k]? = sv[k]? := by
  rw [sorted_unique ho hv h]

/-- C60: without an argument the program panics; with one that is not a folder it ends. An unreadable
subfolder is a panic. -/
theorem C60_bad_folder (e : IoErr) :
    main (P := P) env none = .error (.panic .index) ∧
    main (P := P) env (some none) = .ok .invalidFolder ∧
    (d.oxts = .error e → main env (some (some d)) = .error (.panic .unwrap)) ∧
    (d.oxts = .ok (po.map .ok) → (∀ p ∈ po, GoodOxt env (d.oxtFile p)) → d.velodyne = .error e →
      main env (some (some d)) = .error (.panic .unwrap)) := by
  refine ⟨rfl, rfl, fun h => ?_, fun h1 h2 h3 => ?_⟩
  · unfold main
    simp only [h]
    rfl
  · obtain ⟨so, ho, -⟩ := seqFiles_spec po
    obtain ⟨fixes, hf⟩ := recorded_of_good (s := so) fun p hp => h2 p (ho.1.mem_iff.mp hp)
    obtain ⟨poses, e1, -⟩ := C51_poses ho hf
    unfold main
    simp only [h1, h3, e1, (C49_listing_error _ e [] []).1, M.bind_ok]

/-- A reader for which every text is a number. -/
def oneEnv : OxtEnv F64 F32 (Quat F32) :=
  ⟨fun _ => some (Fp.lit 1), fun _ => some (Fp.lit 1), id, Fp.lit 1, fun _ => Fp.lit 1,
    fun _ _ _ => ⟨Fp.lit 1, Fp.lit 0, Fp.lit 0, Fp.lit 0⟩⟩

/-- A folder with two files in each subfolder, with different names. -/
def oddFolder : Folder ℕ :=
  ⟨.ok [.ok 2, .ok 1], fun _ => .ok "1 2 3 4 5 6".toList, .ok [.ok 2, .ok 3],
    fun _ => .ok (List.replicate 16 0)⟩

lemma oddFolder_good : GoodOxt oneEnv (.ok "1 2 3 4 5 6".toList) :=
  ⟨_, ⟨Fp.lit 1, Fp.lit 1, Fp.lit 1⟩, _, rfl, ['1'], ['2'], ['3'], ['4'], ['5'], ['6'], [], _, _, _,
    fields_iff.mpr (by decide), rfl, rfl, rfl, rfl, rfl, rfl, rfl⟩

/-- C60, limit: the names are not compared. In a folder where file 3 of `oxts/data` and file 1 of
`velodyne_points/data` are missing the window opens all the same, with pose 1 for cloud 2. -/
theorem C60_names_not_checked : ∃ rs, main oneEnv (some (some oddFolder)) = .ok (.window rs) ∧
    SortedListing [1, 2] [2, 1] ∧ SortedListing [2, 3] [2, 3] ∧
    ([1, 2] : List ℕ)[0]? = some 1 ∧ ([2, 3] : List ℕ)[0]? = some 2 := by
  obtain ⟨rs, h⟩ := (C60_window_iff (env := oneEnv) (d := oddFolder) (po := [2, 1]) (pv := [2, 3]) rfl
    rfl).1.mpr ⟨fun p _ => oddFolder_good, fun p _ => ⟨_, rfl, by decide⟩, rfl⟩
  exact ⟨rs, h, ⟨by decide, by decide⟩, ⟨by decide, by decide⟩, rfl, rfl⟩

/-- The hypotheses of `C60_window_iff` and `C60_recordings` hold for that folder. -/
example : oddFolder.oxts = .ok ([2, 1].map .ok) ∧ oddFolder.velodyne = .ok ([2, 3].map .ok) ∧
    SortedListing [1, 2] [2, 1] ∧ SortedListing [2, 3] [2, 3] ∧
    ∃ rs, main oneEnv (some (some oddFolder)) = .ok (.window rs) :=
  ⟨rfl, rfl, ⟨by decide, by decide⟩, ⟨by decide, by decide⟩, let ⟨rs, h, _⟩ := C60_names_not_checked; ⟨rs, h⟩⟩

variable {Map Cell Pt : Type} [DecidableEq Cell] {ops : MapOps Map Cell Pt} {m₀ : Map}

/-- C60: while the window is open, with at least one recording, the marker can always be drawn: it is at
the pose of the recording whose turn is next, which is the one after the recording last handed to a
worker. -/
theorem C60_marker {rs : Recordings} (h : main env (some (some d)) = .ok (.window rs))
    (hn : 0 < rs.clouds.length) {s : State Map Cell Pt} (hs : Reach ops rs.clouds.length m₀ s) :
    ∃ pose, markerPose rs s.index = .ok pose ∧ rs.poses[s.index]? = some pose ∧
      ∀ (k : ℕ) pc r, s.workers[k]? = some (pc, r) → k + 1 = s.workers.length →
        s.index = (r + 1) % rs.clouds.length := by
  obtain ⟨poses, clouds, -, -, h3, rfl⟩ := main_ok h
  simp only [List.length_map, List.length_zip, h3, min_self] at hn hs ⊢
  obtain ⟨h4, h5, h6⟩ := C54_cyclic hs hn
  refine ⟨poses[s.index], ?_, List.getElem?_eq_getElem h5, ?_⟩
  · simp only [markerPose]
    rw [List.getElem?_eq_getElem h5]
  · intro k pc r hk hl
    rw [h6 k pc r hk, h4, ← hl]
    simp [Nat.add_mod]

end C60

/-! ## C61 -/

section C61

/-- The value with exponent field `e` and fraction field `m`. -/
def magEM (e m : ℕ) : ℚ :=
  if e = 0 then (m : ℚ) * 2 ^ (-149 : ℤ) else (2 ^ 23 + (m : ℚ)) * 2 ^ ((e : ℤ) - 150)

/-- The value of the word with sign bit zero. -/
def mag (k : ℕ) : ℚ := magEM (k / 2 ^ 23) (k % 2 ^ 23)

lemma magEM_succ (e m : ℕ) : magEM e m < magEM e (m + 1) := by
  unfold magEM
  have p1 : (0 : ℚ) < 2 ^ (-149 : ℤ) := by positivity
  have p2 : (0 : ℚ) < 2 ^ ((e : ℤ) - 150) := by positivity
  split_ifs
  · push_cast; linarith
  · push_cast; linarith

lemma magEM_carry (e : ℕ) : magEM e (2 ^ 23 - 1) < magEM (e + 1) 0 := by
  unfold magEM
  rw [if_neg (Nat.succ_ne_zero e)]
  split_ifs with h
  · subst h; norm_num [zpow_neg]
  · have e1 : (((e + 1 : ℕ) : ℤ) - 150) = (e : ℤ) - 150 + 1 := by push_cast; ring
    rw [e1, zpow_add_one₀ (by norm_num)]
    have : (0 : ℚ) < 2 ^ ((e : ℤ) - 150) := by positivity
    generalize (2 : ℚ) ^ ((e : ℤ) - 150) = z at *
    norm_num
    linarith

lemma mag_strictMono : StrictMono mag := by
  apply strictMono_nat_of_lt_succ
  intro k
  unfold mag
  by_cases hm : k % 2 ^ 23 = 2 ^ 23 - 1
  · have h1 : (k + 1) / 2 ^ 23 = k / 2 ^ 23 + 1 := by omega
    have h2 : (k + 1) % 2 ^ 23 = 0 := by omega
    rw [h1, h2, hm]
    exact magEM_carry _
  · have h1 : (k + 1) / 2 ^ 23 = k / 2 ^ 23 := by omega
    have h2 : (k + 1) % 2 ^ 23 = k % 2 ^ 23 + 1 := by omega
    rw [h1, h2]
    exact magEM_succ _ _

lemma mag_zero : mag 0 = 0 := by simp [mag, magEM]

lemma mag_rep {k : ℕ} (h : k < 255 * 2 ^ 23) : b32.Rep (mag k) := by
  unfold mag
  have h0 : k % 2 ^ 23 < 2 ^ 23 := Nat.mod_lt _ (by norm_num)
  have h1 : k / 2 ^ 23 < 255 := by omega
  generalize k % 2 ^ 23 = m at *
  generalize k / 2 ^ 23 = e at *
  have hm : (m : ℤ) < 8388608 := by norm_num at h0; omega
  unfold magEM
  split_ifs with h2
  · refine ⟨m, -149, ?_, by simp [b32], by simp [b32], by push_cast; ring⟩
    simp only [b32, Nat.abs_cast]; norm_num; omega
  · refine ⟨2 ^ 23 + m, (e : ℤ) - 150, ?_, ?_, ?_, ?_⟩
    · rw [abs_of_nonneg (by positivity)]
      simp only [b32]
      norm_num
      omega
    · simp only [b32]; omega
    · simp only [b32]; omega
    · push_cast; ring

/-- The decoding by magnitude and sign. -/
lemma f32OfBits_eq (b : BitVec 32) : f32OfBits b =
    if b.toNat % 2 ^ 31 < 255 * 2 ^ 23 then
      Fp.ofRat b.msb (if b.msb then -mag (b.toNat % 2 ^ 31) else mag (b.toNat % 2 ^ 31))
    else if b.toNat % 2 ^ 31 = 255 * 2 ^ 23 then .inf b.msb else .nan := by
  have hb := b.isLt
  have h1 : b.toNat / 2 ^ 23 % 256 = b.toNat % 2 ^ 31 / 2 ^ 23 := by omega
  have h2 : b.toNat % 2 ^ 23 = b.toNat % 2 ^ 31 % 2 ^ 23 := by omega
  unfold f32OfBits
  simp only [h1, h2]
  have h3 : b.toNat % 2 ^ 31 < 2 ^ 31 := Nat.mod_lt _ (by norm_num)
  generalize b.toNat % 2 ^ 31 = k at *
  by_cases hk : k < 255 * 2 ^ 23
  · rw [if_neg (by omega), if_pos hk]
    rfl
  · rw [if_pos (by omega), if_neg hk]
    by_cases hk2 : k = 255 * 2 ^ 23
    · rw [if_pos (by omega), if_pos hk2]
    · rw [if_neg (by omega), if_neg hk2]

lemma ofRat_rep_eq {zs : Bool} {q : ℚ} (h : b32.Rep q) :
    (Fp.ofRat zs q : F32) = .fin q (decide (q = 0) && zs) h (by simp +contextual) := by
  unfold Fp.ofRat
  have h1 := Fmt.rnd_of_rep h
  have h2 : |b32.rnd q| < 2 ^ b32.emax := by rw [h1]; exact Fmt.rep_abs_lt h
  rw [dif_pos h2]
  by_cases hq : q = 0
  · subst hq; simp
  · simp [h1, hq]

lemma rep_neg {q : ℚ} (h : b32.Rep q) : b32.Rep (-q) := by
  obtain ⟨m, e, h1, h2, h3, h4⟩ := h
  exact ⟨-m, e, by rwa [abs_neg], h2, h3, by rw [h4]; push_cast; ring⟩

/-- Every magnitude occurs. -/
lemma mag_onto {q : ℚ} (h : b32.Rep q) (h0 : 0 ≤ q) : ∃ k, k < 255 * 2 ^ 23 ∧ mag k = q := by
  obtain ⟨m, e, h1, h2, h3, h4⟩ := h
  simp only [b32] at h1 h2 h3
  obtain ⟨n, hn⟩ : ∃ n : ℕ, e = -149 + n := ⟨(e + 149).toNat, by omega⟩
  have hm0 : 0 ≤ m := by
    by_contra hc
    have : (m : ℚ) < 0 := by exact_mod_cast not_le.mp hc
    have p : (0 : ℚ) < 2 ^ e := by positivity
    nlinarith
  obtain ⟨M, rfl⟩ := Int.eq_ofNat_of_zero_le hm0
  have hM : M < 2 ^ 24 := by
    rw [abs_of_nonneg hm0] at h1
    exact_mod_cast h1
  subst hn
  clear h1 h2 hm0 h0
  induction n generalizing M with
  | zero =>
    refine ⟨M, by omega, ?_⟩
    rw [h4]
    by_cases hs : M < 2 ^ 23
    · have e1 : M / 2 ^ 23 = 0 := by omega
      have e2 : M % 2 ^ 23 = M := by omega
      simp only [mag, magEM, e1, e2]
      simp
    · have e1 : M / 2 ^ 23 = 1 := by omega
      have e2 : M % 2 ^ 23 = M - 2 ^ 23 := by omega
      simp only [mag, magEM, e1, e2]
      rw [Nat.cast_sub (by omega)]
      norm_num
  | succ n ih =>
    by_cases hs : M < 2 ^ 23
    · refine ih (M := 2 * M) (h3 := by push_cast at h3 ⊢; omega) (h4 := ?_) (hM := by omega)
      rw [h4]
      have e1 : (-149 + ((n + 1 : ℕ) : ℤ)) = -149 + (n : ℤ) + 1 := by push_cast; ring
      rw [e1, zpow_add_one₀ (by norm_num)]
      push_cast
      ring
    · refine ⟨(n + 2) * 2 ^ 23 + (M - 2 ^ 23), ?_, ?_⟩
      · push_cast at h3; omega
      · have e1 : ((n + 2) * 2 ^ 23 + (M - 2 ^ 23)) / 2 ^ 23 = n + 2 := by omega
        have e2 : ((n + 2) * 2 ^ 23 + (M - 2 ^ 23)) % 2 ^ 23 = M - 2 ^ 23 := by omega
        simp only [mag, magEM, e1, e2]
        rw [if_neg (by omega), Nat.cast_sub (by omega), h4]
        have e3 : (((n + 2 : ℕ) : ℤ) - 150) = -149 + ((n + 1 : ℕ) : ℤ) + 0 := by push_cast; ring
        rw [e3, add_zero]
        push_cast
        ring

lemma toNat_parts (b : BitVec 32) : b.toNat = (if b.msb then 2 ^ 31 else 0) + b.toNat % 2 ^ 31 := by
  have hb := b.isLt
  rw [BitVec.msb_eq_decide]
  split_ifs with h
  · simp only [decide_eq_true_eq] at h; omega
  · simp only [decide_eq_true_eq] at h; omega

lemma word_parts (s : Bool) {k : ℕ} (hk : k < 2 ^ 31) :
    ∃ b : BitVec 32, b.msb = s ∧ b.toNat % 2 ^ 31 = k := by
  refine ⟨BitVec.ofNat 32 ((if s then 2 ^ 31 else 0) + k), ?_, ?_⟩
  · rw [BitVec.msb_eq_decide, BitVec.toNat_ofNat]
    cases s
    · simp only [Bool.false_eq_true, if_false, decide_eq_false_iff_not]; omega
    · simp only [if_true, decide_eq_true_eq]; omega
  · rw [BitVec.toNat_ofNat]
    split_ifs <;> omega

/-- C61: every `f32` value is the decoding of a word. -/
theorem C61_onto (x : F32) : ∃ b, f32OfBits b = x := by
  match x with
  | .nan =>
    obtain ⟨b, h1, h2⟩ := word_parts false (k := 255 * 2 ^ 23 + 1) (by norm_num)
    exact ⟨b, by rw [f32OfBits_eq, h2]; simp⟩
  | .inf s =>
    obtain ⟨b, h1, h2⟩ := word_parts s (k := 255 * 2 ^ 23) (by norm_num)
    exact ⟨b, by rw [f32OfBits_eq, h2, h1]; simp⟩
  | .fin q nz h hz =>
    by_cases hneg : q < 0 ∨ nz = true
    · obtain ⟨k, h1, h2⟩ := mag_onto (rep_neg h) (by
        rcases hneg with h' | h'
        · linarith
        · rw [hz h']; norm_num)
      obtain ⟨b, h3, h4⟩ := word_parts true (k := k) (by omega)
      refine ⟨b, ?_⟩
      rw [f32OfBits_eq, h3, h4, if_pos h1, if_pos rfl, h2, neg_neg, ofRat_rep_eq h]
      congr 1
      rcases hneg with h' | h'
      · have : nz = false := by
          cases nz
          · rfl
          · exact absurd (hz rfl) h'.ne
        simp [this, h'.ne]
      · simp [h', hz h']
    · obtain ⟨k, h1, h2⟩ := mag_onto h (by by_contra hc; exact hneg (.inl (not_le.mp hc)))
      obtain ⟨b, h3, h4⟩ := word_parts false (k := k) (by omega)
      refine ⟨b, ?_⟩
      rw [f32OfBits_eq, h3, h4, if_pos h1, if_neg (by simp), h2, ofRat_rep_eq h]
      congr 1
      have : nz = false := by
        cases nz
        · rfl
        · exact absurd (.inr rfl) hneg
      simp [this]

/-- C61: two words with the same value, other than NaN, are the same. -/
theorem C61_one_to_one {b b' : BitVec 32} (h : f32OfBits b = f32OfBits b')
    (hn : f32OfBits b ≠ .nan) : b = b' := by
  have hn' : f32OfBits b' ≠ .nan := h ▸ hn
  suffices H : b.msb = b'.msb ∧ b.toNat % 2 ^ 31 = b'.toNat % 2 ^ 31 by
    apply BitVec.eq_of_toNat_eq
    rw [toNat_parts b, toNat_parts b', H.1, H.2]
  rw [f32OfBits_eq] at hn hn'
  rw [f32OfBits_eq b, f32OfBits_eq b'] at h
  generalize b.toNat % 2 ^ 31 = k at *
  generalize b'.toNat % 2 ^ 31 = k' at *
  generalize b.msb = s at *
  generalize b'.msb = s' at *
  by_cases hk : k < 255 * 2 ^ 23 <;> by_cases hk' : k' < 255 * 2 ^ 23
  · rw [if_pos hk, if_pos hk'] at h
    have r1 : b32.Rep (if s then -mag k else mag k) := by
      split_ifs
      · exact rep_neg (mag_rep hk)
      · exact mag_rep hk
    have r2 : b32.Rep (if s' then -mag k' else mag k') := by
      split_ifs
      · exact rep_neg (mag_rep hk')
      · exact mag_rep hk'
    rw [ofRat_rep_eq r1, ofRat_rep_eq r2] at h
    injection h with e1 e2
    have n1 : 0 ≤ mag k := mag_zero ▸ mag_strictMono.monotone (Nat.zero_le k)
    have n2 : 0 ≤ mag k' := mag_zero ▸ mag_strictMono.monotone (Nat.zero_le k')
    cases s <;> cases s' <;> simp only [Bool.false_eq_true, if_true, if_false] at e1 e2
    · exact ⟨rfl, mag_strictMono.injective e1⟩
    · have z : mag k = 0 := by linarith
      have z' : mag k' = 0 := by linarith
      simp [z, z'] at e2
    · have z : mag k = 0 := by linarith
      have z' : mag k' = 0 := by linarith
      simp [z, z'] at e2
    · exact ⟨rfl, mag_strictMono.injective (by linarith)⟩
  · exfalso
    rw [if_pos hk, if_neg hk'] at h
    rw [if_neg hk'] at hn'
    have r1 : b32.Rep (if s then -mag k else mag k) := by
      split_ifs
      · exact rep_neg (mag_rep hk)
      · exact mag_rep hk
    rw [ofRat_rep_eq r1] at h
    by_cases c : k' = 255 * 2 ^ 23
    · rw [if_pos c] at h; cases h
    · rw [if_neg c] at h; cases h
  · exfalso
    rw [if_neg hk, if_pos hk'] at h
    have r2 : b32.Rep (if s' then -mag k' else mag k') := by
      split_ifs
      · exact rep_neg (mag_rep hk')
      · exact mag_rep hk'
    rw [ofRat_rep_eq r2] at h
    by_cases c : k = 255 * 2 ^ 23
    · rw [if_pos c] at h; cases h
    · rw [if_neg c] at h; cases h
  · rw [if_neg hk] at hn h
    rw [if_neg hk'] at hn' h
    split_ifs at h hn hn' with c1 c2
    · injection h with h
      exact ⟨h, by omega⟩
    all_goals simp at hn hn'

/-- C61: finite values with sign bit zero are ordered as their words; the value of the word with the sign
bit set is the negative. -/
theorem C61_order {b b' : BitVec 32} {q q' : ℚ} (h : (f32OfBits b).Is q) (h' : (f32OfBits b').Is q')
    (hs : b.msb = false) :
    (b'.msb = false → (q < q' ↔ b.toNat < b'.toNat)) ∧
    (b'.toNat = b.toNat + 2 ^ 31 → q' = -q) := by
  have key : ∀ {c : BitVec 32} {r : ℚ}, (f32OfBits c).Is r →
      c.toNat % 2 ^ 31 < 255 * 2 ^ 23 ∧
        r = if c.msb then -mag (c.toNat % 2 ^ 31) else mag (c.toNat % 2 ^ 31) := by
    intro c r hc
    rw [f32OfBits_eq] at hc
    by_cases h1 : c.toNat % 2 ^ 31 < 255 * 2 ^ 23
    · rw [if_pos h1] at hc
      refine ⟨h1, ?_⟩
      have r1 : b32.Rep (if c.msb then -mag (c.toNat % 2 ^ 31) else mag (c.toNat % 2 ^ 31)) := by
        split_ifs
        · exact rep_neg (mag_rep h1)
        · exact mag_rep h1
      exact hc.unique (Fp.ofRat_is_rep r1)
    · rw [if_neg h1] at hc
      have := hc.isFin
      by_cases h2 : c.toNat % 2 ^ 31 = 255 * 2 ^ 23
      · rw [if_pos h2] at this; simp [Fp.isFin] at this
      · rw [if_neg h2] at this; simp [Fp.isFin] at this
  obtain ⟨k1, k2⟩ := key h
  obtain ⟨k1', k2'⟩ := key h'
  have p := toNat_parts b
  have p' := toNat_parts b'
  rw [hs] at p k2
  simp only [Bool.false_eq_true, if_false, zero_add] at p k2
  constructor
  · intro hs'
    rw [hs'] at p' k2'
    simp only [Bool.false_eq_true, if_false, zero_add] at p' k2'
    rw [k2, k2', mag_strictMono.lt_iff_lt, ← p, ← p']
  · intro he
    have hm : b'.msb = true := by
      rw [BitVec.msb_eq_decide, decide_eq_true_eq]; omega
    rw [hm] at k2'
    simp only [if_true] at k2'
    rw [k2, k2']
    congr 2
    omega

/-- C61: the words above `0x7f800000` (without the sign bit) are NaN, that one is the infinity of the
sign bit, the ones below are finite; setting the sign bit negates, also zero and infinity. -/
theorem C61_special (b : BitVec 32) :
    (f32OfBits b = .nan ↔ 0x7f800000 < b.toNat % 2 ^ 31) ∧
    (∀ s, f32OfBits b = .inf s ↔ b.toNat % 2 ^ 31 = 0x7f800000 ∧ b.msb = s) ∧
    ((f32OfBits b).isFin = true ↔ b.toNat % 2 ^ 31 < 0x7f800000) ∧
    ∀ b' : BitVec 32, b.msb = false → b'.toNat = b.toNat + 2 ^ 31 → f32OfBits b' = (f32OfBits b).neg := by
  have e : (0x7f800000 : ℕ) = 255 * 2 ^ 23 := by norm_num
  rw [e]
  have r : b.toNat % 2 ^ 31 < 255 * 2 ^ 23 →
      b32.Rep (if b.msb then -mag (b.toNat % 2 ^ 31) else mag (b.toNat % 2 ^ 31)) := by
    intro h
    split_ifs
    · exact rep_neg (mag_rep h)
    · exact mag_rep h
  have three : (f32OfBits b = .nan ↔ 255 * 2 ^ 23 < b.toNat % 2 ^ 31) ∧
      (∀ s, f32OfBits b = .inf s ↔ b.toNat % 2 ^ 31 = 255 * 2 ^ 23 ∧ b.msb = s) ∧
      ((f32OfBits b).isFin = true ↔ b.toNat % 2 ^ 31 < 255 * 2 ^ 23) := by
    rw [f32OfBits_eq]
    by_cases h : b.toNat % 2 ^ 31 < 255 * 2 ^ 23
    · rw [if_pos h, ofRat_rep_eq (r h)]
      refine ⟨⟨(fun h' => nomatch h'), fun h' => by omega⟩,
        fun s => ⟨(fun h' => nomatch h'), fun h' => by omega⟩, by simp only [Fp.isFin, Bool.false_eq_true, true_iff, false_iff]; omega⟩
    · rw [if_neg h]
      by_cases h2 : b.toNat % 2 ^ 31 = 255 * 2 ^ 23
      · rw [if_pos h2]
        refine ⟨⟨(fun h' => nomatch h'), fun h' => by omega⟩, fun s => ?_, by simp only [Fp.isFin, Bool.false_eq_true, true_iff, false_iff]; omega⟩
        constructor
        · intro h'; injection h' with h'; exact ⟨h2, h'⟩
        · rintro ⟨-, rfl⟩; rfl
      · rw [if_neg h2]
        exact ⟨⟨fun _ => by omega, fun _ => rfl⟩, fun s => ⟨(fun h' => nomatch h'), fun h' => by omega⟩,
          by simp only [Fp.isFin, Bool.false_eq_true, true_iff, false_iff]; omega⟩
  refine ⟨three.1, three.2.1, three.2.2, fun b' hs he => ?_⟩
  have hb := b.isLt
  have hm : b'.msb = true := by rw [BitVec.msb_eq_decide, decide_eq_true_eq]; omega
  have hk : b'.toNat % 2 ^ 31 = b.toNat % 2 ^ 31 := by omega
  rw [f32OfBits_eq b', f32OfBits_eq b, hm, hk, hs]
  by_cases h : b.toNat % 2 ^ 31 < 255 * 2 ^ 23
  · have r1 := mag_rep h
    rw [if_pos h, if_pos h, if_pos rfl, if_neg (by simp), ofRat_rep_eq (rep_neg r1), ofRat_rep_eq r1]
    simp [Fp.neg]
  · rw [if_neg h, if_neg h]
    by_cases h2 : b.toNat % 2 ^ 31 = 255 * 2 ^ 23
    · rw [if_pos h2, if_pos h2]; rfl
    · rw [if_neg h2, if_neg h2]; rfl

/-- Words and their values: 1.5, the smallest number, the largest finite one, minus zero. -/
example : f32OfBits 0x3fc00000 = Fp.lit (3 / 2) ∧ (f32OfBits 1).Is (2 ^ (-149 : ℤ)) ∧
    f32OfBits 0x7f7fffff = Fp.lit ((2 ^ 24 - 1) * 2 ^ 104) ∧ f32OfBits 0x7f800000 = .inf false ∧
    f32OfBits 0x80000000 ≠ f32OfBits 0 := by decide +kernel

end C61
end Verif.Props
