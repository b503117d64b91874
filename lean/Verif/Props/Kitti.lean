import Verif.Spec.Kitti
import Verif.Props.Cloud
import Verif.Lemmas.F32
import Mathlib.Analysis.SpecialFunctions.Trigonometric.Basic
import Mathlib.Tactic.FinCases

/-!
# C48 – C51: the KITTI readers
-/

namespace Verif.Props
open Spec Kitti

/-! ## C48 -/

lemma wordsLE_get : ∀ (n : ℕ) (bytes : List (BitVec 8)), bytes.length = 4 * n →
    (wordsLE bytes).length = n ∧ ∀ k < n, (wordsLE bytes)[k]? = some (wordAt bytes (4 * k))
  | 0, [], _ => ⟨rfl, by simp⟩
  | n + 1, a :: b :: c :: d :: r, h => by
    simp only [List.length_cons] at h
    obtain ⟨i1, i2⟩ := wordsLE_get n r (by omega)
    refine ⟨by simp only [wordsLE, List.length_cons, i1], fun k hk => ?_⟩
    cases k with
    | zero => rfl
    | succ k =>
      simp only [wordsLE, List.getElem?_cons_succ]
      rw [i2 k (by omega)]
      rfl
  | 0, _ :: _, h => by simp at h
  | n + 1, [], h => by simp at h
  | n + 1, [_], h => by simp at h; omega
  | n + 1, [_, _], h => by simp at h; omega
  | n + 1, [_, _, _], h => by simp at h; omega

lemma dropEvery4_get : ∀ (n m : ℕ) (ws : List (BitVec 32)), ws.length = 4 * n →
    (dropEvery4 (4 * m) ws).length = 3 * n ∧
    ∀ j < n, ∀ i < 3, (dropEvery4 (4 * m) ws)[3 * j + i]? = ws[4 * j + i]?
  | 0, m, [], _ => ⟨rfl, by simp⟩
  | n + 1, m, a :: b :: c :: d :: r, h => by
    simp only [List.length_cons] at h
    have e : dropEvery4 (4 * m) (a :: b :: c :: d :: r) = a :: b :: c :: dropEvery4 (4 * (m + 1)) r := by
      simp only [dropEvery4]
      rw [if_pos (by omega), if_pos (by omega), if_pos (by omega), if_neg (by omega)]
      rfl
    obtain ⟨i1, i2⟩ := dropEvery4_get n (m + 1) r (by omega)
    rw [e]
    refine ⟨by simp only [List.length_cons, i1]; omega, fun j hj i hi => ?_⟩
    cases j with
    | zero =>
      obtain rfl | rfl | rfl : i = 0 ∨ i = 1 ∨ i = 2 := by omega
      · rfl
      · rfl
      · rfl
    | succ j =>
      have h1 : 3 * (j + 1) + i = (3 * j + i) + 1 + 1 + 1 := by ring
      have h2 : 4 * (j + 1) + i = (4 * j + i) + 1 + 1 + 1 + 1 := by ring
      rw [h1, h2]
      simp only [List.getElem?_cons_succ]
      exact i2 j (by omega) i hi
  | 0, _, _ :: _, h => by simp at h
  | n + 1, _, [], h => by simp at h
  | n + 1, _, [_], h => by simp at h; omega
  | n + 1, _, [_, _], h => by simp at h; omega
  | n + 1, _, [_, _, _], h => by simp at h; omega

/-- C48: if the number of bytes is a multiple of 16, the reader returns one point per 16 bytes, in file
order; coordinate `i` of point `j` is bit for bit the word at byte `16 j + 4 i`. -/
theorem C48_read (bytes : List (BitVec 8)) (h : 16 ∣ bytes.length) :
    ∃ c, readCloud (.ok bytes) = .ok (.ok c) ∧ c.points.length = bytes.length / 16 ∧
      ∀ j, j < bytes.length / 16 →
        c.points[j]? = some fun i : Fin 3 => wordAt bytes (16 * j + 4 * i.val) := by
  obtain ⟨n, hn⟩ := h
  obtain ⟨w1, w2⟩ := wordsLE_get (4 * n) bytes (by omega)
  obtain ⟨d1, d2⟩ := dropEvery4_get n 0 (wordsLE bytes) w1
  have hq : bytes.length / 4 / 4 = n := by omega
  have hd : bytes.length / 16 = n := by omega
  have hlen : n * 3 ≤ (dropEvery4 0 (wordsLE bytes)).length := by
    have : (dropEvery4 (4 * 0) (wordsLE bytes)).length = 3 * n := d1
    simp only [Nat.mul_zero] at this
    omega
  refine ⟨⟨n, (dropEvery4 0 (wordsLE bytes)).take (n * 3), by simp [hlen]⟩, ?_, ?_, fun j hj => ?_⟩
  · simp only [readCloud]
    rw [if_neg (by omega)]
    simp only [hq]
    unfold cloudFromIter
    rw [dif_pos hlen]
  · rw [hd]; simp [PointCloud.points]
  · rw [hd] at hj
    unfold PointCloud.points
    rw [List.getElem?_ofFn, dif_pos hj]
    congr 1
    funext i
    unfold PointCloud.column
    have hi := i.2
    simp only [List.getElem_take]
    have e := d2 j hj i.val hi
    rw [w2 (4 * j + i.val) (by omega)] at e
    have hlt : j * 3 + i.val < (dropEvery4 0 (wordsLE bytes)).length := by omega
    have e2 : 3 * j + i.val = j * 3 + i.val := by ring
    rw [e2] at e
    rw [List.getElem?_eq_getElem (by exact hlt)] at e
    injection e with e
    rw [e]
    congr 1
    ring

/-- C48: otherwise it reports invalid data. A failing read is passed on. -/
theorem C48_invalid (bytes : List (BitVec 8)) (h : ¬ 16 ∣ bytes.length) :
    readCloud (.ok bytes) = .ok (.error .invalidData) := by
  simp only [readCloud]
  rw [if_pos (by omega)]

/-- C48: a failing read is passed on. -/
theorem C48_io_error (e : IoErr) : readCloud (.error e) = .ok (.error e) := rfl

/-- C48: the reader never panics. -/
theorem C48_total (input : Io (List (BitVec 8))) : ∃ r, readCloud input = .ok r := by
  cases input with
  | error e => exact ⟨_, rfl⟩
  | ok bytes =>
    by_cases h : 16 ∣ bytes.length
    · obtain ⟨c, hc, -⟩ := C48_read bytes h
      exact ⟨_, hc⟩
    · exact ⟨_, C48_invalid bytes h⟩

/-- Two records. -/
example : 16 ∣ ((List.range 32).map (BitVec.ofNat 8)).length := by decide
example : ¬ 16 ∣ ((List.range 33).map (BitVec.ofNat 8)).length := by decide

/-! ## C49 -/

section Dir
variable {P : Type} [LinearOrder P]

lemma mapM_id_ok {α : Type} (l : List α) : (l.map (Except.ok : α → Io α)).mapM id = .ok l := by
  induction l with
  | nil => rfl
  | cons a l ih =>
    rw [List.map_cons, List.mapM_cons]
    change (do let b ← (l.map (Except.ok : α → Io α)).mapM id; pure (a :: b)) = _
    rw [ih]; rfl

lemma seqFiles_spec (paths : List P) : ∃ s, SortedListing s paths ∧
    seqFilesInDir (.ok (paths.map .ok)) = .ok s := by
  refine ⟨paths.mergeSort (· ≤ ·), ⟨List.mergeSort_perm _ _, ?_⟩, ?_⟩
  · have := List.pairwise_mergeSort (le := fun a b : P => decide (a ≤ b))
      (by intro a b c; simp only [decide_eq_true_eq]; exact le_trans)
      (by intro a b; simp only [Bool.or_eq_true, decide_eq_true_eq]; exact le_total a b) paths
    simpa using this
  · unfold seqFilesInDir
    change (do let p ← (paths.map (Except.ok : P → Io P)).mapM id; _) = _
    rw [mapM_id_ok]; rfl

/-- A sorted listing is determined by the set of paths. -/
lemma sorted_unique {s s' paths paths' : List P} (h : SortedListing s paths)
    (h' : SortedListing s' paths') (hp : paths.Perm paths') : s = s' :=
  (h.1.trans (hp.trans h'.1.symm)).eq_of_pairwise (fun _ _ _ _ h1 h2 => le_antisymm h1 h2) h.2 h'.2

lemma collectIo_ok {α β : Type} {f : α → M (Io β)} : ∀ {l : List α} {bs : List β},
    collectIo f l = .ok (.ok bs) ↔ List.Forall₂ (fun a b => f a = .ok (.ok b)) l bs
  | [], bs => by
    simp only [collectIo, List.forall₂_nil_left_iff]
    constructor
    · intro h; cases h; rfl
    · rintro rfl; rfl
  | a :: l, bs => by
    simp only [collectIo]
    constructor
    · intro h
      rw [M.bind_eq_ok] at h
      obtain ⟨r, h1, h2⟩ := h
      cases r with
      | error e => cases h2
      | ok b =>
        simp only at h2
        rw [M.bind_eq_ok] at h2
        obtain ⟨r', h3, h4⟩ := h2
        cases r' with
        | error e => cases h4
        | ok bs' => cases h4; exact .cons h1 (collectIo_ok.mp h3)
    · intro h
      cases h with
      | cons h1 h2 =>
        rw [h1, M.bind_ok]
        simp only
        rw [collectIo_ok.mpr h2, M.bind_ok]

lemma collectIo_error {α β : Type} {f : α → M (Io β)} {l1 l2 : List α} {a : α} {e : IoErr}
    (h1 : ∀ x ∈ l1, ∃ b, f x = .ok (.ok b)) (h2 : f a = .ok (.error e)) :
    collectIo f (l1 ++ a :: l2) = .ok (.error e) := by
  induction l1 with
  | nil => simp only [List.nil_append, collectIo]; rw [h2, M.bind_ok]
  | cons x l1 ih =>
    obtain ⟨b, hb⟩ := h1 x List.mem_cons_self
    simp only [List.cons_append, collectIo]
    rw [hb, M.bind_ok]
    simp only
    rw [ih fun y hy => h1 y (List.mem_cons_of_mem _ hy), M.bind_ok]

variable (contents : P → Io (List (BitVec 8)))

/-- C49: the order in which the operating system lists the files does not matter. -/
theorem C49_order_irrelevant {paths paths' : List P} (h : paths.Perm paths') :
    readCloudDir (.ok (paths.map .ok)) contents = readCloudDir (.ok (paths'.map .ok)) contents := by
  obtain ⟨s, h1, h2⟩ := seqFiles_spec paths
  obtain ⟨s', h1', h2'⟩ := seqFiles_spec paths'
  unfold readCloudDir
  rw [h2, h2', sorted_unique h1 h1' h]

/-- C49: reading succeeds exactly if every file reads, with the clouds of the files in path order. -/
theorem C49_success {s paths : List P} (hs : SortedListing s paths)
    (cs : List (PointCloud 3 (BitVec 32))) :
    readCloudDir (.ok (paths.map .ok)) contents = .ok (.ok cs) ↔
      List.Forall₂ (fun p c => readCloud (contents p) = .ok (.ok c)) s cs := by
  obtain ⟨s', h1, h2⟩ := seqFiles_spec paths
  unfold readCloudDir
  rw [h2, sorted_unique hs h1 (.refl _)]
  exact collectIo_ok

/-- C49: if some file fails, the error of the first failing file in path order is returned. -/
theorem C49_first_error {s1 s2 paths : List P} {p : P} {e : IoErr}
    (hs : SortedListing (s1 ++ p :: s2) paths)
    (h1 : ∀ q ∈ s1, ∃ c, readCloud (contents q) = .ok (.ok c))
    (h2 : readCloud (contents p) = .ok (.error e)) :
    readCloudDir (.ok (paths.map .ok)) contents = .ok (.error e) := by
  obtain ⟨s', h3, h4⟩ := seqFiles_spec paths
  unfold readCloudDir
  rw [h4, ← sorted_unique hs h3 (.refl _)]
  exact collectIo_error h1 h2

/-- C49: an unreadable directory, or an unreadable entry, fails the whole read; of several unreadable
entries the first listed one counts. -/
theorem C49_listing_error (e : IoErr) (l1 : List P) (l2 : List (Io P)) :
    readCloudDir (.error e) contents = .ok (.error e) ∧
    readCloudDir (.ok (l1.map .ok ++ .error e :: l2)) contents = .ok (.error e) := by
  refine ⟨rfl, ?_⟩
  have : (l1.map Except.ok ++ Except.error e :: l2 : List (Io P)).mapM id = .error e := by
    induction l1 with
    | nil => rfl
    | cons a l1 ih =>
      rw [List.map_cons, List.cons_append, List.mapM_cons]
      change (do let b ← (l1.map Except.ok ++ Except.error e :: l2 : List (Io P)).mapM id
                 pure (a :: b)) = _
      rw [ih]; rfl
  have h2 : seqFilesInDir (.ok (l1.map Except.ok ++ Except.error e :: l2) : Dir P) = .error e := by
    unfold seqFilesInDir
    change (do let p ← (l1.map Except.ok ++ Except.error e :: l2 : List (Io P)).mapM id; _) = _
    rw [this]; rfl
  unfold readCloudDir
  rw [h2]

/-- A directory listed out of order. -/
example : SortedListing [1, 2, 3] [2, 3, 1] := ⟨by decide, by decide⟩

end Dir

/-! ## C50 -/

lemma fields_iff {text : List Char} {fs : List (List Char)} :
    Fields text fs ↔ text.splitOn ' ' = fs := by
  constructor
  · rintro ⟨h1, h2, rfl⟩
    exact List.splitOn_intercalate ' ' (fun l hl => h2 l hl) h1
  · rintro rfl
    refine ⟨List.splitOn_ne_nil _ _, ?_, List.intercalate_splitOn ' ' ⟩
    induction text with
    | nil => simp
    | cons c r ih =>
      rw [List.splitOn_cons_eq_if_modifyHead]
      split_ifs with h
      · intro f hf
        rcases List.mem_cons.mp hf with rfl | hf
        · simp
        · exact ih f hf
      · intro f hf
        cases hs : List.splitOn ' ' r with
        | nil => rw [hs] at hf; simp at hf
        | cons g gs =>
          rw [hs] at hf ih
          rcases List.mem_cons.mp hf with rfl | hf
          · intro hc
            rcases List.mem_cons.mp hc with rfl | hc
            · simp at h
            · exact ih g List.mem_cons_self hc
          · exact ih f (List.mem_cons_of_mem _ hf)

/-- C50: every text has fields, and they are determined by it. -/
theorem C50_fields (text : List Char) : ∃! fs, Fields text fs :=
  ⟨_, fields_iff.mpr rfl, fun _ h => (fields_iff.mp h).symm⟩

section Oxt
variable {G F R : Type} [Scalar G] [Scalar F] {env : OxtEnv G F R}

lemma strToFloat_some {α : Type} {parse : List Char → Option α} {s : List Char} {v : α}
    (h : parse s = some v) : strToFloat parse s = .ok v := by
  unfold strToFloat; rw [h]

lemma strToFloat_none {α : Type} {parse : List Char → Option α} {s : List Char}
    (h : parse s = none) : strToFloat parse s = .error .invalidData := by
  unfold strToFloat; rw [h]

/-- C50: a well-formed record is read. Without an origin the pose has translation zero and the record's fix
becomes the origin; with one, the translation is the offset from it. -/
theorem C50_read {text : List Char} {fix : Gps G} {rot : R} (h : Record env text fix rot) :
    readOxt env (.ok text) none = .ok (⟨fun _ => Scalar.lit 0, rot⟩, fix) ∧
    ∀ o, readOxt env (.ok text) (some o) = .ok (⟨gpsToMeters env fix o, rot⟩, o) := by
  obtain ⟨a, b, c, d, e, g, rest, roll, pitch, yaw, hf, h1, h2, h3, h4, h5, h6, rfl⟩ := h
  rw [fields_iff] at hf
  unfold readOxt
  simp only [hf, strToFloat_some h1, strToFloat_some h2, strToFloat_some h3, strToFloat_some h4,
    strToFloat_some h5, strToFloat_some h6]
  exact ⟨rfl, fun _ => rfl⟩

/-- C50: any other text is reported as invalid data. -/
theorem C50_invalid {text : List Char} (h : ¬ ∃ fix rot, Record env text fix rot)
    (o : Option (Gps G)) : readOxt env (.ok text) o = .error .invalidData := by
  unfold readOxt
  simp only
  split
  case h_2 => rfl
  case h_1 a b c d e g rest hf =>
    cases h1 : env.parseG a with
    | none => rw [strToFloat_none h1]; rfl
    | some lat =>
    cases h2 : env.parseG b with
    | none => rw [strToFloat_some h1, strToFloat_none h2]; rfl
    | some lon =>
    cases h3 : env.parseG c with
    | none => rw [strToFloat_some h1, strToFloat_some h2, strToFloat_none h3]; rfl
    | some alt =>
    cases h4 : env.parseF d with
    | none =>
      rw [strToFloat_some h1, strToFloat_some h2, strToFloat_some h3, strToFloat_none h4]; rfl
    | some roll =>
    cases h5 : env.parseF e with
    | none =>
      rw [strToFloat_some h1, strToFloat_some h2, strToFloat_some h3, strToFloat_some h4,
        strToFloat_none h5]; rfl
    | some pitch =>
    cases h6 : env.parseF g with
    | none =>
      rw [strToFloat_some h1, strToFloat_some h2, strToFloat_some h3, strToFloat_some h4,
        strToFloat_some h5, strToFloat_none h6]; rfl
    | some yaw =>
    exact absurd ⟨⟨lat, lon, alt⟩, _, a, b, c, d, e, g, rest, roll, pitch, yaw, fields_iff.mpr hf,
      h1, h2, h3, h4, h5, h6, rfl⟩ h

/-- C50: reading succeeds exactly on well-formed records. -/
theorem C50_success_iff (text : List Char) (o : Option (Gps G)) :
    (∃ r, readOxt env (.ok text) o = .ok r) ↔ ∃ fix rot, Record env text fix rot := by
  constructor
  · rintro ⟨r, hr⟩
    by_contra h
    rw [C50_invalid h o] at hr
    cases hr
  · rintro ⟨fix, rot, h⟩
    cases o with
    | none => exact ⟨_, (C50_read h).1⟩
    | some o => exact ⟨_, (C50_read h).2 o⟩

/-- C50: the seventh and later fields do not matter, not even whether they exist. -/
theorem C50_rest_ignored {text text' : List Char} {six rest rest' : List (List Char)}
    (h6 : six.length = 6) (h : Fields text (six ++ rest)) (h' : Fields text' (six ++ rest'))
    (o : Option (Gps G)) : readOxt env (.ok text) o = readOxt env (.ok text') o := by
  match six, h6 with
  | [a, b, c, d, e, g], _ =>
    rw [fields_iff] at h h'
    unfold readOxt
    simp only [h, h', List.cons_append]

lemma record_unique {text : List Char} {fix fix' : Gps G} {rot rot' : R}
    (h : Record env text fix rot) (h' : Record env text fix' rot') : fix = fix' ∧ rot = rot' := by
  have := (C50_read h).1.symm.trans (C50_read h').1
  simp only [Except.ok.injEq, Prod.mk.injEq, Pose.mk.injEq] at this
  exact ⟨this.2, this.1.2⟩

/-- A record of seven fields, with single digits as numbers. -/
example : Record (G := F32) (F := F32) (R := List F32)
    ⟨fun s => match s with | [c] => some (Fp.lit c.toNat) | _ => none,
     fun s => match s with | [c] => some (Fp.lit c.toNat) | _ => none,
     id, Fp.lit 1, id, fun a b c => [a, b, c]⟩
    "1 2 3 4 5 6 rest".toList
    ⟨Fp.lit 49, Fp.lit 50, Fp.lit 51⟩ [Fp.lit 52, Fp.lit 53, Fp.lit 54] :=
  ⟨['1'], ['2'], ['3'], ['4'], ['5'], ['6'], ["rest".toList], Fp.lit 52, Fp.lit 53, Fp.lit 54,
    fields_iff.mpr (by decide), by rfl, by rfl, by rfl, by rfl, by rfl, by rfl, rfl⟩

/-- Five fields are too few. -/
example : Fields "1 2 3 4 5".toList [['1'], ['2'], ['3'], ['4'], ['5']] :=
  fields_iff.mpr (by decide)

/-! ## C51 -/

variable {P : Type} [LinearOrder P] {contents : P → Io (List Char)}

/-- What the files in path order hold: fixes and rotations. -/
def Recorded (env : OxtEnv G F R) (contents : P → Io (List Char)) (s : List P)
    (fixes : List (Gps G × R)) : Prop :=
  List.Forall₂ (fun p f => ∃ text, contents p = .ok text ∧ Record env text f.1 f.2) s fixes

omit [LinearOrder P] in
lemma readOxtLoop_some (o : Gps G) : ∀ {s : List P} {fixes : List (Gps G × R)},
    Recorded env contents s fixes →
    readOxtLoop env (some o) (s.map contents) =
      .ok (fixes.map fun f => ⟨gpsToMeters env f.1 o, f.2⟩)
  | [], _, h => by cases h; rfl
  | p :: s, _, h => by
    cases h with
    | cons h1 h2 =>
      obtain ⟨text, h3, h4⟩ := h1
      simp only [List.map_cons, readOxtLoop]
      rw [h3, (C50_read h4).2 o]
      change (do let ps ← readOxtLoop env (some o) (s.map contents); _) = _
      rw [readOxtLoop_some o h2]
      rfl

/-- C51: if every file holds a well-formed record, there is one pose per file, in path order. The first has
translation zero; every other one has the offset of its fix from the fix of the first file. The
rotations are those of the records. -/
theorem C51_poses {s paths : List P} {fixes : List (Gps G × R)} (hs : SortedListing s paths)
    (h : Recorded env contents s fixes) :
    ∃ poses : List (Pose F R), readOxtDir env (.ok (paths.map .ok)) contents = .ok poses ∧
      poses.length = paths.length ∧
      (∀ (k : ℕ) pose fix, poses[k]? = some pose → fixes[k]? = some fix → pose.rotation = fix.2) ∧
      (∀ pose, poses[0]? = some pose → ∀ i, pose.translation i = Scalar.lit 0) ∧
      ∀ (k : ℕ) pose fix first, 0 < k → poses[k]? = some pose → fixes[k]? = some fix →
        fixes[0]? = some first → pose.translation = gpsToMeters env fix.1 first.1 := by
  obtain ⟨s', h1, h2⟩ := seqFiles_spec paths
  obtain rfl := sorted_unique hs h1 (.refl _)
  have e : readOxtDir env (.ok (paths.map .ok)) contents = readOxtLoop env none (s.map contents) := by
    unfold readOxtDir; rw [h2]; rfl
  have hlen := h.length_eq
  have hl2 := hs.1.length_eq
  rw [e]
  cases h with
  | nil => exact ⟨[], rfl, by simpa using hl2, by simp, by simp, by simp⟩
  | @cons p f s fixes h3 h4 =>
    obtain ⟨text, h5, h6⟩ := h3
    refine ⟨⟨fun _ => Scalar.lit 0, f.2⟩ :: fixes.map fun g => ⟨gpsToMeters env g.1 f.1, g.2⟩,
      ?_, ?_, ?_, ?_, ?_⟩
    · simp only [List.map_cons, readOxtLoop]
      rw [h5, (C50_read h6).1]
      change (do let ps ← readOxtLoop env (some f.1) (s.map contents); _) = _
      rw [readOxtLoop_some f.1 h4]
      rfl
    · simp only [List.length_cons, List.length_map] at hlen hl2 ⊢; omega
    · intro k pose fix hp hf
      cases k with
      | zero => simp only [List.getElem?_cons_zero, Option.some.injEq] at hp hf; rw [← hp, ← hf]
      | succ k =>
        simp only [List.getElem?_cons_succ, List.getElem?_map] at hp hf
        rw [hf] at hp
        simp only [Option.map_some, Option.some.injEq] at hp
        rw [← hp]
    · intro pose hp i
      simp only [List.getElem?_cons_zero, Option.some.injEq] at hp
      rw [← hp]
    · intro k pose fix first hk hp hf h0
      obtain ⟨k, rfl⟩ : ∃ j, k = j + 1 := ⟨k - 1, by omega⟩
      simp only [List.getElem?_cons_succ, List.getElem?_cons_zero, List.getElem?_map,
        Option.some.injEq] at hp hf h0
      rw [hf] at hp
      simp only [Option.map_some, Option.some.injEq] at hp
      rw [← hp, ← h0]

/-- C51: otherwise the error of the first file (in path order) that fails to read is returned. -/
theorem C51_first_error {s1 s2 paths : List P} {p : P} {fixes : List (Gps G × R)} {e : IoErr}
    (hs : SortedListing (s1 ++ p :: s2) paths) (h1 : Recorded env contents s1 fixes)
    (h2 : contents p = .error e ∨ e = .invalidData ∧ ∃ text, contents p = .ok text ∧
      ¬ ∃ fix rot, Record env text fix rot) :
    readOxtDir env (.ok (paths.map .ok)) contents = .error e := by
  obtain ⟨s', h3, h4⟩ := seqFiles_spec paths
  obtain rfl := sorted_unique hs h3 (.refl _)
  have e1 : readOxtDir env (.ok (paths.map .ok)) contents =
      readOxtLoop env none ((s1 ++ p :: s2).map contents) := by
    unfold readOxtDir; rw [h4]; rfl
  have hp : ∀ o, readOxt env (contents p) o = .error e := by
    intro o
    rcases h2 with h2 | ⟨rfl, text, h2, h5⟩
    · rw [h2]; rfl
    · rw [h2]; exact C50_invalid h5 o
  rw [e1]
  clear e1 h4 hs h3
  suffices H : ∀ o, readOxtLoop env o ((s1 ++ p :: s2).map contents) = .error e from H none
  induction h1 with
  | nil =>
    intro o
    simp only [List.nil_append, List.map_cons, readOxtLoop]
    rw [hp o]; rfl
  | @cons q f s1 fixes h5 h6 ih =>
    intro o
    obtain ⟨text, h7, h8⟩ := h5
    simp only [List.cons_append, List.map_cons, readOxtLoop]
    rw [h7]
    obtain ⟨r, hr⟩ := (C50_success_iff (env := env) text o).mpr ⟨_, _, h8⟩
    rw [hr]
    change (do let ps ← readOxtLoop env (some r.2) ((s1 ++ p :: s2).map contents); _) = _
    rw [ih (some r.2)]
    rfl

/-- C51: the order of the directory listing does not matter. -/
theorem C51_order_irrelevant {paths paths' : List P} (h : paths.Perm paths') :
    readOxtDir env (.ok (paths.map .ok)) contents = readOxtDir env (.ok (paths'.map .ok)) contents := by
  obtain ⟨s, h1, h2⟩ := seqFiles_spec paths
  obtain ⟨s', h1', h2'⟩ := seqFiles_spec paths'
  unfold readOxtDir
  rw [h2, h2', sorted_unique h1 h1' h]

/-- Two files out of order, each with a record. -/
example : ∃ (env : OxtEnv F32 F32 Unit) (contents : ℕ → Io (List Char)) (fixes : _),
    SortedListing [1, 2] [2, 1] ∧ Recorded env contents [1, 2] fixes :=
  ⟨⟨fun _ => some (Fp.lit 1), fun _ => some (Fp.lit 1), id, Fp.lit 1, id, fun _ _ _ => ()⟩,
   fun _ => .ok "1 2 3 4 5 6".toList,
   [(⟨Fp.lit 1, Fp.lit 1, Fp.lit 1⟩, ()), (⟨Fp.lit 1, Fp.lit 1, Fp.lit 1⟩, ())],
   ⟨by decide, by decide⟩,
   .cons ⟨_, rfl, ['1'], ['2'], ['3'], ['4'], ['5'], ['6'], [], _, _, _, fields_iff.mpr (by decide), rfl, rfl, rfl, rfl, rfl, rfl, rfl⟩
    (.cons ⟨_, rfl, ['1'], ['2'], ['3'], ['4'], ['5'], ['6'], [], _, _, _, fields_iff.mpr (by decide), rfl, rfl, rfl, rfl, rfl, rfl, rfl⟩
      .nil)⟩

end Oxt

/-! ### What the offset is, in exact arithmetic -/

/-- The reader over exact numbers. -/
noncomputable def exactEnv {R : Type} (parse : List Char → Option XR) (euler : XR → XR → XR → R) :
    OxtEnv XR XR R :=
  ⟨parse, parse, fun x => match x with | .fin r => .fin (Real.cos r) | .inf => .inf,
    .fin (Real.pi / 180), id, euler⟩

/-- C51: the offset in exact arithmetic: x along the longitude, y along the latitude, z the difference of
altitudes; one degree of latitude is a 360th of the polar circumference, and one degree of longitude a
360th of the equator, scaled by the cosine of the *difference* of latitudes. -/
theorem C51_offset_exact {R : Type} (parse : List Char → Option XR) (euler : XR → XR → XR → R)
    (lat lon alt lat0 lon0 alt0 : ℝ) :
    gpsToMeters (exactEnv parse euler) ⟨.fin lat, .fin lon, .fin alt⟩
        ⟨.fin lat0, .fin lon0, .fin alt0⟩ =
      ![.fin ((lon - lon0) * (40075160 * Real.cos ((lat - lat0) * (Real.pi / 180))) / 360),
        .fin ((lat - lat0) * 40008000 / 360),
        .fin (alt - alt0)] := by
  funext i
  fin_cases i <;>
  simp [gpsToMeters, exactEnv, EARTH_EQUATOR_CIRCUMFERENCE, EARTH_POLE_CIRCUMFERENCE, Scalar.sub,
    Scalar.mul, Scalar.div, Scalar.lit, XR.op2]

/-- C51 (deviation): the circumference of the circle of latitude `lat0` is the equator's times
`cos lat0`, but the code takes the cosine of the difference of latitudes. A move due east by `d` degrees is
therefore reported as `d` degrees of the *equator* at every latitude; at 60° north that is twice the
true distance. -/
theorem C51_longitude_overstated {R : Type} (parse : List Char → Option XR)
    (euler : XR → XR → XR → R) (lat lon alt d : ℝ) :
    gpsToMeters (exactEnv parse euler) ⟨.fin lat, .fin (lon + d), .fin alt⟩
        ⟨.fin lat, .fin lon, .fin alt⟩ = ![.fin (d * 40075160 / 360), .fin 0, .fin 0] ∧
    d * 40075160 / 360 = 2 * (d * (40075160 * Real.cos (60 * (Real.pi / 180))) / 360) := by
  constructor
  · rw [C51_offset_exact]
    simp
  · have : (60 : ℝ) * (Real.pi / 180) = Real.pi / 3 := by ring
    rw [this, Real.cos_pi_div_three]
    ring

end Verif.Props
