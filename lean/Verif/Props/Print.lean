import Verif.Model.Print
import Verif.Spec.Names
import Verif.Props.VizMain

/-!
# C79: the progress output of the directory readers
-/

namespace Verif.Props
open Spec Kitti Viz

section Generic
variable {α β σ : Type} {name : α → Option (List Char)} {n : ℕ} {f : σ → α → M (Io (β × σ))}

/-- What the collection does with the results of earlier files. -/
def prepend (bs : List β) : M (Io (List β)) → M (Io (List β))
  | .error e => .error e
  | .ok (.error e) => .ok (.error e)
  | .ok (.ok r) => .ok (.ok (bs ++ r))

lemma collectPrinting_append : ∀ {l1 : List α} {names : List (List Char)} (i : ℕ) (s : σ) (l2 : List α),
    (∀ s, ∀ a ∈ l1, ∃ b s', f s a = .ok (.ok (b, s'))) → l1.map name = names.map some →
    ∃ bs s', collectPrinting true name n f i s (l1 ++ l2) =
      (((names.zipIdx i).map fun x => statusLine (x.2 + 1) n x.1) ++
        (collectPrinting true name n f (i + l1.length) s' l2).1,
       prepend bs (collectPrinting true name n f (i + l1.length) s' l2).2)
  | [], names, i, s, l2, _, h2 => by
    obtain rfl : names = [] := by simpa using h2
    refine ⟨[], s, ?_⟩
    simp only [List.nil_append, List.zipIdx_nil, List.map_nil, List.length_nil, Nat.add_zero]
    generalize collectPrinting true name n f i s l2 = x
    obtain ⟨x1, _ | _ | _⟩ := x <;> rfl
  | a :: l1, [], i, s, l2, _, h2 => by simp at h2
  | a :: l1, t :: names, i, s, l2, h1, h2 => by
    simp only [List.map_cons, List.cons.injEq] at h2
    obtain ⟨b, s', hb⟩ := h1 s a List.mem_cons_self
    obtain ⟨bs, s'', ih⟩ := collectPrinting_append (names := names) (i + 1) s' l2
      (fun s a ha => h1 s a (List.mem_cons_of_mem _ ha)) h2.2
    refine ⟨b :: bs, s'', ?_⟩
    have e : i + (a :: l1).length = i + 1 + l1.length := by simp only [List.length_cons]; omega
    rw [List.cons_append, collectPrinting.eq_def]
    simp only [if_true, h2.1, Option.map_some, hb, ih, e, List.zipIdx_cons, List.map_cons, List.cons_append,
      List.nil_append]
    generalize collectPrinting true name n f (i + 1 + l1.length) s'' l2 = x
    obtain ⟨x1, _ | _ | _⟩ := x <;> rfl

lemma statusLine_eq (i n : ℕ) (t : List Char) :
    statusLine i n t = s!"Reading file ({i} of {n}) {String.ofList t}".toList := by
  unfold statusLine
  have h1 : ∀ x : String, toString x = x := fun _ => rfl
  simp only [String.toList_append, h1, String.toList_ofList]

lemma status_progress (n : ℕ) (names : List (List Char)) :
    ((names.zipIdx 0).map fun x => statusLine (x.2 + 1) n x.1) = progress n names := by
  unfold progress
  simp only [statusLine_eq]

end Generic

section Clouds
variable {P : Type} [LinearOrder P] {name : P → Option (List Char)} {contents : P → Io (List (BitVec 8))}

omit [LinearOrder P] in
lemma collect_clouds (print : Bool) (n : ℕ) : ∀ (l : List P) (i : ℕ),
    (print = true → ∀ p ∈ l, ∃ t, name p = some t) →
    (collectPrinting print name n (cloudStep contents) i () l).2 = collectIo (fun p => readCloud (contents p)) l
  | [], _, _ => rfl
  | p :: l, i, h => by
    have ih := collect_clouds print n l (i + 1) fun hp q hq => h hp q (List.mem_cons_of_mem _ hq)
    obtain ⟨out, ho⟩ : ∃ out, (if print then (name p).map fun t => [statusLine (i + 1) n t] else some []) =
        some out := by
      cases print with
      | false => exact ⟨[], rfl⟩
      | true =>
        obtain ⟨t, ht⟩ := h rfl p List.mem_cons_self
        exact ⟨_, by rw [ht]; rfl⟩
    rw [collectPrinting.eq_def]
    simp only [ho, collectIo, cloudStep]
    obtain ⟨r, hr⟩ := C48_total (contents p)
    rw [hr]
    cases r with
    | error e => rfl
    | ok c =>
      simp only [M.bind_ok]
      rw [ih]
      generalize collectIo (fun p => readCloud (contents p)) l = x
      obtain _ | _ | _ := x <;> rfl

lemma printing_eq (print : Bool) {s paths : List P} (hs : SortedListing s paths) :
    readCloudDirPrinting print name (.ok (paths.map .ok)) contents =
      collectPrinting print name s.length (cloudStep contents) 0 () s := by
  obtain ⟨s', h1, h2⟩ := seqFiles_spec paths
  obtain rfl := sorted_unique hs h1 (.refl _)
  unfold readCloudDirPrinting
  rw [h2]

/-- C79: without `print_status`, or if all file names are texts, the clouds or the error are the same as without
printing. -/
theorem C79_clouds (print : Bool) (paths : List P) (h : print = true → ∀ p ∈ paths, ∃ t, name p = some t) :
    (readCloudDirPrinting print name (.ok (paths.map .ok)) contents).2 =
      readCloudDir (.ok (paths.map .ok)) contents := by
  obtain ⟨s, h1, h2⟩ := seqFiles_spec paths
  rw [printing_eq print h1, collect_clouds print _ s 0 fun hp p hm => h hp p (h1.1.mem_iff.mp hm)]
  unfold readCloudDir
  rw [h2]

omit [LinearOrder P] in
lemma quiet {α β σ : Type} {name : α → Option (List Char)} {n : ℕ} {f : σ → α → M (Io (β × σ))} :
    ∀ (l : List α) (i : ℕ) (s : σ), (collectPrinting false name n f i s l).1 = []
  | [], _, _ => rfl
  | a :: l, i, s => by
    rw [collectPrinting.eq_def]
    simp only [Bool.false_eq_true, if_false]
    generalize f s a = x
    obtain _ | _ | ⟨b, s'⟩ := x
    · rfl
    · rfl
    · simp only [quiet l, List.append_nil]

/-- C79: without `print_status` nothing is printed. -/
theorem C79_quiet (dir : Dir P) : (readCloudDirPrinting false name dir contents).1 = [] := by
  unfold readCloudDirPrinting
  cases seqFilesInDir dir with
  | error e => rfl
  | ok l => exact quiet l 0 ()

omit [LinearOrder P] in
lemma cloudStep_good {s1 : List P} (h : ∀ q ∈ s1, GoodCloud (contents q)) :
    ∀ s, ∀ a ∈ s1, ∃ b s', cloudStep contents s a = .ok (.ok (b, s')) := by
  intro s a ha
  obtain ⟨bytes, h1, h2⟩ := h a ha
  obtain ⟨c, hc, -⟩ := C48_read bytes h2
  exact ⟨c, (), by unfold cloudStep; rw [h1, hc]; rfl⟩

/-- C79: with `print_status`, if all files are read and have texts as names, there is one line for each of them, in
path order, with its number, their count and the name. -/
theorem C79_lines {s paths : List P} {names : List (List Char)} (hs : SortedListing s paths)
    (h1 : ∀ q ∈ s, GoodCloud (contents q)) (h2 : s.map name = names.map some) :
    (readCloudDirPrinting true name (.ok (paths.map .ok)) contents).1 = progress paths.length names := by
  rw [printing_eq true hs, ← hs.1.length_eq]
  obtain ⟨bs, s', h3⟩ := collectPrinting_append (n := s.length) 0 () [] (cloudStep_good h1) h2
  rw [List.append_nil] at h3
  rw [h3, status_progress]
  simp [collectPrinting]

/-- C79: a file that cannot be read ends the output after its own line. -/
theorem C79_stops {s1 s2 paths : List P} {p : P} {e : IoErr} {names : List (List Char)}
    (hs : SortedListing (s1 ++ p :: s2) paths) (h1 : ∀ q ∈ s1, GoodCloud (contents q))
    (h2 : (s1 ++ [p]).map name = names.map some) (h3 : readCloud (contents p) = .ok (.error e)) :
    readCloudDirPrinting true name (.ok (paths.map .ok)) contents =
      (progress paths.length names, .ok (.error e)) := by
  rw [printing_eq true hs, ← hs.1.length_eq]
  obtain ⟨names, t, rfl⟩ : ∃ l t, names = l ++ [t] := by
    rcases List.eq_nil_or_concat names with rfl | ⟨l, t, rfl⟩
    · simp at h2
    · exact ⟨l, t, by simp⟩
  rw [List.map_append, List.map_append] at h2
  obtain ⟨h4, h5⟩ := List.append_inj' h2 rfl
  simp only [List.map_cons, List.map_nil, List.cons.injEq, and_true] at h5
  obtain ⟨bs, s', h6⟩ := collectPrinting_append (n := (s1 ++ p :: s2).length) 0 () (p :: s2) (cloudStep_good h1) h4
  have hl : s1.length = names.length := by simpa using congrArg List.length h4
  have h7 : cloudStep contents s' p = .ok (.error e) := by unfold cloudStep; rw [h3]; rfl
  rw [h6, ← status_progress, collectPrinting.eq_def]
  simp only [if_true, h5, Option.map_some, h7, List.zipIdx_append, List.map_append, hl]
  rfl

/-- C79 (deviation): with `print_status`, a file whose name is not a text panics at its turn, after the lines of the
files before it, though without `print_status` it would be read. -/
theorem C79_bad_name {s1 s2 paths : List P} {p : P} {names : List (List Char)}
    (hs : SortedListing (s1 ++ p :: s2) paths) (h1 : ∀ q ∈ s1, GoodCloud (contents q))
    (h2 : s1.map name = names.map some) (h3 : name p = none) :
    readCloudDirPrinting true name (.ok (paths.map .ok)) contents =
      (progress paths.length names, .error (.panic .unwrap)) := by
  rw [printing_eq true hs, ← hs.1.length_eq]
  obtain ⟨bs, s', h6⟩ := collectPrinting_append (n := (s1 ++ p :: s2).length) 0 () (p :: s2) (cloudStep_good h1) h2
  rw [h6, ← status_progress, collectPrinting.eq_def]
  simp only [if_true, h3, Option.map_none, List.append_nil]
  rfl

end Clouds

section Oxts
variable {P : Type} [LinearOrder P] {name : P → Option (List Char)} {contents : P → Io (List Char)}
  {env : OxtEnv F64 F32 (Quat F32)}

omit [LinearOrder P] in
lemma collect_oxts (print : Bool) (n : ℕ) : ∀ (l : List P) (i : ℕ) (o : Option (Gps F64)),
    (print = true → ∀ p ∈ l, ∃ t, name p = some t) →
    (collectPrinting print name n (oxtStep env contents) i o l).2 = .ok (readOxtLoop env o (l.map contents))
  | [], _, _, _ => rfl
  | p :: l, i, o, h => by
    obtain ⟨out, ho⟩ : ∃ out, (if print then (name p).map fun t => [statusLine (i + 1) n t] else some []) =
        some out := by
      cases print with
      | false => exact ⟨[], rfl⟩
      | true =>
        obtain ⟨t, ht⟩ := h rfl p List.mem_cons_self
        exact ⟨_, by rw [ht]; rfl⟩
    rw [collectPrinting.eq_def]
    simp only [ho, List.map_cons, readOxtLoop]
    cases hr : readOxt env (contents p) o with
    | error e =>
      have hs : oxtStep env contents o p = .ok (.error e) := by unfold oxtStep; rw [hr]
      simp only [hs]
      rfl
    | ok r =>
      obtain ⟨pose, o'⟩ := r
      have hs : oxtStep env contents o p = .ok (.ok (pose, some o')) := by unfold oxtStep; rw [hr]
      have ih := collect_oxts print n l (i + 1) (some o') fun hp q hq => h hp q (List.mem_cons_of_mem _ hq)
      simp only [hs, ih]
      change _ = Except.ok (do let ps ← readOxtLoop env (some o') (l.map contents); _)
      generalize readOxtLoop env (some o') (l.map contents) = x
      obtain _ | _ := x <;> rfl

lemma printing_oxts (print : Bool) {s paths : List P} (hs : SortedListing s paths) :
    readOxtDirPrinting print name env (.ok (paths.map .ok)) contents =
      collectPrinting print name s.length (oxtStep env contents) 0 none s := by
  obtain ⟨s', h1, h2⟩ := seqFiles_spec paths
  obtain rfl := sorted_unique hs h1 (.refl _)
  unfold readOxtDirPrinting
  rw [h2]

/-- C79: the same for the records. -/
theorem C79_oxts (print : Bool) (paths : List P) (h : print = true → ∀ p ∈ paths, ∃ t, name p = some t) :
    (readOxtDirPrinting print name env (.ok (paths.map .ok)) contents).2 =
      .ok (readOxtDir env (.ok (paths.map .ok)) contents) := by
  obtain ⟨s, h1, h2⟩ := seqFiles_spec paths
  rw [printing_oxts print h1, collect_oxts print _ s 0 none fun hp p hm => h hp p (h1.1.mem_iff.mp hm)]
  unfold readOxtDir
  rw [h2]
  rfl

omit [LinearOrder P] in
lemma oxtStep_good {s1 : List P} (h : ∀ q ∈ s1, GoodOxt env (contents q)) :
    ∀ o, ∀ a ∈ s1, ∃ b o', oxtStep env contents o a = .ok (.ok (b, o')) := by
  intro o a ha
  obtain ⟨text, fix, rot, h1, h2⟩ := h a ha
  unfold oxtStep
  rw [h1]
  cases o with
  | none => rw [(C50_read h2).1]; exact ⟨_, _, rfl⟩
  | some o => rw [(C50_read h2).2 o]; exact ⟨_, _, rfl⟩

/-- C79: and its lines: all of them, if all is well. -/
theorem C79_oxts_lines {s paths : List P} {names : List (List Char)} (hs : SortedListing s paths)
    (h1 : ∀ q ∈ s, GoodOxt env (contents q)) (h2 : s.map name = names.map some) :
    (readOxtDirPrinting true name env (.ok (paths.map .ok)) contents).1 = progress paths.length names := by
  rw [printing_oxts true hs, ← hs.1.length_eq]
  obtain ⟨bs, s', h3⟩ := collectPrinting_append (n := s.length) 0 none [] (oxtStep_good h1) h2
  rw [List.append_nil] at h3
  rw [h3, status_progress]
  simp [collectPrinting]

/-- C79: without `print_status` nothing is printed here either. -/
theorem C79_oxts_quiet (dir : Dir P) : (readOxtDirPrinting false name env dir contents).1 = [] := by
  unfold readOxtDirPrinting
  cases seqFilesInDir dir with
  | error e => rfl
  | ok l => exact quiet l 0 none

/-- C79: and a record that cannot be read ends the output after its own line. -/
theorem C79_oxts_stops {s1 s2 paths : List P} {p : P} {e : IoErr} {names : List (List Char)}
    (hs : SortedListing (s1 ++ p :: s2) paths) (h1 : ∀ q ∈ s1, GoodOxt env (contents q))
    (h2 : (s1 ++ [p]).map name = names.map some) (h3 : ∀ o, readOxt env (contents p) o = .error e) :
    readOxtDirPrinting true name env (.ok (paths.map .ok)) contents =
      (progress paths.length names, .ok (.error e)) := by
  rw [printing_oxts true hs, ← hs.1.length_eq]
  obtain ⟨names, t, rfl⟩ : ∃ l t, names = l ++ [t] := by
    rcases List.eq_nil_or_concat names with rfl | ⟨l, t, rfl⟩
    · simp at h2
    · exact ⟨l, t, by simp⟩
  rw [List.map_append, List.map_append] at h2
  obtain ⟨h4, h5⟩ := List.append_inj' h2 rfl
  simp only [List.map_cons, List.map_nil, List.cons.injEq, and_true] at h5
  obtain ⟨bs, s', h6⟩ := collectPrinting_append (n := (s1 ++ p :: s2).length) 0 none (p :: s2) (oxtStep_good h1) h4
  have hl : s1.length = names.length := by simpa using congrArg List.length h4
  have h7 : oxtStep env contents s' p = .ok (.error e) := by unfold oxtStep; rw [h3]
  rw [h6, ← status_progress, collectPrinting.eq_def]
  simp only [if_true, h5, Option.map_some, h7, List.zipIdx_append, List.map_append, hl]
  rfl

/-- C79 (deviation): a name that is not a text panics here too. -/
theorem C79_oxts_bad_name {s1 s2 paths : List P} {p : P} {names : List (List Char)}
    (hs : SortedListing (s1 ++ p :: s2) paths) (h1 : ∀ q ∈ s1, GoodOxt env (contents q))
    (h2 : s1.map name = names.map some) (h3 : name p = none) :
    readOxtDirPrinting true name env (.ok (paths.map .ok)) contents =
      (progress paths.length names, .error (.panic .unwrap)) := by
  rw [printing_oxts true hs, ← hs.1.length_eq]
  obtain ⟨bs, s', h6⟩ := collectPrinting_append (n := (s1 ++ p :: s2).length) 0 none (p :: s2) (oxtStep_good h1) h2
  rw [h6, ← status_progress, collectPrinting.eq_def]
  simp only [if_true, h3, Option.map_none, List.append_nil]
  rfl

end Oxts

/-- Three files; the name of the third is not a text. -/
example : SortedListing ([1, 2] ++ 3 :: []) [2, 3, 1] ∧
    [1, 2].map (fun p => if p = 3 then none else some (if p = 1 then "1.bin".toList else "2.bin".toList)) =
      ["1.bin".toList, "2.bin".toList].map some ∧
    progress 3 ["1.bin".toList, "2.bin".toList] =
      ["Reading file (1 of 3) 1.bin".toList, "Reading file (2 of 3) 2.bin".toList] ∧
    GoodCloud (.ok ((List.range 32).map (BitVec.ofNat 8))) ∧
    readCloud (.ok [1, 2, 3]) = .ok (.error .invalidData) :=
  ⟨⟨by decide, by decide⟩, by decide, by decide +kernel, ⟨_, rfl, by decide⟩, C48_invalid _ (by decide)⟩

/-- A good record: that of the folder of C60. -/
example : GoodOxt oneEnv (oddFolder.oxtFile 1) := oddFolder_good

/-- A record that cannot be read, whatever the origin: a single word. -/
example (o : Option (Gps F64)) : readOxt oneEnv (.ok "1".toList) o = .error .invalidData := by
  cases o <;> rfl

end Verif.Props
