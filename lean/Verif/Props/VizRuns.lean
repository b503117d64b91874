import Verif.Props.Viz

/-!
# C52 – C55: runs of the visualizer
-/

namespace Verif.Props
open Viz Spec

variable {Map Cell Pt : Type} [DecidableEq Cell] {ops : MapOps Map Cell Pt} {n : ℕ} {m₀ : Map}

/-! ## C52: progress -/

/-- Steps left for a worker. -/
def wWeight : WorkerPc × ℕ → ℕ
  | (.lockMap, _) => 7
  | (.integrate, _) => 6
  | (.lockCells, _) => 5
  | (.copy, _) => 4
  | (.reset, _) => 3
  | (.setFlag, _) => 2
  | (.unlock, _) => 1
  | (.done, _) => 0
  | (.dead, _) => 0

/-- Steps left for the render thread until it starts a worker. -/
def mWeight : MainPc → ℕ
  | .check => 6
  | .lockCells => 5
  | .lockMap => 4
  | .process => 3
  | .clearFlag => 2
  | .spawn => 1
  | .dead => 0

/-- Steps left until the next worker is started. -/
def weight (s : State Map Cell Pt) : ℕ := mWeight s.main + (s.workers.map wWeight).sum

lemma sum_set {α : Type} (f : α → ℕ) : ∀ {l : List α} {k : ℕ} {x y : α}, l[k]? = some x →
    ((l.set k y).map f).sum + f x = (l.map f).sum + f y
  | a :: l, 0, x, y, h => by
    simp only [List.getElem?_cons_zero, Option.some.injEq] at h
    subst h
    simp only [List.set_cons_zero, List.map_cons, List.sum_cons]
    omega
  | a :: l, k + 1, x, y, h => by
    simp only [List.getElem?_cons_succ] at h
    have := sum_set f (y := y) h
    simp only [List.set_cons_succ, List.map_cons, List.sum_cons]
    omega
  | [], k, x, y, h => by simp at h

lemma weight_step {s s' : State Map Cell Pt} (h : Step ops n s s') (hne : s' ≠ s)
    (hl : s'.workers.length = s.workers.length) : weight s' < weight s := by
  cases h
  case checkBusy => exact absurd rfl hne
  case spawn => simp at hl
  case wLockMap k r h1 _ _ =>
    have := sum_set wWeight (y := (.integrate, r)) h1
    simp only [weight, setW, wWeight] at this ⊢; omega
  case wLockMapPoisoned k r h1 _ _ =>
    have := sum_set wWeight (y := (.dead, r)) h1
    simp only [weight, setW, wWeight] at this ⊢; omega
  case wIntegrate k r m h1 _ =>
    have := sum_set wWeight (y := (.lockCells, r)) h1
    simp only [weight, setW, wWeight] at this ⊢; omega
  case wIntegratePanic k r h1 _ =>
    have := sum_set wWeight (y := (.dead, r)) h1
    simp only [weight, setW, wWeight] at this ⊢; omega
  case wLockCells k r h1 _ _ =>
    have := sum_set wWeight (y := (.copy, r)) h1
    simp only [weight, setW, wWeight] at this ⊢; omega
  case wLockCellsPoisoned k r h1 _ _ =>
    have := sum_set wWeight (y := (.dead, r)) h1
    simp only [weight, setW, wWeight] at this ⊢; omega
  case wCopy k r h1 =>
    have := sum_set wWeight (y := (.reset, r)) h1
    simp only [weight, setW, wWeight] at this ⊢; omega
  case wReset k r h1 =>
    have := sum_set wWeight (y := (.setFlag, r)) h1
    simp only [weight, setW, wWeight] at this ⊢; omega
  case wSetFlag k r h1 =>
    have := sum_set wWeight (y := (.unlock, r)) h1
    simp only [weight, setW, wWeight] at this ⊢; omega
  case wUnlock k r h1 =>
    have := sum_set wWeight (y := (.done, r)) h1
    simp only [weight, setW, wWeight] at this ⊢; omega
  all_goals (simp only [weight]; simp_all [mWeight])

/-- At most one element satisfies `p`. -/
lemma sum_le_of_one {α : Type} (f : α → ℕ) (p : α → Prop) (b : ℕ) : ∀ {l : List α},
    (∀ (i j : ℕ) x y, l[i]? = some x → l[j]? = some y → p x → p y → i = j) →
    (∀ x, p x → f x ≤ b) → (∀ x, ¬ p x → f x = 0) → (l.map f).sum ≤ b
  | [], _, _, _ => by simp
  | a :: l, h1, h2, h3 => by
    have h0 : ∀ (i j : ℕ) x y, l[i]? = some x → l[j]? = some y → p x → p y → i = j :=
      fun i j x y hi hj hx hy => by
        have := h1 (i + 1) (j + 1) x y (by simpa using hi) (by simpa using hj) hx hy
        omega
    simp only [List.map_cons, List.sum_cons]
    by_cases ha : p a
    · have : (l.map f).sum = 0 := by
        rw [List.sum_eq_zero]
        intro v hv
        obtain ⟨x, hx, rfl⟩ := List.mem_map.mp hv
        obtain ⟨i, hi⟩ := List.mem_iff_getElem?.mp hx
        refine h3 x fun hp => ?_
        have := h1 0 (i + 1) a x rfl (by simpa using hi) ha hp
        omega
      have := h2 a ha
      omega
    · rw [h3 a ha, Nat.zero_add]
      exact sum_le_of_one f p b h0 h2 h3

lemma weight_le {s : State Map Cell Pt} (hi : VInv s) : weight s ≤ 19 := by
  have hm : mWeight s.main ≤ 6 := by cases s.main <;> simp [mWeight]
  let g : WorkerPc × ℕ → ℕ := fun x => if x.1 = .lockMap then 7 else 0
  let h : WorkerPc × ℕ → ℕ := fun x => if x.1 = .lockMap then 0 else wWeight x
  have e : wWeight = fun x => g x + h x := by
    funext ⟨pc, r⟩
    cases pc <;> simp [wWeight, g, h]
  have h1 : (s.workers.map g).sum ≤ 7 := by
    refine sum_le_of_one g (fun x => x.1 = .lockMap) 7 ?_ ?_ ?_
    · rintro i j ⟨pc, r⟩ ⟨pc', r'⟩ h1 h2 (h3 : pc = _) (h4 : pc' = _)
      subst h3 h4
      have a := hi.busy _ _ _ h1 (by simp [Busy])
      have b := hi.busy _ _ _ h2 (by simp [Busy])
      omega
    · intro x hx; simp only [g]; split_ifs <;> omega
    · intro x hx; simp only [g]; rw [if_neg hx]
  have h2 : (s.workers.map h).sum ≤ 6 := by
    refine sum_le_of_one h (fun x => HoldsMap x.1) 6 ?_ ?_ ?_
    · rintro i j ⟨pc, r⟩ ⟨pc', r'⟩ h1 h2 h3 h4
      have a := hi.mapW' _ _ _ h1 h3
      have b := hi.mapW' _ _ _ h2 h4
      rw [a] at b
      injection b
    · rintro ⟨pc, r⟩ -; cases pc <;> simp [h, wWeight]
    · rintro ⟨pc, r⟩ hx; cases pc <;> simp_all [h, wWeight, HoldsMap]
  have e2 : (s.workers.map wWeight).sum = (s.workers.map g).sum + (s.workers.map h).sum := by
    rw [e]; exact List.sum_map_add
  unfold weight
  omega

lemma quiet_weight {s s' : State Map Cell Pt} {k : ℕ} (h : Quiet ops n k s s') :
    k + weight s' ≤ weight s := by
  induction h with
  | nil => omega
  | step _ h1 h2 h3 ih =>
    have := weight_step h1 h2 h3
    omega

/-- C52: progress. Between two starts of a worker there are at most 19 steps that are not just polling the
flag. With `C52_no_deadlock`: unless something panics or hangs, new integrations are started again and
again. -/
theorem C52_progress {s s' : State Map Cell Pt} (h : Reach ops n m₀ s) {k : ℕ}
    (hq : Quiet ops n k s s') : k ≤ 19 := by
  have := quiet_weight hq
  have := weight_le (Reach.inv h)
  omega

/-- C52: if a worker panics the visualizer freezes: the renderer polls forever, the table of drawn cells
and the index stay as they are, and no worker is ever started again. -/
theorem C52_worker_panic_freezes {s s' : State Map Cell Pt} (h : Reach ops n m₀ s) {k r : ℕ}
    (hd : s.workers[k]? = some (.dead, r)) (hs : Steps ops n s s') :
    s'.main = .check ∧ s'.finished = false ∧ s'.tracked = s.tracked ∧ s'.index = s.index ∧
      s'.workers.length = s.workers.length := by
  have hi := Reach.inv h
  suffices H : VInv s' ∧ s'.workers[k]? = some (.dead, r) ∧ s'.tracked = s.tracked ∧
      s'.index = s.index ∧ s'.workers.length = s.workers.length by
    obtain ⟨h1, h2, h3, h4, h5⟩ := H
    obtain ⟨h6, h7⟩ := h1.deadW _ _ h2
    exact ⟨h6, h7, h3, h4, h5⟩
  induction hs with
  | nil => exact ⟨hi, hd, rfl, rfl, rfl⟩
  | step hs hstep ih =>
    obtain ⟨h1, h2, h3, h4, h5⟩ := ih
    have hm := h1.deadW _ _ h2
    refine ⟨h1.step hstep, ?_⟩
    clear hi h
    cases hstep <;> (try simp only [setW, List.length_set]) <;> grind

/-- C52: the render thread dies only if reading a changed cell panics or there is no recording; it never
meets a poisoned lock. -/
theorem C52_main_panics {s s' : State Map Cell Pt} (h : Reach ops n m₀ s) (hs : Step ops n s s')
    (h1 : s.main ≠ .dead) (h2 : s'.main = .dead) :
    s.main = .process ∧ processCells ops s.map s.cells s.tracked = none ∨
    s.main = .spawn ∧ n ≤ s.index := by
  have hi := Reach.inv h
  cases hs <;> (try simp only [setW] at h2)
  case lockCellsPoisoned h3 h4 h5 => exact absurd (hi.poisonC h5) h1
  case lockMapPoisoned h3 h4 h5 =>
    rcases hi.poisonM h5 with h6 | ⟨h6, h7⟩
    · exact absurd h6 h1
    · obtain ⟨pc, r, hl⟩ := last_worker h6
      obtain rfl := h7 _ _ hl
      have := (hi.deadW _ _ hl).1
      rw [h3] at this
      cases this
  case processPanic h3 h4 => exact .inl ⟨h3, h4⟩
  case spawnPanic h3 h4 => exact .inr ⟨h3, h4⟩
  all_goals simp_all

/-! ## C54 -/

/-- C54: worker number `k` has recording `k mod n`, the index always is the number of workers started
modulo `n`, and so never leaves the range. -/
theorem C54_cyclic {s : State Map Cell Pt} (h : Reach ops n m₀ s) (hn : 0 < n) :
    s.index = s.workers.length % n ∧ s.index < n ∧
      ∀ (k : ℕ) pc r, s.workers[k]? = some (pc, r) → r = k % n := by
  suffices H : s.index = s.workers.length % n ∧
      ∀ (k : ℕ) pc r, s.workers[k]? = some (pc, r) → r = k % n from
    ⟨H.1, H.1 ▸ Nat.mod_lt _ hn, H.2⟩
  induction h with
  | init => simp [Viz.init]
  | step s s' hr hs ih =>
    obtain ⟨h1, h2⟩ := ih
    cases hs <;> (try simp only [setW, List.length_set])
    case spawn h3 h4 =>
      constructor
      · rw [List.length_append, h1]; simp [Nat.add_mod]
      · intro k pc r hk
        rcases Nat.lt_trichotomy k s.workers.length with hlt | rfl | hlt
        · rw [List.getElem?_append_left hlt] at hk; exact h2 _ _ _ hk
        · simp only [List.getElem?_concat_length, Option.some.injEq, Prod.mk.injEq] at hk
          rw [← hk.2, h1]
        · rw [List.getElem?_eq_none (by simp; omega)] at hk; cases hk
    all_goals grind

/-- C54: workers take their turns in the order in which they were started: when worker `j` has been started,
all earlier ones have announced their end. -/
theorem C54_in_order {s : State Map Cell Pt} (h : Reach ops n m₀ s) {k j : ℕ} {pc pc' : WorkerPc}
    {r r' : ℕ} (hk : s.workers[k]? = some (pc, r)) (hj : s.workers[j]? = some (pc', r'))
    (hkj : k < j) : pc = .unlock ∨ pc = .done :=
  (Reach.inv h).old _ _ _ hk (by have := lt_of_getW hj; omega)

/-- C54: with an empty recording no worker is ever started, and the render thread panics when it is about
to start the first one: from there no other step is possible. -/
theorem C54_empty {s : State Map Cell Pt} (h : Reach ops 0 m₀ s) :
    s.workers = [] ∧ (s.main = .spawn → ∀ s', Step ops 0 s s' → s'.main = .dead) := by
  have h0 : s.workers = [] := by
    induction h with
    | init => rfl
    | step s s' hr hs ih => cases hs <;> (try simp only [setW]) <;> simp_all
  refine ⟨h0, fun hm s' hs => ?_⟩
  cases hs <;> simp_all

/-! ## C53 -/

omit [DecidableEq Cell] in
lemma cycles_append (n : ℕ) (c : List Cell) : ∀ (css : List (List Cell)) (k : ℕ) (prev : List Cell),
    cycles n k prev (css ++ [c]) = cycles n k prev css ++
      [.processed (css.getLastD prev), .started (k + css.length) ((k + css.length) % n),
       .integrated (k + css.length) ((k + css.length) % n) c]
  | [], k, prev => by simp [cycles]
  | d :: css, k, prev => by
    have e : k + 1 + css.length = k + (d :: css).length := by simp; omega
    simp only [List.cons_append, cycles, cycles_append n c css (k + 1) d, e, List.getLastD_cons]

/-- Where a run is in its cycle. -/
inductive Phase (ops : MapOps Map Cell Pt) (n : ℕ) : List (Event Cell) → State Map Cell Pt → Prop
  /-- The changes are recorded in the map. -/
  | recorded {s} (css) (k r pc) : k + 1 = s.workers.length → css.length = s.workers.length →
      s.workers[k]? = some (pc, r) → (pc = .lockCells ∨ pc = .copy) → s.cells = [] →
      ops.changed s.map = css.getLastD [] → Phase ops n (cycles n 0 [] css) s
  /-- The changes have been copied. -/
  | copied {s} (css) (k r pc) : k + 1 = s.workers.length → css.length = s.workers.length →
      s.workers[k]? = some (pc, r) → (pc = .reset ∨ pc = .setFlag) →
      s.cells = css.getLastD [] → Phase ops n (cycles n 0 [] css) s
  /-- The worker has announced its end. -/
  | announced {s} (css) : s.finished = true → css.length = s.workers.length →
      (s.main = .check ∨ s.main = .lockCells ∨ s.main = .lockMap ∨ s.main = .process) →
      s.cells = css.getLastD [] → Phase ops n (cycles n 0 [] css) s
  /-- The changes have been processed. -/
  | processed {s} (css) : css.length = s.workers.length → (s.main = .clearFlag ∨ s.main = .spawn) →
      s.cells = [] → Phase ops n (cycles n 0 [] css ++ [.processed (css.getLastD [])]) s
  /-- The next worker has been started. -/
  | started {s} (css) (r pc) : css.length + 1 = s.workers.length →
      s.workers[css.length]? = some (pc, r) → (pc = .lockMap ∨ pc = .integrate) → s.cells = [] →
      Phase ops n (cycles n 0 [] css ++ [.processed (css.getLastD []),
        .started css.length (css.length % n)]) s
  /-- Somebody has panicked. -/
  | over {s} (evs) (css) : (s.main = .dead ∨ ∃ k r : ℕ, s.workers[k]? = some (.dead, r)) →
      evs <+: cycles n 0 [] css → Phase ops n evs s

/-- What the step shows is determined. -/
lemma shows_silent {s s' : State Map Cell Pt} {e : List (Event Cell)} (h : Shows ops s s' e)
    (h1 : s.main = .process → s'.main ≠ .clearFlag) (h2 : s'.workers.length = s.workers.length)
    (h3 : ∀ (k r : ℕ), s.workers[k]? = some (.integrate, r) → s'.workers[k]? ≠ some (.lockCells, r)) :
    e = [] := by
  cases h with
  | processed h4 h5 => exact absurd h5 (h1 h4)
  | started r h4 => rw [h4] at h2; simp at h2
  | integrated k r h4 h5 => exact absurd h5 (h3 k r h4)
  | nothing => rfl

omit [DecidableEq Cell] in
lemma Phase.prefix {evs : List (Event Cell)} {s : State Map Cell Pt} (h : Phase ops n evs s) :
    ∃ css, evs <+: cycles n 0 [] css := by
  cases h with
  | recorded css => exact ⟨css, List.prefix_rfl⟩
  | copied css => exact ⟨css, List.prefix_rfl⟩
  | announced css => exact ⟨css, List.prefix_rfl⟩
  | processed css =>
    refine ⟨css ++ [[]], ?_⟩
    rw [cycles_append]
    exact (List.prefix_append_right_inj _).mpr ⟨_, rfl⟩
  | started css =>
    refine ⟨css ++ [[]], ?_⟩
    rw [cycles_append]
    simp only [Nat.zero_add]
    exact (List.prefix_append_right_inj _).mpr ⟨_, rfl⟩
  | over evs css h1 h2 => exact ⟨css, h2⟩

omit [DecidableEq Cell] in
lemma Phase.init : Phase ops n [] (Viz.init m₀ : State Map Cell Pt) :=
  .announced [] rfl rfl (.inl rfl) rfl

/-- A panic stays. -/
lemma over_step {s s' : State Map Cell Pt} (hs : Step ops n s s')
    (h : s.main = .dead ∨ ∃ k r : ℕ, s.workers[k]? = some (.dead, r)) (hi : VInv s) :
    s'.main = .dead ∨ ∃ k r : ℕ, s'.workers[k]? = some (.dead, r) := by
  rcases h with h | ⟨k, r, h⟩
  · left
    cases hs <;> (try simp only [setW]) <;> simp_all
  · right
    refine ⟨k, r, ?_⟩
    have := hi.deadW _ _ h
    cases hs <;> (try simp only [setW]) <;> grind

/-- After a panic nothing is shown any more. -/
lemma over_shows {s s' : State Map Cell Pt} {e : List (Event Cell)} (hs : Step ops n s s')
    (h : s.main = .dead ∨ ∃ k r : ℕ, s.workers[k]? = some (.dead, r)) (hi : VInv s)
    (he : Shows ops s s' e) : e = [] := by
  have hb : ∀ (j r : ℕ), s.workers[j]? ≠ some (.integrate, r) := by
    intro j r hj
    have h1 := hi.busy _ _ _ hj (by simp [Busy])
    rcases h with h | ⟨k, r', h⟩
    · rw [h1.1] at h; cases h
    · have := lt_of_getW h
      rcases Nat.lt_or_ge (k + 1) s.workers.length with h2 | h2
      · rcases hi.old _ _ _ h h2 with h3 | h3 <;> cases h3
      · have : k = j := by omega
        subst this
        rw [h] at hj
        cases hj
  have hm : s.main = .dead ∨ s.main = .check ∧ s.finished = false := by
    rcases h with h | ⟨k, r', h⟩
    · exact .inl h
    · exact .inr (hi.deadW _ _ h)
  refine shows_silent he ?_ ?_ fun k r hk => absurd hk (hb k r)
  · intro h1; rw [h1] at hm; simp at hm
  · cases hs <;> (try simp only [setW, List.length_set]) <;> simp_all

set_option maxHeartbeats 1000000 in
lemma Phase.step {evs e : List (Event Cell)} {s s' : State Map Cell Pt} (hn : 0 < n)
    (hr : Reach ops n m₀ s) (h : Phase ops n evs s) (hs : Step ops n s s') (he : Shows ops s s' e) :
    Phase ops n (evs ++ e) s' := by
  have hi := Reach.inv hr
  by_cases hover : s.main = .dead ∨ ∃ k r : ℕ, s.workers[k]? = some (.dead, r)
  · rw [over_shows hs hover hi he, List.append_nil]
    obtain ⟨css, hc⟩ := h.prefix
    exact .over evs css (over_step hs hover hi) hc
  have hcyc := C54_cyclic hr hn
  have hsil := shows_silent he
  have hpre := h.prefix
  obtain ⟨b1, b2, b3, b4, b5, b6, b7, b8, b9, b10, b11, b12, b13⟩ := hi
  cases hs
  case checkBusy h1 h2 =>
    rw [hsil (by grind) (by grind) (by grind), List.append_nil]
    exact h
  case checkDone h1 h2 =>
    rw [hsil (by grind) (by grind) (by grind), List.append_nil]
    cases h with
    | announced css a1 a2 a3 a4 => exact .announced css a1 a2 (.inr (.inl rfl)) a4
    | _ => grind [Busy]
  case lockCells h1 h2 h3 =>
    rw [hsil (by grind) (by grind) (by grind), List.append_nil]
    cases h with
    | announced css a1 a2 a3 a4 => exact .announced css a1 a2 (.inr (.inr (.inl rfl))) a4
    | _ => grind [Busy]
  case lockMap h1 h2 h3 =>
    rw [hsil (by grind) (by grind) (by grind), List.append_nil]
    cases h with
    | announced css a1 a2 a3 a4 => exact .announced css a1 a2 (.inr (.inr (.inr rfl))) a4
    | _ => grind [Busy]
  case lockCellsPoisoned h1 h2 h3 =>
    rw [hsil (by grind) (by grind) (by grind), List.append_nil]
    exact .over evs hpre.choose (.inl rfl) hpre.choose_spec
  case lockMapPoisoned h1 h2 h3 =>
    rw [hsil (by grind) (by grind) (by grind), List.append_nil]
    exact .over evs hpre.choose (.inl rfl) hpre.choose_spec
  case processPanic h1 h2 =>
    rw [hsil (by grind) (by grind) (by grind), List.append_nil]
    exact .over evs hpre.choose (.inl rfl) hpre.choose_spec
  case spawnPanic h1 h2 =>
    rw [hsil (by grind) (by grind) (by grind), List.append_nil]
    exact .over evs hpre.choose (.inl rfl) hpre.choose_spec
  case clearFlag h1 =>
    rw [hsil (by grind) (by grind) (by grind), List.append_nil]
    cases h with
    | processed css a1 a2 a3 => exact .processed css a1 (.inr rfl) a3
    | _ => grind [Busy]
  case process t h1 h2 =>
    have e1 : e = [.processed s.cells] := by
      cases he with
      | processed => rfl
      | started r h4 => simp at h4
      | integrated k r h4 h5 => simp only at h5; rw [h4] at h5; cases h5
      | nothing h4 => have := h4 h1; simp at this
    rw [e1]
    cases h with
    | announced css a1 a2 a3 a4 => rw [a4]; exact .processed css a2 (.inl rfl) rfl
    | _ => grind [Busy]
  case spawn h1 h2 =>
    have e1 : e = [.started s.workers.length s.index] := by
      cases he with
      | processed h4 h5 => rw [h1] at h4; cases h4
      | started r h4 => simp at h4; rw [h4]
      | integrated k r h4 h5 =>
        simp only at h5
        rw [List.getElem?_append_left (lt_of_getW h4), h4] at h5; cases h5
      | nothing _ h4 => simp at h4
    rw [e1]
    cases h with
    | processed css a1 a2 a3 =>
      rw [hcyc.1, ← a1, List.append_assoc]
      refine .started css (css.length % n) .lockMap (by simp [a1]) ?_ (.inl rfl) a3
      rw [a1]; exact List.getElem?_concat_length
    | _ => grind [Busy]
  case wLockMapPoisoned k r h1 h2 h3 =>
    rw [hsil (by simp only [setW]; grind) (by simp [setW]) (by simp only [setW]; grind), List.append_nil]
    refine .over evs hpre.choose (.inr ⟨k, r, ?_⟩) hpre.choose_spec
    simp [setW, lt_of_getW h1]
  case wIntegratePanic k r h1 h2 =>
    rw [hsil (by simp only [setW]; grind) (by simp [setW]) (by simp only [setW]; grind), List.append_nil]
    refine .over evs hpre.choose (.inr ⟨k, r, ?_⟩) hpre.choose_spec
    simp [setW, lt_of_getW h1]
  case wLockCellsPoisoned k r h1 h2 h3 =>
    rw [hsil (by simp only [setW]; grind) (by simp [setW]) (by simp only [setW]; grind), List.append_nil]
    refine .over evs hpre.choose (.inr ⟨k, r, ?_⟩) hpre.choose_spec
    simp [setW, lt_of_getW h1]
  case wLockMap k r h1 h2 h3 =>
    have hk := b1 _ _ _ h1 (by simp [Busy])
    rw [hsil (by simp only [setW]; grind) (by simp [setW]) (by simp only [setW]; grind), List.append_nil]
    cases h with
    | started css r' pc a1 a2 a3 a4 =>
      have : k = css.length := by omega
      subst this
      exact .started css r .integrate (by simpa [setW] using a1)
        (by simp [setW, lt_of_getW h1]) (.inr rfl) a4
    | _ => grind [Busy]
  case wIntegrate k r m h1 h2 =>
    have hk := b1 _ _ _ h1 (by simp [Busy])
    have e1 : e = [.integrated k r (ops.changed m)] := by
      cases he with
      | processed h4 h5 => rw [hk.1] at h4; cases h4
      | started r h4 =>
        have := congrArg List.length h4
        simp [setW] at this
      | integrated k' r' h4 h5 =>
        have := b1 _ _ _ h4 (by simp [Busy])
        have : k' = k := by omega
        subst this
        rw [h1] at h4
        cases h4
        rfl
      | nothing _ _ h4 => exact absurd (by simp [setW, lt_of_getW h1]) (h4 k r h1)
    rw [e1]
    have hrk := hcyc.2.2 _ _ _ h1
    cases h with
    | started css r' pc a1 a2 a3 a4 =>
      have : k = css.length := by omega
      subst this
      have := cycles_append n (ops.changed m) css 0 []
      simp only [Nat.zero_add] at this
      have e2 : cycles n 0 [] css ++ [.processed (css.getLastD []), .started css.length (css.length % n)] ++
          [.integrated css.length r (ops.changed m)] = cycles n 0 [] (css ++ [ops.changed m]) := by
        rw [this, hrk, List.append_assoc]; rfl
      rw [e2]
      refine .recorded _ css.length r .lockCells ?_ ?_ ?_ (.inl rfl) a4 ?_
      · simp [setW]; omega
      · simp [setW]; omega
      · simp [setW, lt_of_getW h1]
      · simp
    | _ => grind [Busy]
  case wLockCells k r h1 h2 h3 =>
    have hk := b1 _ _ _ h1 (by simp [Busy])
    rw [hsil (by simp only [setW]; grind) (by simp [setW]) (by simp only [setW]; grind), List.append_nil]
    cases h with
    | recorded css k' r' pc a1 a2 a3 a4 a5 a6 =>
      exact .recorded css k r .copy (by simpa [setW] using hk.2.2) (by simpa [setW] using a2)
        (by simp [setW, lt_of_getW h1]) (.inr rfl) a5 a6
    | _ => grind [Busy]
  case wCopy k r h1 =>
    have hk := b1 _ _ _ h1 (by simp [Busy])
    rw [hsil (by simp only [setW]; grind) (by simp [setW]) (by simp only [setW]; grind), List.append_nil]
    cases h with
    | recorded css k' r' pc a1 a2 a3 a4 a5 a6 =>
      exact .copied css k r .reset (by simpa [setW] using hk.2.2) (by simpa [setW] using a2)
        (by simp [setW, lt_of_getW h1]) (.inl rfl) a6
    | _ => grind [Busy]
  case wReset k r h1 =>
    have hk := b1 _ _ _ h1 (by simp [Busy])
    rw [hsil (by simp only [setW]; grind) (by simp [setW]) (by simp only [setW]; grind), List.append_nil]
    cases h with
    | copied css k' r' pc a1 a2 a3 a4 a5 =>
      exact .copied css k r .setFlag (by simpa [setW] using hk.2.2) (by simpa [setW] using a2)
        (by simp [setW, lt_of_getW h1]) (.inr rfl) a5
    | _ => grind [Busy]
  case wSetFlag k r h1 =>
    have hk := b1 _ _ _ h1 (by simp [Busy])
    rw [hsil (by simp only [setW]; grind) (by simp [setW]) (by simp only [setW]; grind), List.append_nil]
    cases h with
    | copied css k' r' pc a1 a2 a3 a4 a5 =>
      exact .announced css rfl (by simpa [setW] using a2) (.inl hk.1) a5
    | _ => grind [Busy]
  case wUnlock k r h1 =>
    rw [hsil (by simp only [setW]; grind) (by simp [setW]) (by simp only [setW]; grind), List.append_nil]
    have hne : ∀ (j : ℕ) (pc : WorkerPc) (r' : ℕ), s.workers[j]? = some (pc, r') → pc ≠ .unlock →
        (s.workers.set k (.done, r))[j]? = some (pc, r') := by
      intro j pc r' hj hpc
      rw [List.getElem?_set_ne]
      · exact hj
      · rintro rfl; rw [h1] at hj; simp only [Option.some.injEq, Prod.mk.injEq] at hj; exact hpc hj.1.symm
    cases h with
    | recorded css k' r' pc a1 a2 a3 a4 a5 a6 =>
      exact .recorded css k' r' pc (by simpa [setW] using a1) (by simpa [setW] using a2)
        (hne _ _ _ a3 (by rcases a4 with rfl | rfl <;> simp)) a4 a5 a6
    | copied css k' r' pc a1 a2 a3 a4 a5 =>
      exact .copied css k' r' pc (by simpa [setW] using a1) (by simpa [setW] using a2)
        (hne _ _ _ a3 (by rcases a4 with rfl | rfl <;> simp)) a4 a5
    | announced css a1 a2 a3 a4 => exact .announced css a1 (by simpa [setW] using a2) a3 a4
    | processed css a1 a2 a3 => exact .processed css (by simpa [setW] using a1) a2 a3
    | started css r' pc a1 a2 a3 a4 =>
      exact .started css r' pc (by simpa [setW] using a1)
        (hne _ _ _ a2 (by rcases a3 with rfl | rfl <;> simp)) a3 a4
    | over evs css a1 a2 => exact absurd a1 hover

lemma Run.reach {evs : List (Event Cell)} {s : State Map Cell Pt} (h : Run ops n m₀ evs s) :
    Reach ops n m₀ s := by
  induction h with
  | init => exact .init
  | step _ hs _ ih => exact .step _ _ ih hs

/-- C53: nothing gets lost between worker and renderer. Whatever the interleaving, an observer sees cycle
after cycle: the renderer processes exactly the list of changed cells recorded by the previous
integration (nothing before the first), the next integration is started, it is carried out. So the
changes of every finished integration are processed exactly once before the next integration starts. -/
theorem C53_cycles {evs : List (Event Cell)} {s : State Map Cell Pt} (hn : 0 < n)
    (h : Run ops n m₀ evs s) : ∃ css, evs <+: cycles n 0 [] css := by
  suffices H : Phase ops n evs s from H.prefix
  induction h with
  | init => exact Phase.init
  | step hr hs he ih => exact ih.step hn (Run.reach hr) hs he

/-- C53: everything reachable is seen: every reachable state has a run with its observations. -/
theorem C53_runs {s : State Map Cell Pt} (h : Reach ops n m₀ s) : ∃ evs, Run ops n m₀ evs s := by
  classical
  induction h with
  | init => exact ⟨_, .init⟩
  | step s s' hr hs ih =>
    obtain ⟨evs, hrun⟩ := ih
    suffices H : ∃ e, Shows ops s s' e from ⟨_, .step hrun hs H.choose_spec⟩
    cases hs
    case process t h1 h2 => exact ⟨_, .processed _ _ h1 rfl⟩
    case spawn h1 h2 => exact ⟨_, .started _ _ _ rfl⟩
    case wIntegrate k r m h1 h2 =>
      exact ⟨_, .integrated _ _ k r h1 (by simp [setW, lt_of_getW h1])⟩
    all_goals
      refine ⟨[], .nothing _ _ ?_ ?_ ?_⟩ <;> (try simp only [setW, List.length_set]) <;> grind


/-! ## C55 -/

/-- One batch of changed cells: the table is brought up to date for the cells of the batch and left alone
for the others. -/
lemma processCells_spec {m : Map} : ∀ {l : List Cell} {t t' : Cell → Option Pt},
    processCells ops m l t = some t' →
    (∀ c ∉ l, t' c = t c) ∧
    ∀ c ∈ l, (ops.occupied m c = some true ∧ (t' c = t c ∧ (t c).isSome ∨ t' c = some (ops.point m c))) ∨
      (ops.occupied m c = some false ∧ t' c = none)
  | [], t, t', h => by
    cases h; exact ⟨fun _ _ => rfl, fun _ h => by simp at h⟩
  | d :: l, t, t', h => by
    unfold processCells at h
    have aux : ∀ (t1 : Cell → Option Pt) (b : Bool), ops.occupied m d = some b →
        (∀ c, c ≠ d → t1 c = t c) →
        (b = true → (t d).isSome ∧ t1 d = t d ∨ t1 d = some (ops.point m d)) →
        (b = false → t1 d = none) → processCells ops m l t1 = some t' →
        (∀ c ∉ d :: l, t' c = t c) ∧ ∀ c ∈ d :: l,
          (ops.occupied m c = some true ∧ (t' c = t c ∧ (t c).isSome ∨ t' c = some (ops.point m c))) ∨
          (ops.occupied m c = some false ∧ t' c = none) := by
      intro t1 b hb ht1 htrue hfalse h
      obtain ⟨i1, i2⟩ := processCells_spec h
      refine ⟨fun c hc => ?_, fun c hc => ?_⟩
      · rw [List.mem_cons, not_or] at hc
        rw [i1 c hc.2, ht1 c hc.1]
      · by_cases hcd : c = d
        · subst hcd
          by_cases hcl : c ∈ l
          · rcases i2 c hcl with ⟨h1, h2⟩ | ⟨h1, h2⟩
            · left
              refine ⟨h1, ?_⟩
              rw [hb] at h1
              simp only [Option.some.injEq] at h1
              rcases h2 with ⟨h2, h3⟩ | h2
              · rcases htrue h1 with ⟨h4, h5⟩ | h4
                · exact .inl ⟨by rw [h2, h5], h4⟩
                · exact .inr (by rw [h2, h4])
              · exact .inr h2
            · exact .inr ⟨h1, h2⟩
          · rw [i1 c hcl]
            cases b with
            | true =>
              left
              refine ⟨hb, ?_⟩
              rcases htrue rfl with ⟨h4, h5⟩ | h4
              · exact .inl ⟨h5, h4⟩
              · exact .inr h4
            | false => exact .inr ⟨hb, hfalse rfl⟩
        · have hcl : c ∈ l := (List.mem_cons.mp hc).resolve_left hcd
          have := i2 c hcl
          rwa [ht1 c hcd] at this
    cases ho : ops.occupied m d with
    | none => rw [ho] at h; cases h
    | some b =>
      rw [ho] at h
      cases b with
      | true =>
        refine aux _ true ho ?_ ?_ (by simp) h
        · intro c hc; split_ifs <;> simp [hc]
        · intro _
          split_ifs with hs
          · exact .inl ⟨hs, rfl⟩
          · exact .inr (by simp)
      | false =>
        refine aux _ false ho ?_ (by simp) ?_ h
        · intro c hc; split_ifs <;> simp [hc]
        · intro _
          split_ifs with hs
          · simp
          · simpa using hs

/-- The tracking of changes is sound for what happens in the runs: resetting the map only empties the list of
recorded cells, and an integration that starts with an empty list records every cell `C` cares about whose
occupancy it changes, and does not move the points of occupied cells. -/
structure Sound (ops : MapOps Map Cell Pt) (n : ℕ) (m₀ : Map) (C : Cell → Prop) : Prop where
  start : ops.changed m₀ = [] ∧ ∀ c, C c → ops.occupied m₀ c ≠ some true
  reset : ∀ m, ops.changed (ops.reset m) = [] ∧ ∀ c, ops.occupied (ops.reset m) c = ops.occupied m c ∧
    ops.point (ops.reset m) c = ops.point m c
  integrate : ∀ (s : State Map Cell Pt) (k r : ℕ) m', Reach ops n m₀ s → s.workers[k]? = some (WorkerPc.integrate, r) →
    ops.integrate r s.map = .ret m' → ops.changed s.map = [] →
    (∀ c, C c → c ∉ ops.changed m' → (ops.occupied m' c = some true ↔ ops.occupied s.map c = some true)) ∧
    ∀ c, C c → ops.occupied s.map c = some true → ops.point m' c = ops.point s.map c

/-- The table is what the map says, except for the cells in the list. -/
def Pending (ops : MapOps Map Cell Pt) (C : Cell → Prop) (t : Cell → Option Pt) (m : Map)
    (l : List Cell) : Prop :=
  ∀ c, C c → (c ∉ l → t c = if ops.occupied m c = some true then some (ops.point m c) else none) ∧
    ∀ p, t c = some p → p = ops.point m c

omit [DecidableEq Cell] in
lemma _root_.Verif.Spec.Mirrors.pending {C : Cell → Prop} {t : Cell → Option Pt} {m : Map} (h : Mirrors ops C t m)
    (l : List Cell) : Pending ops C t m l := by
  intro c hc
  have := h c hc
  refine ⟨fun _ => this, fun p hp => ?_⟩
  rw [this] at hp
  split_ifs at hp
  · simpa using hp.symm

/-- Where the table and the map differ during a cycle. -/
inductive Drawn (ops : MapOps Map Cell Pt) (C : Cell → Prop) (s : State Map Cell Pt) : Prop
  | recorded (k r : ℕ) (pc) : s.workers[k]? = some (pc, r) → (pc = .lockCells ∨ pc = .copy) →
      Pending ops C s.tracked s.map (ops.changed s.map) → Drawn ops C s
  | copied (k r : ℕ) : s.workers[k]? = some (.reset, r) →
      Pending ops C s.tracked s.map s.cells → Drawn ops C s
  | reset (k r : ℕ) : s.workers[k]? = some (.setFlag, r) →
      Pending ops C s.tracked s.map s.cells → ops.changed s.map = [] → Drawn ops C s
  | announced : s.finished = true →
      (s.main = .check ∨ s.main = .lockCells ∨ s.main = .lockMap ∨ s.main = .process) →
      Pending ops C s.tracked s.map s.cells → ops.changed s.map = [] → Drawn ops C s
  | processed : (s.main = .clearFlag ∨ s.main = .spawn) → Mirrors ops C s.tracked s.map →
      ops.changed s.map = [] → Drawn ops C s
  | started (k r : ℕ) (pc) : s.workers[k]? = some (pc, r) → (pc = .lockMap ∨ pc = .integrate) →
      Mirrors ops C s.tracked s.map → ops.changed s.map = [] → Drawn ops C s
  | over : (s.main = .dead ∨ ∃ k r : ℕ, s.workers[k]? = some (.dead, r)) → Drawn ops C s

set_option maxHeartbeats 1000000 in
/-- One step, if resetting is sound and so is the integration that the step makes, if it makes one. -/
lemma Drawn.step_local {C : Cell → Prop} {s s' : State Map Cell Pt} (hreset : ∀ m, ops.changed (ops.reset m) = [] ∧
      ∀ c, ops.occupied (ops.reset m) c = ops.occupied m c ∧ ops.point (ops.reset m) c = ops.point m c)
    (hint : ∀ (k r : ℕ), s.workers[k]? = some (WorkerPc.integrate, r) → ops.integrate r s.map = .ret s'.map →
      ops.changed s.map = [] →
      (∀ c, C c → c ∉ ops.changed s'.map → (ops.occupied s'.map c = some true ↔ ops.occupied s.map c = some true)) ∧
      ∀ c, C c → ops.occupied s.map c = some true → ops.point s'.map c = ops.point s.map c)
    (hr : Reach ops n m₀ s) (h : Drawn ops C s) (hs : Step ops n s s') : Drawn ops C s' := by
  have hi := Reach.inv hr
  by_cases hover : s.main = .dead ∨ ∃ k r : ℕ, s.workers[k]? = some (.dead, r)
  · exact .over (over_step hs hover hi)
  obtain ⟨b1, b2, b3, b4, b5, b6, b7, b8, b9, b10, b11, b12, b13⟩ := hi
  cases hs
  case checkBusy h1 h2 => exact h
  case checkDone h1 h2 =>
    cases h with
    | announced a1 a2 a3 a4 => exact .announced a1 (.inr (.inl rfl)) a3 a4
    | _ => grind [Busy]
  case lockCells h1 h2 h3 =>
    cases h with
    | announced a1 a2 a3 a4 => exact .announced a1 (.inr (.inr (.inl rfl))) a3 a4
    | _ => grind [Busy]
  case lockMap h1 h2 h3 =>
    cases h with
    | announced a1 a2 a3 a4 => exact .announced a1 (.inr (.inr (.inr rfl))) a3 a4
    | _ => grind [Busy]
  case lockCellsPoisoned h1 h2 h3 => exact .over (.inl rfl)
  case lockMapPoisoned h1 h2 h3 => exact .over (.inl rfl)
  case processPanic h1 h2 => exact .over (.inl rfl)
  case spawnPanic h1 h2 => exact .over (.inl rfl)
  case clearFlag h1 =>
    cases h with
    | processed a1 a2 a3 => exact .processed (.inr rfl) a2 a3
    | _ => grind [Busy]
  case process t h1 h2 =>
    cases h with
    | announced a1 a2 a3 a4 =>
      refine .processed (.inl rfl) (fun c hc => ?_) a4
      change t c = if ops.occupied s.map c = some true then some (ops.point s.map c) else none
      obtain ⟨p1, p2⟩ := processCells_spec h2
      obtain ⟨q1, q2⟩ := a3 c hc
      by_cases hcl : c ∈ s.cells
      · rcases p2 c hcl with ⟨o1, o2⟩ | ⟨o1, o2⟩
        · rw [if_pos o1]
          rcases o2 with ⟨o2, o3⟩ | o2
          · obtain ⟨p, hp⟩ := Option.isSome_iff_exists.mp o3
            rw [o2, hp, q2 p hp]
          · exact o2
        · rw [if_neg (by rw [o1]; simp)]; exact o2
      · rw [p1 c hcl]; exact q1 hcl
    | _ => grind [Busy]
  case spawn h1 h2 =>
    cases h with
    | processed a1 a2 a3 =>
      exact .started s.workers.length s.index .lockMap List.getElem?_concat_length (.inl rfl) a2 a3
    | _ => grind [Busy]
  case wLockMapPoisoned k r h1 h2 h3 =>
    exact .over (.inr ⟨k, r, by simp [setW, lt_of_getW h1]⟩)
  case wIntegratePanic k r h1 h2 =>
    exact .over (.inr ⟨k, r, by simp [setW, lt_of_getW h1]⟩)
  case wLockCellsPoisoned k r h1 h2 h3 =>
    exact .over (.inr ⟨k, r, by simp [setW, lt_of_getW h1]⟩)
  case wLockMap k r h1 h2 h3 =>
    cases h with
    | started k' r' pc a1 a2 a3 a4 =>
      exact .started k r .integrate (by simp [setW, lt_of_getW h1]) (.inr rfl) a3 a4
    | _ => grind [Busy]
  case wIntegrate k r m h1 h2 =>
    cases h with
    | started k' r' pc a1 a2 a3 a4 =>
      refine .recorded k r .lockCells (by simp [setW, lt_of_getW h1]) (.inl rfl) fun c hc => ?_
      obtain ⟨p1, p2⟩ := hint k r h1 h2 a4
      have e := a3 c hc
      change (c ∉ ops.changed m → s.tracked c = _) ∧ ∀ p, s.tracked c = some p → p = ops.point m c
      rw [e]
      constructor
      · intro hcm
        have hiff := p1 c hc hcm
        change _ = if ops.occupied m c = some true then some (ops.point m c) else none
        by_cases ho : ops.occupied s.map c = some true
        · rw [if_pos ho, if_pos (hiff.mpr ho), p2 c hc ho]
        · rw [if_neg ho, if_neg fun h => ho (hiff.mp h)]
      · intro p hp
        split_ifs at hp with ho
        · rw [p2 c hc ho]; simpa using hp.symm
    | _ => grind [Busy]
  case wLockCells k r h1 h2 h3 =>
    cases h with
    | recorded k' r' pc a1 a2 a3 =>
      exact .recorded k r .copy (by simp [setW, lt_of_getW h1]) (.inr rfl) a3
    | _ => grind [Busy]
  case wCopy k r h1 =>
    cases h with
    | recorded k' r' pc a1 a2 a3 => exact .copied k r (by simp [setW, lt_of_getW h1]) a3
    | _ => grind [Busy]
  case wReset k r h1 =>
    cases h with
    | copied k' r' a1 a2 =>
      obtain ⟨p1, p2⟩ := hreset s.map
      refine .reset k r (by simp [setW, lt_of_getW h1]) (fun c hc => ?_) p1
      obtain ⟨q1, q2⟩ := a2 c hc
      obtain ⟨e1, e2⟩ := p2 c
      change (c ∉ s.cells → s.tracked c = if ops.occupied (ops.reset s.map) c = some true then
        some (ops.point (ops.reset s.map) c) else none) ∧
        ∀ p, s.tracked c = some p → p = ops.point (ops.reset s.map) c
      rw [e1, e2]
      exact ⟨q1, q2⟩
    | _ => grind [Busy]
  case wSetFlag k r h1 =>
    have hk := b1 _ _ _ h1 (by simp [Busy])
    cases h with
    | reset k' r' a1 a2 a3 => exact .announced rfl (.inl hk.1) a2 a3
    | _ => grind [Busy]
  case wUnlock k r h1 =>
    have hne : ∀ (j : ℕ) (pc : WorkerPc) (r' : ℕ), s.workers[j]? = some (pc, r') → pc ≠ .unlock →
        (s.workers.set k (.done, r))[j]? = some (pc, r') := by
      intro j pc r' hj hpc
      rw [List.getElem?_set_ne]
      · exact hj
      · rintro rfl; rw [h1] at hj; simp only [Option.some.injEq, Prod.mk.injEq] at hj; exact hpc hj.1.symm
    cases h with
    | recorded k' r' pc a1 a2 a3 =>
      exact .recorded k' r' pc (hne _ _ _ a1 (by rcases a2 with rfl | rfl <;> simp)) a2 a3
    | copied k' r' a1 a2 => exact .copied k' r' (hne _ _ _ a1 (by simp)) a2
    | reset k' r' a1 a2 a3 => exact .reset k' r' (hne _ _ _ a1 (by simp)) a2 a3
    | announced a1 a2 a3 a4 => exact .announced a1 a2 a3 a4
    | processed a1 a2 a3 => exact .processed a1 a2 a3
    | started k' r' pc a1 a2 a3 a4 =>
      exact .started k' r' pc (hne _ _ _ a1 (by rcases a2 with rfl | rfl <;> simp)) a2 a3 a4
    | over a1 => exact absurd a1 hover

lemma Drawn.step {C : Cell → Prop} (hsound : Sound ops n m₀ C) {s s' : State Map Cell Pt}
    (hr : Reach ops n m₀ s) (h : Drawn ops C s) (hs : Step ops n s s') : Drawn ops C s' :=
  h.step_local hsound.reset (fun k r h1 h2 => hsound.integrate s k r _ hr h1 h2) hr hs

/-- C55, for any map whose tracking of changes is sound: whenever the renderer has processed a batch, and
until the next integration, the table of drawn cells is exactly what the map says: a cell is drawn iff
the map reports it occupied, and it is drawn at the map's point for it. -/
theorem C55_mirrors {C : Cell → Prop} (hsound : Sound ops n m₀ C) {s : State Map Cell Pt}
    (hr : Reach ops n m₀ s) (hm : s.main = .clearFlag ∨ s.main = .spawn) :
    Mirrors ops C s.tracked s.map := by
  have hd : Drawn ops C s := by
    clear hm
    induction hr with
    | init =>
      refine .announced rfl (.inl rfl) (fun c hc => ⟨fun _ => ?_, fun p hp => ?_⟩) hsound.start.1
      · change none = if ops.occupied m₀ c = some true then some (ops.point m₀ c) else none
        rw [if_neg (hsound.start.2 c hc)]
      · cases hp
    | step s s' hr hs ih => exact ih.step hsound hr hs
  obtain ⟨b1, -, b3, -⟩ := Reach.inv hr
  cases hd with
  | processed a1 a2 a3 => exact a2
  | _ => grind [Busy]

end Verif.Props
