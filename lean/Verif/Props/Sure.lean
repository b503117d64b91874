import Verif.Spec.Sure
import Verif.Props.OccMap
import Verif.Props.Math
import Verif.Props.Order

/-!
# C118: probabilities 0 and 1, and limits that cross
-/

namespace Verif.Props
open Scalar Spec

section
variable {f : Fmt} {nm : LidarNoiseModel (Fp f)}

/-- C118: the log-odds of 1 and 0 are the infinities. -/
theorem C118_logodds [Libm (Fp f)] (hl : LnEnds f) {p : Fp f} :
    (p.Is 1 → logoddsFromProbability p = .inf false) ∧ (p.Is 0 → logoddsFromProbability p = .inf true) := by
  constructor
  · intro hp
    obtain ⟨h1, h2, -⟩ := one_sub hp zero_le_one le_rfl
    rw [sub_self, Fmt.rnd_of_rep Fmt.rep_zero] at h1
    obtain ⟨nz, r1, r2, e⟩ := h1
    have e1 : p.div ((Fp.lit 1).sub p) = .inf false := by
      rw [e] at h2 ⊢
      obtain ⟨nz', q1, q2, rfl⟩ := hp
      have hnz : nz' = false := by
        rw [Bool.eq_false_iff]
        exact fun h => one_ne_zero (q2 h)
      subst hnz
      simp only [Fp.div, if_true, if_neg (one_ne_zero (α := ℚ)), h2, Bool.xor_false]
      simp [Fp.sgn]
    show Libm.ln (p.div ((Fp.lit 1).sub p)) = _
    rw [e1]
    exact hl.top
  · intro hp
    obtain ⟨h1, -, -⟩ := one_sub hp le_rfl zero_le_one
    rw [sub_zero, Fmt.rnd_of_rep rep_one] at h1
    refine hl.zero _ ?_
    show (p.div ((Fp.lit 1).sub p)).Is 0
    obtain ⟨nz, r1, r2, e⟩ := h1
    rw [e]
    obtain ⟨nz', q1, q2, rfl⟩ := hp
    simp only [Fp.div, if_neg (one_ne_zero (α := ℚ)), zero_div]
    exact Fp.ofRat_is_rep Fmt.rep_zero

lemma add_inf_cases (v : Fp f) (s : Bool) : v.add (.inf s) = .inf s ∨ v.add (.inf s) = .nan := by
  rcases v with _ | a | _
  · exact .inr rfl
  · cases a <;> cases s <;> first | exact .inl rfl | exact .inr rfl
  · exact .inl rfl

lemma min_inf {x : Fp f} (hx : x.isNaN = false) : (Fp.inf false).min x = x := by
  rcases x with _ | a | _
  · cases hx
  · cases a <;> rfl
  · rfl

lemma max_inf {x : Fp f} (hx : x.isNaN = false) : (Fp.inf true).max x = x := by
  rcases x with _ | a | _
  · cases hx
  · cases a <;> rfl
  · rfl

/-- C118: with a hit of probability 1, one hit takes every value, NaN and the infinities among them, to the maximum; with
a miss of probability 0, one miss takes every value to the minimum. -/
theorem C118_step (v : Fp f) :
    (nm.hit = .inf false → nm.max.isNaN = false → Seen.apply nm v .hit = nm.max) ∧
    (nm.miss = .inf true → nm.min.isNaN = false → Seen.apply nm v .miss = nm.min) := by
  constructor
  · intro h hx
    show (v.add nm.hit).min nm.max = nm.max
    rw [h]
    rcases add_inf_cases v false with e | e <;> rw [e]
    · exact min_inf hx
    · rfl
  · intro h hx
    show (v.add nm.miss).max nm.min = nm.min
    rw [h]
    rcases add_inf_cases v true with e | e <;> rw [e]
    · exact max_inf hx
    · rfl

lemma lastTold_append (obs : List Seen) (s : Seen) :
    lastTold (obs ++ [s]) = if s.tells = true then some s else lastTold obs := by
  unfold lastTold
  rw [List.filter_append]
  cases s <;> simp [Seen.tells]

/-- Folding observations, if each that tells something decides alone. -/
lemma fold_decides {P : Seen → Fp f → Prop} (hP : ∀ s v, s.tells = true → P s (Seen.apply nm v s)) (obs : List Seen)
    (v : Fp f) : (lastTold obs = none ∧ obs.foldl (Seen.apply nm) v = v) ∨
      ∃ s, lastTold obs = some s ∧ s.tells = true ∧ P s (obs.foldl (Seen.apply nm) v) := by
  induction obs using List.reverseRecOn with
  | nil => exact .inl ⟨rfl, rfl⟩
  | append_singleton obs s ih =>
    rw [lastTold_append, List.foldl_append, List.foldl_cons, List.foldl_nil]
    by_cases hs : s.tells = true
    · rw [if_pos hs]
      exact .inr ⟨s, rfl, hs, hP s _ hs⟩
    · rw [if_neg hs]
      cases s
      · exact absurd rfl hs
      · exact absurd rfl hs
      · exact ih

/-- C118: with both, the value is the maximum if the last observation was a hit, the minimum if it was a miss. -/
theorem C118_last (hh : nm.hit = .inf false) (hm : nm.miss = .inf true) (hx : nm.max.isNaN = false)
    (hn : nm.min.isNaN = false) (obs : List Seen) (v : Fp f) :
    (lastTold obs = some .hit → obs.foldl (Seen.apply nm) v = nm.max) ∧
    (lastTold obs = some .miss → obs.foldl (Seen.apply nm) v = nm.min) ∧
    (lastTold obs = none → obs.foldl (Seen.apply nm) v = v) := by
  rcases fold_decides (nm := nm) (P := fun s u => u = match s with | .hit => nm.max | .miss => nm.min | .nothing => u)
    (fun s v hs => by
      cases s
      · exact (C118_step v).1 hh hx
      · exact (C118_step v).2 hm hn
      · cases hs) obs v with ⟨e, h⟩ | ⟨s, e, hs, h⟩
  · rw [e]
    exact ⟨nofun, nofun, fun _ => h⟩
  · rw [e]
    cases s
    · exact ⟨fun _ => h, nofun, nofun⟩
    · exact ⟨nofun, fun _ => h, nofun⟩
    · cases hs

/-- C118: with a hit and a maximum of probability 1, and a miss of any probability but 0, one hit is for ever; with a miss
and a minimum of probability 0, and a hit of any probability but 1, one miss is for ever. -/
theorem C118_for_ever (obs : List Seen) (v : Fp f) :
    (nm.hit = .inf false → nm.max = .inf false → nm.miss.isNaN = false → nm.miss ≠ .inf true → nm.min.isNaN = false →
      Seen.hit ∈ obs → obs.foldl (Seen.apply nm) v = .inf false) ∧
    (nm.miss = .inf true → nm.min = .inf true → nm.hit.isNaN = false → nm.hit ≠ .inf false → nm.max.isNaN = false →
      Seen.miss ∈ obs → obs.foldl (Seen.apply nm) v = .inf true) := by
  have add1 : ∀ {s : Bool} {x : Fp f}, x.isNaN = false → x ≠ .inf (!s) → (Fp.inf s).add x = .inf s := by
    intro s x h1 h2
    rcases x with _ | a | _
    · cases h1
    · cases s <;> cases a <;> first | rfl | exact absurd rfl h2
    · rfl
  constructor
  · intro hh hx hm hm' hn hmem
    have hix : nm.max.isNaN = false := by rw [hx]; rfl
    have stay : ∀ l : List Seen, l.foldl (Seen.apply nm) (.inf false) = .inf false := by
      intro l
      induction l with
      | nil => rfl
      | cons s l ih =>
        have : Seen.apply nm (.inf false) s = .inf false := by
          cases s
          · rw [(C118_step _).1 hh hix, hx]
          · show ((Fp.inf false).add nm.miss).max nm.min = _
            rw [add1 (s := false) hm hm']
            unfold Fp.max
            rw [hn]
            rcases e : nm.min with _ | a | _
            · rw [e] at hn; cases hn
            · cases a <;> rfl
            · rfl
          · rfl
        rw [List.foldl_cons, this]
        exact ih
    induction obs generalizing v with
    | nil => cases hmem
    | cons s l ih =>
      rw [List.foldl_cons]
      rcases List.mem_cons.mp hmem with rfl | h
      · rw [(C118_step v).1 hh hix, hx]
        exact stay l
      · exact ih _ h
  · intro hh hx hm hm' hn hmem
    have hix : nm.min.isNaN = false := by rw [hx]; rfl
    have stay : ∀ l : List Seen, l.foldl (Seen.apply nm) (.inf true) = .inf true := by
      intro l
      induction l with
      | nil => rfl
      | cons s l ih =>
        have : Seen.apply nm (.inf true) s = .inf true := by
          cases s
          · show ((Fp.inf true).add nm.hit).min nm.max = _
            rw [add1 (s := true) hm hm']
            unfold Fp.min
            rw [hn]
            rcases e : nm.max with _ | a | _
            · rw [e] at hn; cases hn
            · cases a <;> rfl
            · rfl
          · rw [(C118_step _).2 hh hix, hx]
          · rfl
        rw [List.foldl_cons, this]
        exact ih
    induction obs generalizing v with
    | nil => cases hmem
    | cons s l ih =>
      rw [List.foldl_cons]
      rcases List.mem_cons.mp hmem with rfl | h
      · rw [(C118_step v).2 hh hix, hx]
        exact stay l
      · exact ih _ h

/-- C118: `new` does not ask that the minimum be at most the maximum. If the maximum is at most the threshold and the
minimum above it, the picture is inverted: a cell whose last observation was a hit is below the threshold, one whose last
observation was a miss is above it. -/
theorem C118_crossed (h1 : FLe nm.max nm.threshold) (h2 : nm.threshold.lt nm.min = true) (obs : List Seen) (v : Fp f) :
    (lastTold obs = some .hit → nm.threshold.lt (obs.foldl (Seen.apply nm) v) = false) ∧
    (lastTold obs = some .miss → nm.threshold.lt (obs.foldl (Seen.apply nm) v) = true) := by
  obtain ⟨t1, t2, t3⟩ := Fp.lt_iff.mp h2
  rcases fold_decides (nm := nm) (P := fun s u => nm.threshold.lt u = match s with | .hit => false | _ => true)
    (fun s v hs => by
      cases s
      · refine Fp.not_lt_of_FLe (Fp.FLe_trans ?_ h1)
        show FLe ((v.add nm.hit).min nm.max) nm.max
        cases e : (v.add nm.hit).isNaN
        · exact Fp.min_le_right e h1.1
        · unfold Fp.min
          rw [if_pos e]
          exact Fp.FLe_refl h1.1
      · have : FLe nm.min ((v.add nm.miss).max nm.min) := by
          cases e : (v.add nm.miss).isNaN
          · exact Fp.le_max_right e t2
          · unfold Fp.max
            rw [if_pos e]
            exact Fp.FLe_refl t2
        exact Fp.lt_iff.mpr ⟨t1, this.2.1, lt_of_lt_of_le t3 this.2.2⟩
      · cases hs) obs v with ⟨e, h⟩ | ⟨s, e, hs, h⟩
  · rw [e]
    exact ⟨nofun, nofun⟩
  · rw [e]
    cases s
    · exact ⟨fun _ => h, nofun⟩
    · exact ⟨nofun, fun _ => h⟩
    · cases hs
end

section
variable {D : ℕ} {nm : LidarNoiseModel F32} {o o' : OccupancyGridMap D F32} {ρ : ℚ} {r : F32} {t : ℕ}

lemma occFold_observations {hist : List (OccupancyGridMap D F32 × Point D F32 × PointCloud D F32)} {w : Cell D} {v : F32} :
    occFold nm hist w v = (observations nm hist w).foldl (Seen.apply nm) v := by
  unfold occFold observations
  rw [List.foldl_map]

/-- C118 for an occupancy map made from probability 1 for a hit and 0 for a miss, after any calls of its
`integrate_point_cloud` with in-range clouds that all returned: a cell shows the last scan that told something about
it, at the maximum or the minimum, and holds zero if there was none. -/
theorem C118_map [Libm F32] (hg : GoodLibm b32) (hl : LnEnds b32) {hit miss mn mx th range : F32} (h1 : hit.Is 1) (h0 : miss.Is 0)
    (hnm : LidarNoiseModel.new hit miss mn mx th range = .ok nm) (hD0 : 0 < D) (hD : D ≤ 3) (hr : Res r ρ) (ht : 1 ≤ t)
    (ht' : t ≤ 2 ^ 17) (ho : OccupancyGridMap.new nm r t = .ok o) {hist} (hc : ∀ s ∈ hist, CloudInRange s.2.2 ρ)
    (h : OccRuns o hist o') :
    ∃ cb, Placed o'.gridMap cb ρ ∧ ∀ w, InCells w cb →
      (lastTold (observations nm hist w) = some .hit →
        o'.get (fun i => w i - cb.min i) = .ok (logoddsFromProbability mx)) ∧
      (lastTold (observations nm hist w) = some .miss →
        o'.get (fun i => w i - cb.min i) = .ok (logoddsFromProbability mn)) ∧
      (lastTold (observations nm hist w) = none → o'.get (fun i => w i - cb.min i) = .ok (Fp.lit 0)) := by
  have hp : ∀ p ∈ [hit, miss, mn, mx, th], FLe (Fp.lit 0) p ∧ FLe p (Fp.lit 1) := by
    by_contra hn
    rw [(C45_new hit miss mn mx th range).2 hn] at hnm
    cases hnm
  rw [(C45_new hit miss mn mx th range).1 hp] at hnm
  cases hnm
  obtain ⟨-, cb, hP, hv, -⟩ := C41_occupancy_map hD0 hD hr ht ht' ho hc h
  refine ⟨cb, hP, fun w hw => ?_⟩
  rw [(hv w hw).1, occFold_observations]
  have num : ∀ p ∈ [hit, miss, mn, mx, th], (logoddsFromProbability p).isNaN = false := fun p hpm =>
    (C46_logodds_monotone hg (hp p hpm).1 (Fp.FLe_refl (hp p hpm).1.2.1) (hp p hpm).2).1
  obtain ⟨a, b, c⟩ := C118_last (nm := ⟨_, _, _, _, _, _⟩) ((C118_logodds hl).1 h1) ((C118_logodds hl).2 h0)
    (num mx (by simp)) (num mn (by simp)) (observations _ hist w) (Fp.lit 0)
  exact ⟨fun hx => congrArg _ (a hx), fun hx => congrArg _ (b hx), fun hx => congrArg _ (c hx)⟩

/-- C118 on the map, for any noise model: with a hit and a maximum of probability 1, a miss other than 0 and a threshold
below infinity, a cell that one scan hit is occupied from then on; with a miss and a minimum of probability 0 and a hit
other than 1, a cell that one scan saw through is free from then on; if the maximum is at most the threshold and the minimum
above it, a cell is free after a hit and occupied after a miss. -/
theorem C118_occupied (hD0 : 0 < D) (hD : D ≤ 3) (hr : Res r ρ) (ht : 1 ≤ t) (ht' : t ≤ 2 ^ 17)
    (ho : OccupancyGridMap.new nm r t = .ok o) {hist} (hc : ∀ s ∈ hist, CloudInRange s.2.2 ρ) (h : OccRuns o hist o') :
    ∃ cb, Placed o'.gridMap cb ρ ∧ ∀ w, InCells w cb →
      (nm.hit = .inf false → nm.max = .inf false → nm.miss.isNaN = false → nm.miss ≠ .inf true → nm.min.isNaN = false →
        nm.threshold.lt (.inf false) = true → Seen.hit ∈ observations nm hist w →
        o'.occupied (fun i => w i - cb.min i) = .ok true) ∧
      (nm.miss = .inf true → nm.min = .inf true → nm.hit.isNaN = false → nm.hit ≠ .inf false → nm.max.isNaN = false →
        Seen.miss ∈ observations nm hist w → o'.occupied (fun i => w i - cb.min i) = .ok false) ∧
      (FLe nm.max nm.threshold → nm.threshold.lt nm.min = true →
        (lastTold (observations nm hist w) = some .hit → o'.occupied (fun i => w i - cb.min i) = .ok false) ∧
        (lastTold (observations nm hist w) = some .miss → o'.occupied (fun i => w i - cb.min i) = .ok true)) := by
  obtain ⟨-, cb, hP, hv, -⟩ := C41_occupancy_map hD0 hD hr ht ht' ho hc h
  refine ⟨cb, hP, fun w hw => ?_⟩
  rw [(hv w hw).2, occFold_observations]
  refine ⟨fun a1 a2 a3 a4 a5 a6 a7 => ?_, fun a1 a2 a3 a4 a5 a6 => ?_, fun a1 a2 => ?_⟩
  · rw [(C118_for_ever _ _).1 a1 a2 a3 a4 a5 a7, a6]
  · rw [(C118_for_ever _ _).2 a1 a2 a3 a4 a5 a6]
    cases h : nm.threshold.lt (.inf true)
    · rfl
    · exact absurd (Fp.lt_iff.mp h).2.2 not_lt_bot
  · obtain ⟨b1, b2⟩ := C118_crossed a1 a2 (observations nm hist w) (Fp.lit 0)
    exact ⟨fun hx => congrArg _ (b1 hx), fun hx => congrArg _ (b2 hx)⟩
end

/-! ## Examples -/

/-- A coarse logarithm, right at 1 and at the ends. -/
@[reducible] def endsLibm : Libm F32 where
  ln
    | .nan => .nan
    | .inf s => .inf s
    | .fin q _ _ _ => if q ≤ 0 then .inf true else if q < 1 then Fp.lit (-1) else if q ≤ 1 then Fp.lit 0 else Fp.lit 1
  exp _ := Fp.lit 1

lemma endsLibm_ends : @LnEnds b32 endsLibm := by
  let := endsLibm
  refine ⟨fun x hx => ?_, rfl⟩
  obtain ⟨_, _, _, rfl⟩ := hx
  exact if_pos le_rfl

lemma endsLibm_good : @GoodLibm b32 endsLibm := by
  let := endsLibm
  have h01 : FLe (Fp.lit 0 : F32) (Fp.lit 1) := by decide +kernel
  have hm0 : FLe (Fp.lit (-1) : F32) (Fp.lit 0) := by decide +kernel
  have hone : FLe (Fp.lit 1 : F32) (Fp.lit 1) := by decide +kernel
  refine ⟨fun x y h0 h => ?_, fun _ _ _ => hone, fun _ _ => h01⟩
  have bot : ∀ z : F32, z.isNaN = false → FLe (Fp.inf true) z := fun z hz => ⟨rfl, hz, bot_le⟩
  have fin : ∀ (q : ℚ) (nz : Bool) (u1 : b32.Rep q) u2, (Libm.ln (Fp.fin q nz u1 u2 : F32)).isNaN = false := by
    intro q nz u1 u2
    show Fp.isNaN (if q ≤ 0 then _ else _) = false
    split_ifs <;> decide +kernel
  rcases Fp.FLe_cases h with ⟨p, q, ⟨_, _, _, rfl⟩, ⟨_, _, _, rfl⟩, hpq⟩ | ⟨h1, -⟩ | ⟨h1, hx⟩
  · show FLe (if p ≤ 0 then _ else _) (if q ≤ 0 then _ else _)
    split_ifs <;> first
      | exact bot _ (by decide +kernel)
      | (exfalso; linarith)
      | decide +kernel
  · subst h1
    exact bot _ (by rcases y with _ | s | _; · cases h.2.1
                    · rfl
                    · exact fin _ _ _ _)
  · subst h1
    refine Fp.FLe_pos_inf ?_
    rcases x with _ | s | _
    · cases h.1
    · rfl
    · exact fin _ _ _ _

/-- A map made from probabilities, after `scanA` and `scanB`: the cell (1, 0) was hit, and then seen through. -/
def hitThenMiss (hit miss mn mx : F32) :
    M (LidarNoiseModel F32 × OccupancyGridMap 2 F32 × OccupancyGridMap 2 F32 × OccupancyGridMap 2 F32) := do
  let nm ← @LidarNoiseModel.new F32 _ endsLibm hit miss mn mx (Fp.lit (1 / 2)) (Fp.lit 60)
  let o ← OccupancyGridMap.new nm (Fp.lit 1) 4
  let o1 ← o.integratePointCloud id 10 scanA.1 scanA.2
  let o2 ← o1.integratePointCloud id 10 scanB.1 scanB.2
  return (nm, o, o1, o2)

lemma hitThenMiss_runs {hit miss mn mx : F32} {nm : LidarNoiseModel F32} {o o1 o2 : OccupancyGridMap 2 F32}
    (h : hitThenMiss hit miss mn mx = .ok (nm, o, o1, o2)) :
    @LidarNoiseModel.new F32 _ endsLibm hit miss mn mx (Fp.lit (1 / 2)) (Fp.lit 60) = .ok nm ∧
      OccupancyGridMap.new nm (Fp.lit 1) 4 = .ok o ∧ OccRuns o [(o1, scanA), (o2, scanB)] o2 ∧
      ∀ s ∈ [(o1, scanA), (o2, scanB)], CloudInRange s.2.2 1 := by
  unfold hitThenMiss at h
  simp only [M.bind_eq_ok] at h
  obtain ⟨nm', h1, o', h2, o1', h3, o2', h4, h5⟩ := h
  cases h5
  have hid : IsOrder (id : List (Cell 2) → List (Cell 2)) := fun l => .refl l
  refine ⟨h1, h2, .step hid h3 (.step hid h4 (.done _)), fun s hs => ?_⟩
  rcases List.mem_cons.mp hs with rfl | hs
  · exact scansAB_range scanA (by simp)
  · rw [List.mem_singleton.mp hs]
    exact scansAB_range scanB (by simp)

/-- The hypotheses of `C118_map`: hit 1, miss 0, limits 1/4 and 3/4. The cell is occupied, then free. -/
example : ∃ nm o o1 o2, hitThenMiss (Fp.lit 1) (Fp.lit 0) (Fp.lit (1 / 4)) (Fp.lit (3 / 4)) = .ok (nm, o, o1, o2) ∧
    o1.occupied ![1, 0] = .ok true ∧ o2.occupied ![1, 0] = .ok false ∧
    ∃ cb, Placed o2.gridMap cb 1 ∧ ∀ w, InCells w cb →
      lastTold (observations nm [(o1, scanA), (o2, scanB)] w) = none → o2.get (fun i => w i - cb.min i) = .ok (Fp.lit 0) := by
  have h : (do
      let (nm, o, o1, o2) ← hitThenMiss (Fp.lit 1) (Fp.lit 0) (Fp.lit (1 / 4)) (Fp.lit (3 / 4))
      let b1 ← o1.occupied ![1, 0]
      let b2 ← o2.occupied ![1, 0]
      if b1 = true ∧ b2 = false then return () else .error .fuel) = Except.ok () := by decide +kernel
  rw [M.bind_eq_ok] at h
  obtain ⟨⟨nm, o, o1, o2⟩, h1, h⟩ := h
  simp only [M.bind_eq_ok] at h
  obtain ⟨b1, hb1, b2, hb2, h⟩ := h
  split_ifs at h with hb
  · obtain ⟨rfl, rfl⟩ := hb
    obtain ⟨r1, r2, r3, r4⟩ := hitThenMiss_runs h1
    let := endsLibm
    obtain ⟨cb, hP, hv⟩ := C118_map endsLibm_good endsLibm_ends (by decide +kernel) (by decide +kernel) r1 (by norm_num)
      (by norm_num) ⟨by decide +kernel, by norm_num, by norm_num⟩ (by norm_num) (by norm_num) r2 r4 r3
    exact ⟨nm, o, o1, o2, h1, hb1, hb2, cb, hP, fun w hw => (hv w hw).2.2⟩

/-- The hypotheses of `C118_occupied`: with hit 1, maximum 1 and miss 1/4 the cell stays occupied (a miss of 0 and a
minimum of 0 are the mirror image); with the limits 3/4 and 1/4 exchanged it is free after the hit, and occupied after it was seen through. -/
example : (∃ nm o o1 o2, hitThenMiss (Fp.lit 1) (Fp.lit (1 / 4)) (Fp.lit (1 / 4)) (Fp.lit 1) = .ok (nm, o, o1, o2) ∧
      nm.hit = .inf false ∧ nm.max = .inf false ∧ nm.miss.isNaN = false ∧ nm.miss ≠ .inf true ∧ nm.min.isNaN = false ∧
      nm.threshold.lt (.inf false) = true ∧ o1.occupied ![1, 0] = .ok true ∧ o2.occupied ![1, 0] = .ok true) ∧
    (∃ nm o o1 o2, hitThenMiss (Fp.lit (3 / 4)) (Fp.lit (1 / 4)) (Fp.lit (3 / 4)) (Fp.lit (1 / 4)) = .ok (nm, o, o1, o2) ∧
      FLe nm.max nm.threshold ∧ nm.threshold.lt nm.min = true ∧ o1.occupied ![1, 0] = .ok false ∧
      o2.occupied ![1, 0] = .ok true) := by
  constructor
  · have h : (do
        let (nm, o, o1, o2) ← hitThenMiss (Fp.lit 1) (Fp.lit (1 / 4)) (Fp.lit (1 / 4)) (Fp.lit 1)
        let b1 ← o1.occupied ![1, 0]
        let b2 ← o2.occupied ![1, 0]
        if (nm.hit = .inf false ∧ nm.max = .inf false ∧ nm.miss.isNaN = false ∧ nm.miss ≠ .inf true ∧
          nm.min.isNaN = false ∧ nm.threshold.lt (.inf false) = true) ∧ b1 = true ∧ b2 = true then return ()
          else .error .fuel) = Except.ok () := by decide +kernel
    rw [M.bind_eq_ok] at h
    obtain ⟨⟨nm, o, o1, o2⟩, h1, h⟩ := h
    simp only [M.bind_eq_ok] at h
    obtain ⟨b1, hb1, b2, hb2, h⟩ := h
    split_ifs at h with hb
    · obtain ⟨⟨c1, c2, c3, c4, c5, c6⟩, rfl, rfl⟩ := hb
      exact ⟨nm, o, o1, o2, h1, c1, c2, c3, c4, c5, c6, hb1, hb2⟩
  · have h : (do
        let (nm, o, o1, o2) ← hitThenMiss (Fp.lit (3 / 4)) (Fp.lit (1 / 4)) (Fp.lit (3 / 4)) (Fp.lit (1 / 4))
        let b1 ← o1.occupied ![1, 0]
        let b2 ← o2.occupied ![1, 0]
        if (FLe nm.max nm.threshold ∧ nm.threshold.lt nm.min = true) ∧ b1 = false ∧ b2 = true then return ()
          else .error .fuel) = Except.ok () := by decide +kernel
    rw [M.bind_eq_ok] at h
    obtain ⟨⟨nm, o, o1, o2⟩, h1, h⟩ := h
    simp only [M.bind_eq_ok] at h
    obtain ⟨b1, hb1, b2, hb2, h⟩ := h
    split_ifs at h with hb
    · obtain ⟨⟨c1, c2⟩, rfl, rfl⟩ := hb
      exact ⟨nm, o, o1, o2, h1, c1, c2, hb1, hb2⟩

example : @logoddsFromProbability F32 _ endsLibm (Fp.lit 1) = .inf false ∧
    @logoddsFromProbability F32 _ endsLibm (Fp.lit 0) = .inf true :=
  ⟨(@C118_logodds b32 endsLibm endsLibm_ends _).1 (by decide +kernel),
    (@C118_logodds b32 endsLibm endsLibm_ends _).2 (by decide +kernel)⟩

/-- Hit 1 and miss 0, limits -4 and 4. -/
def lastNM : LidarNoiseModel F32 := ⟨.inf false, .inf true, Fp.lit (-4), Fp.lit 4, Fp.lit 0, Fp.lit 60⟩

example : Seen.apply lastNM .nan .hit = Fp.lit 4 ∧ Seen.apply lastNM (.inf false) .miss = Fp.lit (-4) :=
  ⟨(C118_step _).1 rfl (by decide +kernel), (C118_step _).2 rfl (by decide +kernel)⟩

example : [Seen.miss, .hit, .nothing].foldl (Seen.apply lastNM) .nan = Fp.lit 4 :=
  (C118_last rfl rfl (by decide +kernel) (by decide +kernel) _ _).1 rfl

example : [Seen.miss, .hit, .miss, .miss].foldl (Seen.apply (⟨.inf false, Fp.lit (-1), Fp.lit (-4), .inf false, Fp.lit 0,
    Fp.lit 60⟩ : LidarNoiseModel F32)) .nan = .inf false :=
  (C118_for_ever _ _).1 rfl rfl (by decide +kernel) (by decide +kernel) (by decide +kernel) (by simp)

/-- Maximum -1, minimum 1. -/
def crossedNM : LidarNoiseModel F32 := ⟨Fp.lit 2, Fp.lit (-2), Fp.lit 1, Fp.lit (-1), Fp.lit 0, Fp.lit 60⟩

example : crossedNM.threshold.lt ([Seen.miss, .hit, .nothing].foldl (Seen.apply crossedNM) (Fp.lit 0)) = false ∧
    crossedNM.threshold.lt ([Seen.hit, .miss].foldl (Seen.apply crossedNM) (Fp.lit 0)) = true :=
  ⟨(C118_crossed (by decide +kernel) (by decide +kernel) _ _).1 rfl,
    (C118_crossed (by decide +kernel) (by decide +kernel) _ _).2 rfl⟩

end Verif.Props
