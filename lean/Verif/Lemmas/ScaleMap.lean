import Verif.Lemmas.ScaleRay

/-!
# Maps in another unit of length
-/

namespace Verif
open Spec Scalar

variable {k : ℤ} {D : ℕ}

lemma relativeEq_round_same {x y : F32} {q : ℚ} (hx : x.Is q) (hy : y.Is q) :
    relativeEq x (round x) = relativeEq y (round y) := by
  rcases eq_or_ne q 0 with rfl | h0
  · have : ∀ {x : F32}, x.Is 0 → relativeEq x (round x) = true := fun {x} hx => by
      refine relativeEq_of_eq ?_
      have := hx.round
      change x.eq x.round = true
      rw [hx.eq this]
      have : roundAway (0 : ℚ) = 0 := by simpa using Fp.roundAway_int 0
      simp [this]
    rw [this hx, this hy]
  · obtain ⟨n1, r1, z1, rfl⟩ := hx
    obtain ⟨n2, r2, z2, rfl⟩ := hy
    have e1 : n1 = false := by cases n1 <;> simp_all
    have e2 : n2 = false := by cases n2 <;> simp_all
    subst e1 e2
    rfl

/-- Rounding a quotient to an integer and multiplying it back. -/
lemma snap_unit {v v' r r' f f' : F32} {a ρ : ℚ} (hv : Unit2 k (-60) 20 a v v') (hr : Unit2 k (-60) 20 ρ r r') (h0 : 0 < ρ)
    {n : ℤ} (hn : |(n : ℚ) - b32.rnd (a / ρ)| ≤ 1) (hf : f.Is n) (hf' : f'.Is n) :
    ∃ q, Unit2 k (-60) 22 q (f.mul r) (f'.mul r') := by
  have hk := two_zpow_pos k
  have hc : |(n : ℚ)| ≤ 2 * (|a| / ρ) + 2 := by
    have c4 := abs_sub_abs_le_abs_sub (n : ℚ) (b32.rnd (a / ρ))
    have c5 := F32.err (a / ρ)
    have c6 := abs_sub_abs_le_abs_sub (b32.rnd (a / ρ)) (a / ρ)
    have c7 : |a / ρ| = |a| / ρ := by rw [abs_div, abs_of_pos h0]
    rw [c7] at c5 c6
    have c8 : 0 ≤ |a| / ρ := by positivity
    norm_num at c5
    linarith
  have hb : |(n : ℚ)| ≤ 2 ^ (100 : ℤ) := by
    have h1 := hr.grid.le h0.ne'
    rw [abs_of_pos h0] at h1
    have h2 : |a| / ρ ≤ 2 ^ (80 : ℤ) := by
      rw [div_le_iff₀ h0]
      calc |a| ≤ 2 ^ (20 : ℤ) := hv.le
        _ = 2 ^ (80 : ℤ) * 2 ^ (-60 : ℤ) := by rw [← two_zpow_add]; norm_num
        _ ≤ _ := by gcongr
    norm_num at h2 ⊢
    linarith
  have hu : Unit2 0 0 100 (n : ℚ) f f' := .same hf hf' hb ⟨n, by simp⟩
  have := hu.mul (E := 22) hr (by norm_num) (by norm_num) (by norm_num) (by
      have h1 := hv.le
      have h2 := hr.le
      rw [abs_of_pos h0] at h2
      rw [abs_mul, abs_of_pos h0]
      calc |(n : ℚ)| * ρ ≤ (2 * (|a| / ρ) + 2) * ρ := by gcongr
        _ = 2 * |a| + 2 * ρ := by field_simp
        _ ≤ _ := by norm_num at h1 h2 ⊢; linarith) (by
      have h1 := hv.le'
      have h2 := hr.le'
      rw [abs_of_pos (mul_pos h0 hk)] at h2
      rw [abs_mul, abs_of_pos hk] at h1
      rw [zero_add, mul_assoc, abs_mul, abs_of_pos (mul_pos h0 hk)]
      calc |(n : ℚ)| * (ρ * 2 ^ k) ≤ (2 * (|a| / ρ) + 2) * (ρ * 2 ^ k) := by gcongr
        _ = 2 * (|a| * 2 ^ k) + 2 * (ρ * 2 ^ k) := by field_simp
        _ ≤ _ := by norm_num at h1 h2 ⊢; linarith)
  rw [zero_add, zero_add] at this
  exact ⟨_, this⟩

lemma disc_unit {v v' r r' : F32} {a ρ : ℚ} (hv : Unit2 k (-60) 20 a v v') (hr : Unit2 k (-60) 20 ρ r r') (h0 : 0 < ρ) :
    (∃ q, Unit2 k (-60) 22 q (Bounds.discMin r v) (Bounds.discMin r' v')) ∧
      ∀ ex, ∃ q, Unit2 k (-60) 22 q (Bounds.discMax r ex v) (Bounds.discMax r' ex v') := by
  obtain ⟨q1, q2⟩ := hv.quot hr h0.ne' (by norm_num)
  have e : relativeEq (v /. r) (round (v /. r)) = relativeEq (v' /. r') (round (v' /. r')) := relativeEq_round_same q1 q2
  constructor
  · unfold Bounds.discMin
    dsimp only
    rw [← e]
    split_ifs
    · exact ⟨_, hv.mono le_rfl (by norm_num)⟩
    · refine snap_unit hv hr h0 ?_ q1.floor q2.floor
      have h1 := Int.floor_le (b32.rnd (a / ρ))
      have h2 := Int.lt_floor_add_one (b32.rnd (a / ρ))
      rw [abs_le]; constructor <;> linarith
  · intro ex
    unfold Bounds.discMax
    dsimp only
    rw [← e]
    split_ifs
    · exact ⟨_, (hv.add hr (by norm_num) (by norm_num)).mono le_rfl (by norm_num)⟩
    · exact ⟨_, hv.mono le_rfl (by norm_num)⟩
    · refine snap_unit hv hr h0 ?_ q1.ceil q2.ceil
      have h1 := Int.le_ceil (b32.rnd (a / ρ))
      have h2 := Int.ceil_lt_add_one (b32.rnd (a / ρ))
      rw [abs_le]; constructor <;> linarith

/-- Bounds in both units. -/
def UnitBounds (k B : ℤ) (b b' : Bounds D F32) : Prop :=
  ∀ i, (∃ q, Unit2 k (-60) B q (b.min i) (b'.min i)) ∧ ∃ q, Unit2 k (-60) B q (b.max i) (b'.max i)

lemma UnitBounds.mono {B C : ℤ} {b b' : Bounds D F32} (h : UnitBounds k B b b') (hB : B ≤ C) : UnitBounds k C b b' := fun i => by
  obtain ⟨⟨q, h1⟩, ⟨s, h2⟩⟩ := h i
  exact ⟨⟨q, h1.mono le_rfl hB⟩, ⟨s, h2.mono le_rfl hB⟩⟩

lemma UnitBounds.empty (k B : ℤ) : UnitBounds k B (Bounds.empty : Bounds D F32) Bounds.empty := fun _ =>
  ⟨⟨0, .zero _ _ _⟩, ⟨0, .zero _ _ _⟩⟩

lemma UnitBounds.beq {B : ℤ} {b b' : Bounds D F32} (h : UnitBounds k B b b') :
    b'.beq Bounds.empty = b.beq Bounds.empty := by
  have e1 : ∀ i, (b'.min i ==. (Bounds.empty : Bounds D F32).min i) = (b.min i ==. (Bounds.empty : Bounds D F32).min i) :=
    fun i => by obtain ⟨⟨q, h1⟩, -⟩ := h i; exact (h1.eq_eq (.zero k (-60) B)).symm
  have e2 : ∀ i, (b'.max i ==. (Bounds.empty : Bounds D F32).max i) = (b.max i ==. (Bounds.empty : Bounds D F32).max i) :=
    fun i => by obtain ⟨-, ⟨q, h1⟩⟩ := h i; exact (h1.eq_eq (.zero k (-60) B)).symm
  unfold Bounds.beq
  simp only [e1, e2]

lemma discretized_unit {b b' : Bounds D F32} {r r' : F32} {ρ : ℚ} (h : UnitBounds k 20 b b') (hr : Unit2 k (-60) 20 ρ r r')
    (h0 : 0 < ρ) (ex : Bool) :
    (∃ e, b.discretized r ex = .error e ∧ b'.discretized r' ex = .error e) ∨
      ∃ d d', b.discretized r ex = .ok d ∧ b'.discretized r' ex = .ok d' ∧ UnitBounds k 22 d d' := by
  have h1 := fun i => (disc_unit (h i).1.choose_spec hr h0).1
  have h2 := fun i => (disc_unit (h i).2.choose_spec hr h0).2 ex
  have e : ∀ i, (Bounds.discMin r' (b'.min i) <=. Bounds.discMax r' ex (b'.max i)) =
      (Bounds.discMin r (b.min i) <=. Bounds.discMax r ex (b.max i)) := fun i => by
    obtain ⟨q, hq⟩ := h1 i
    obtain ⟨s, hs⟩ := h2 i
    exact (hq.le_eq hs).symm
  unfold Bounds.discretized Bounds.new
  simp only [e]
  split_ifs
  · exact .inr ⟨_, _, rfl, rfl, fun i => ⟨h1 i, h2 i⟩⟩
  · exact .inl ⟨_, rfl, rfl⟩

lemma enclosing_unit {B : ℤ} {a a' b b' : Bounds D F32} (h : UnitBounds k B a a') (g : UnitBounds k B b b') :
    UnitBounds k B (a.enclosing b) (a'.enclosing b') := by
  unfold Bounds.enclosing
  rw [h.beq]
  split_ifs
  · exact g
  · intro i
    obtain ⟨⟨q1, h1⟩, ⟨q2, h2⟩⟩ := h i
    obtain ⟨⟨s1, g1⟩, ⟨s2, g2⟩⟩ := g i
    have e1 : (a'.min i <. b'.min i) = (a.min i <. b.min i) := (h1.lt_eq g1).symm
    have e2 : (b'.max i <. a'.max i) = (b.max i <. a.max i) := (g2.lt_eq h2).symm
    dsimp only
    rw [e1, e2]
    constructor
    · split_ifs
      · exact ⟨_, h1⟩
      · exact ⟨_, g1⟩
    · split_ifs
      · exact ⟨_, h2⟩
      · exact ⟨_, g2⟩

lemma fromBounds_unit {b b' : Bounds D F32} {r r' : F32} {ρ : ℚ} (h : UnitBounds k 24 b b') (hr : Unit2 k (-60) 20 ρ r r')
    (h0 : 0 < ρ) : CellBounds.fromBounds b' r' = CellBounds.fromBounds b r := by
  unfold CellBounds.fromBounds
  rw [h.beq]
  split_ifs
  · rfl
  · congr 1
    · funext i
      obtain ⟨q, hq⟩ := (h i).1
      exact (cell_unit hq (.zero _ _ _) hr h0).1
    · funext i
      obtain ⟨q, hq⟩ := (h i).2
      exact (cell_unit hq (.zero _ _ _) hr h0).1

lemma boundsStep_unit {b b' : Bounds D F32} {p p' : Point D F32} (h : UnitBounds k 20 b b') (hp : RescaledPt k 20 p p') :
    UnitBounds k 20 (PointCloud.boundsStep b p) (PointCloud.boundsStep b' p') := by
  intro i
  obtain ⟨⟨q1, h1⟩, ⟨q2, h2⟩⟩ := h i
  obtain ⟨s, hs⟩ := Unit2.ofRescaled (hp i)
  have e1 : (p' i <. b'.min i) = (p i <. b.min i) := (hs.lt_eq h1).symm
  have e2 : (b'.max i <. p' i) = (b.max i <. p i) := (h2.lt_eq hs).symm
  unfold PointCloud.boundsStep
  dsimp only
  rw [e1, e2]
  constructor
  · split_ifs
    · exact ⟨_, hs⟩
    · exact ⟨_, h1⟩
  · split_ifs
    · exact ⟨_, hs⟩
    · exact ⟨_, h2⟩

lemma cloudBounds_unit {c c' : PointCloud D F32} (h : RescaledCloud k c c') : UnitBounds k 20 c.bounds c'.bounds := by
  have key : ∀ {ps ps' : List (Point D F32)}, List.Forall₂ (RescaledPt k 20) ps ps' → ∀ {b b' : Bounds D F32},
      UnitBounds k 20 b b' → UnitBounds k 20 (ps.foldl PointCloud.boundsStep b) (ps'.foldl PointCloud.boundsStep b') := by
    intro ps ps' h
    induction h with
    | nil => intro b b' hb; exact hb
    | cons hp _ ih => intro b b' hb; exact ih (boundsStep_unit hb hp)
  exact key h (.empty _ _)

lemma isz_abs {x y : ℤ} (h : isz x = .ok y) : |y| ≤ 2 ^ 63 := by
  obtain ⟨rfl, hin⟩ := isz_ok.mp h
  unfold InIsize at hin
  rw [abs_le]
  constructor <;> unfold isizeMin isizeMax at hin <;> omega

lemma tile_abs {ts : ℕ} {c x : ℤ} (hc : |c| ≤ 2 ^ 63) :
    (CellBounds.tileMin ts c = .ok x → |x| ≤ 2 ^ 63) ∧ (CellBounds.tileMax ts c = .ok x → |x| ≤ 2 ^ 63) := by
  constructor <;> intro h
  · unfold CellBounds.tileMin at h
    obtain ⟨r, -, h⟩ := M.bind_eq_ok.mp h
    obtain ⟨s, -, h⟩ := M.bind_eq_ok.mp h
    split_ifs at h
    · cases h; exact hc
    · obtain ⟨d, -, h⟩ := M.bind_eq_ok.mp h
      exact isz_abs h
    · exact isz_abs h
  · unfold CellBounds.tileMax at h
    obtain ⟨r, -, h⟩ := M.bind_eq_ok.mp h
    obtain ⟨s, -, h⟩ := M.bind_eq_ok.mp h
    split_ifs at h
    · cases h; exact hc
    · exact isz_abs h
    · obtain ⟨d, -, h⟩ := M.bind_eq_ok.mp h
      exact isz_abs h

lemma fromBounds_abs (b : Bounds D F32) (r : F32) (i : Fin D) :
    |(CellBounds.fromBounds b r).min i| ≤ 2 ^ 63 ∧ |(CellBounds.fromBounds b r).max i| ≤ 2 ^ 63 := by
  unfold CellBounds.fromBounds
  split_ifs
  · simp [CellBounds.empty]
  · exact ⟨cell_abs_le _ _ _, cell_abs_le _ _ _⟩

/-- The map of a rescaled map's fields. -/
lemma RescaledMap_unit {A : Type} {m m' : GridMap D F32 A} (h : RescaledMap k m m') :
    UnitBounds k 24 m.bounds m'.bounds ∧ ∃ ρ, Unit2 k (-60) 20 ρ m.resolution m'.resolution ∧ 0 < ρ := by
  refine ⟨fun i => ⟨Unit2.ofRescaled (h.min i), Unit2.ofRescaled (h.max i)⟩, ?_⟩
  obtain ⟨ρ, hρ⟩ := Unit2.ofRescaled h.resolution.1
  refine ⟨ρ, hρ, ?_⟩
  have := h.resolution.2
  rwa [hρ.fst.val] at this

lemma Unit2.toRescaled {B : ℤ} {q : ℚ} {x y : F32} (h : Unit2 k (-60) B q x y) : Rescaled k B x y :=
  ⟨q, h.fst, h.snd, ⟨h.le, h.grid⟩, ⟨h.le', h.grid'⟩⟩

lemma ndarray_unit {A : Type} {b b' : Bounds D F32} {r r' : F32} {ρ : ℚ} (h : UnitBounds k 24 b b')
    (hr : Unit2 k (-60) 20 ρ r r') (h0 : 0 < ρ) (d : A) : ndarrayWithBounds r' b' d = ndarrayWithBounds r b d := by
  have e : cellFromPoint b'.max b'.min r' = cellFromPoint b.max b.min r := by
    funext i
    obtain ⟨⟨q, hq⟩, ⟨s, hs⟩⟩ := h i
    exact (cell_unit hs hq hr h0).1
  unfold ndarrayWithBounds
  rw [e]

/-- Growing the map in another unit. -/
lemma expand_unit {A : Type} {m m' m1 : GridMap D F32 A} (h : RescaledMap k m m') {b b' : Bounds D F32}
    (hb : UnitBounds k 20 b b') {d : A} (hok : m.expandBounds b d = .ok m1) (hs : SmallBounds k m1.bounds) :
    ∃ m1', m'.expandBounds b' d = .ok m1' ∧ RescaledMap k m1 m1' := by
  obtain ⟨hB, ρ, hr, h0⟩ := RescaledMap_unit h
  unfold GridMap.expandBounds at hok ⊢
  have hcb := fromBounds_unit hB hr h0
  have hnew : m'.newCellBounds b' = m.newCellBounds b := by
    unfold GridMap.newCellBounds
    rcases discretized_unit hb hr h0 true with ⟨e, h1, h2⟩ | ⟨x, x', h1, h2, h3⟩
    · rw [h1, h2]; rfl
    · rw [h1, h2]
      simp only [M.bind_ok]
      rw [fromBounds_unit (enclosing_unit hB (h3.mono (by norm_num))) hr h0, h.tileSize]
  rw [hnew, hcb]
  obtain ⟨ncb, hn, hok⟩ := M.bind_eq_ok.mp hok
  rw [hn]
  simp only [M.bind_ok]
  by_cases hc : ncb = CellBounds.fromBounds m.bounds m.resolution
  · rw [if_pos hc] at hok ⊢
    cases hok
    exact ⟨m', rfl, h⟩
  · rw [if_neg hc] at hok ⊢
    obtain ⟨td, h1, hok⟩ := M.bind_eq_ok.mp hok
    have hok2 : (if m.bounds.beq Bounds.empty then Except.ok td else m.copyOld (CellBounds.fromBounds m.bounds m.resolution) ncb td) >>=
        (fun toData => (Except.ok { m with bounds := Bounds.fromCellBounds ncb m.resolution, data := toData } :
          M (GridMap D F32 A))) = .ok m1 := by
      rw [← hok]
      split_ifs <;> rfl
    obtain ⟨td2, h2, hok3⟩ := M.bind_eq_ok.mp hok2
    cases hok3
    -- the new bounds
    have hna : ∀ i, |ncb.min i| ≤ 2 ^ 63 ∧ |ncb.max i| ≤ 2 ^ 63 := by
      unfold GridMap.newCellBounds at hn
      obtain ⟨x, -, hn⟩ := M.bind_eq_ok.mp hn
      unfold CellBounds.discretized at hn
      obtain ⟨mn, g1, hn⟩ := M.bind_eq_ok.mp hn
      obtain ⟨mx, g2, hn⟩ := M.bind_eq_ok.mp hn
      cases hn
      intro i
      obtain ⟨f1, f2⟩ := fromBounds_abs (m.bounds.enclosing x) m.resolution i
      exact ⟨(tile_abs f1).1 (seqFin_ok.mp g1 i), (tile_abs f2).2 (seqFin_ok.mp g2 i)⟩
    have hnb : UnitBounds k 24 (Bounds.fromCellBounds ncb m.resolution) (Bounds.fromCellBounds ncb m'.resolution) := by
      intro i
      obtain ⟨s1, s2, s3, s4⟩ := hs i
      obtain ⟨q, hq⟩ := point_unit (.zero k (-60) 24) hr (hna i).1
      obtain ⟨s, hs'⟩ := point_unit (.zero k (-60) 24) hr (hna i).2
      have v1 : ((Bounds.fromCellBounds ncb m.resolution).min i).val = q := hq.fst.val
      have v2 : ((Bounds.fromCellBounds ncb m.resolution).max i).val = s := hs'.fst.val
      rw [v1] at s1 s2
      rw [v2] at s3 s4
      exact ⟨⟨q, hq.tight (by exact_mod_cast s1) (by exact_mod_cast s2)⟩,
        ⟨s, hs'.tight (by exact_mod_cast s3) (by exact_mod_cast s4)⟩⟩
    rw [ndarray_unit hnb hr h0, h1, hB.beq]
    have hco : m'.copyOld (CellBounds.fromBounds m.bounds m.resolution) ncb td =
        m.copyOld (CellBounds.fromBounds m.bounds m.resolution) ncb td := by
      unfold GridMap.copyOld
      rw [h.data]
    refine ⟨{ m' with bounds := Bounds.fromCellBounds ncb m'.resolution, data := td2 }, ?_, ?_⟩
    · simp only [M.bind_ok, hco]
      split_ifs at h2 ⊢
      · cases h2; rfl
      · rw [h2]; rfl
    refine ⟨rfl, h.resolution, fun i => ?_, fun i => ?_, h.tileSize, h.trackChanges, h.changedCells⟩
    · obtain ⟨⟨q, hq⟩, -⟩ := hnb i; exact hq.toRescaled
    · obtain ⟨-, ⟨q, hq⟩⟩ := hnb i; exact hq.toRescaled

lemma cellUpdate_unit {m m' : GridMap D F32 F32} (h : RescaledMap k m m') (c : Cell D) (f : F32 → F32)
    {m1 : GridMap D F32 F32} (hok : (do let v ← m.get c; m.set c (f v)) = .ok m1) :
    ∃ m1', (do let v ← m'.get c; m'.set c (f v)) = .ok m1' ∧ RescaledMap k m1 m1' ∧ m1.bounds = m.bounds := by
  obtain ⟨v, h1, h2⟩ := M.bind_eq_ok.mp hok
  unfold GridMap.get at h1 ⊢
  unfold GridMap.set at h2 ⊢
  obtain ⟨dt, h3, h4⟩ := M.bind_eq_ok.mp h2
  cases h4
  rw [h.data, h1]
  refine ⟨{ m' with data := dt }, ?_, ?_, rfl⟩
  · rw [M.bind_ok, h3]
    rfl
  · exact ⟨rfl, h.resolution, h.min, h.max, h.tileSize, h.trackChanges, h.changedCells⟩

lemma cellUpdates_unit {g g' : GridMap D F32 F32 → Cell D → M (GridMap D F32 F32)} {f : F32 → F32}
    (hg : ∀ m c, g m c = (do let v ← m.get c; m.set c (f v))) (hg' : ∀ m c, g' m c = (do let v ← m.get c; m.set c (f v))) :
    ∀ {cs : List (Cell D)} {m m' m1 : GridMap D F32 F32}, RescaledMap k m m' → cs.foldlM g m = .ok m1 →
      ∃ m1', cs.foldlM g' m' = .ok m1' ∧ RescaledMap k m1 m1' ∧ m1.bounds = m.bounds := by
  intro cs
  induction cs with
  | nil => intro m m' m1 h hok; cases hok; exact ⟨m', rfl, h, rfl⟩
  | cons c cs ih =>
    intro m m' m1 h hok
    rw [List.foldlM_cons] at hok
    obtain ⟨m2, h1, h2⟩ := M.bind_eq_ok.mp hok
    rw [hg] at h1
    obtain ⟨m2', g1, g2, g3⟩ := cellUpdate_unit h c f h1
    obtain ⟨m3', g4, g5, g6⟩ := ih g2 h2
    refine ⟨m3', ?_, g5, g6.trans g3⟩
    rw [List.foldlM_cons, hg', g1]
    exact g4

/-- A scan in another unit. -/
lemma integrate_unit {ord : List (Cell D) → List (Cell D)} {n : ℕ} {nm nm' : LidarNoiseModel F32} (hnm : RescaledNoise k nm nm')
    {m m' m1 : GridMap D F32 F32} (h : RescaledMap k m m') {o o' : Point D F32} (ho : RescaledPt k 20 o o')
    {cloud cloud' : PointCloud D F32} (hcl : RescaledCloud k cloud cloud')
    (hok : nm.integratePointCloud ord n m o cloud = .ok m1) (hs : SmallBounds k m1.bounds) :
    ∃ m1', nm'.integratePointCloud ord n m' o' cloud' = .ok m1' ∧ RescaledMap k m1 m1' := by
  unfold LidarNoiseModel.integratePointCloud at hok ⊢
  obtain ⟨m2, h1, hok⟩ := M.bind_eq_ok.mp hok
  obtain ⟨⟨free, occ⟩, h2, hok⟩ := M.bind_eq_ok.mp hok
  dsimp only at hok
  obtain ⟨m3, h3, hok⟩ := M.bind_eq_ok.mp hok
  obtain ⟨m4, h4, hok⟩ := M.bind_eq_ok.mp hok
  have hfm : ∀ v, nm'.missValue v = nm.missValue v := fun v => by
    unfold LidarNoiseModel.missValue; rw [hnm.miss, hnm.min]
  have hfh : ∀ v, nm'.hitValue v = nm.hitValue v := fun v => by
    unfold LidarNoiseModel.hitValue; rw [hnm.hit, hnm.max]
  have keepM : ∀ {cs : List (Cell D)} {a b : GridMap D F32 F32}, cs.foldlM (fun m c => nm.integrateMiss m c) a = .ok b →
      b.bounds = a.bounds := by
    intro cs
    induction cs with
    | nil => intro a b h; cases h; rfl
    | cons c cs ih =>
      intro a b h
      rw [List.foldlM_cons] at h
      obtain ⟨x, e1, e2⟩ := M.bind_eq_ok.mp h
      obtain ⟨v, -, e3⟩ := M.bind_eq_ok.mp e1
      obtain ⟨dt, -, e4⟩ := M.bind_eq_ok.mp e3
      cases e4
      have := ih e2
      exact this
  have keepH : ∀ {cs : List (Cell D)} {a b : GridMap D F32 F32}, cs.foldlM (fun m c => nm.integrateHit m c) a = .ok b →
      b.bounds = a.bounds := by
    intro cs
    induction cs with
    | nil => intro a b h; cases h; rfl
    | cons c cs ih =>
      intro a b h
      rw [List.foldlM_cons] at h
      obtain ⟨x, e1, e2⟩ := M.bind_eq_ok.mp h
      obtain ⟨v, -, e3⟩ := M.bind_eq_ok.mp e1
      obtain ⟨dt, -, e4⟩ := M.bind_eq_ok.mp e3
      cases e4
      have := ih e2
      exact this
  have hbd : m1.bounds = m2.bounds := by
    cases hok
    split_ifs
    · exact (keepH h4).trans (keepM h3)
    · exact (keepH h4).trans (keepM h3)
  obtain ⟨m2', g1, g2⟩ := expand_unit h (cloudBounds_unit hcl) h1 (hbd ▸ hs)
  have e1 : nm'.defaultCellValue = nm.defaultCellValue := rfl
  rw [e1, g1]
  simp only [M.bind_ok]
  rw [castRays_unit n ho hcl g2.min g2.resolution hnm.maxRange, h2]
  simp only [M.bind_ok]
  obtain ⟨m3', g3, g4, -⟩ := cellUpdates_unit (g := fun m c => nm.integrateMiss m c) (g' := fun m c => nm'.integrateMiss m c)
    (f := nm.missValue) (fun _ _ => rfl) (fun m c => by unfold LidarNoiseModel.integrateMiss; simp only [hfm]) g2 h3
  obtain ⟨m4', g5, g6, -⟩ := cellUpdates_unit (g := fun m c => nm.integrateHit m c) (g' := fun m c => nm'.integrateHit m c)
    (f := nm.hitValue) (fun _ _ => rfl) (fun m c => by unfold LidarNoiseModel.integrateHit; simp only [hfh]) g4 h4
  rw [g3]
  simp only [M.bind_ok]
  rw [g5]
  simp only [M.bind_ok]
  refine ⟨_, rfl, ?_⟩
  cases hok
  rw [g2.trackChanges]
  split_ifs
  · exact ⟨g6.data, g6.resolution, g6.min, g6.max, g6.tileSize, g6.trackChanges, by
      simp only [GridMap.addChangedCells]; rw [g6.changedCells]⟩
  · exact g6

end Verif
