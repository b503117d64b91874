import Verif.Lemmas.Flat
import Verif.Props.Order
import Verif.Props.Edge
import Verif.Props.OccMap

/-!
# C97: a flat scene in three dimensions is the two-dimensional scene
-/

namespace Verif.Props
open Spec

/-! ## Rays and scans -/

/-- **C97** a ray that stays at the height of the centres of a layer: the cells of the two-dimensional ray, in that layer;
and it ends, panics or runs on just as that one does. -/
theorem C97_ray (n : ℕ) {o e : Point 2 F32} {b : Bounds 2 F32} {b3 : Bounds 3 F32} {r ml z : F32} (ho : FinePt 20 o)
    (he : FinePt 20 e) (hb : FinePt 24 b.min) (h0 : b3.min 0 = b.min 0) (h1 : b3.min 1 = b.min 1) (hr : Fine 20 r)
    (hr0 : 0 < r.val) {ζ : ℚ} (hz : z.Is ζ) {h : ℤ} (hh : cellCoordFromPointCoord z (b3.min 2) r = h)
    (hcen : (pointCoordFromCellCoord h (b3.min 2) r).Is ζ) :
    castRay n (flatPt z o) (flatPt z e) b3 r ml =
      (castRay n o e b r ml).map fun q => (q.1.map (flatCell h), q.2.map (flatCell h)) :=
  castRay_flat n ho he hb h0 h1 hr hr0 hz hh hcen

/-- **C97** the same for a scan. -/
theorem C97_scan (n : ℕ) {o : Point 2 F32} {cloud : PointCloud 2 F32} {cloud3 : PointCloud 3 F32} {b : Bounds 2 F32}
    {b3 : Bounds 3 F32} {r ml z : F32} (ho : FinePt 20 o) (hp : ∀ p ∈ cloud.points, FinePt 20 p) (hb : FinePt 24 b.min)
    (hcl : FlatCloud z cloud cloud3) (h0 : b3.min 0 = b.min 0) (h1 : b3.min 1 = b.min 1) (hr : Fine 20 r) (hr0 : 0 < r.val)
    {ζ : ℚ} (hz : z.Is ζ) {h : ℤ} (hh : cellCoordFromPointCoord z (b3.min 2) r = h)
    (hcen : (pointCoordFromCellCoord h (b3.min 2) r).Is ζ) :
    castRays n (flatPt z o) cloud3 b3 r ml =
      (castRays n o cloud b r ml).map fun s => (s.1.map (flatCell h), s.2.map (flatCell h)) :=
  castRays_flat n ho hp hb hcl h0 h1 hr hr0 hz hh hcen

/-! ## The grown box -/

section
variable {ρ : ℚ} {m m' : GridMap 2 F32 F32} {m3 m3' : GridMap 3 F32 F32} {cloud : PointCloud 2 F32} {cloud3 : PointCloud 3 F32}

lemma flat_cloud_range (hρ : 0 < ρ) (hc : CloudInRange cloud ρ) (hcl : FlatCloud (Fp.lit 0) cloud cloud3) :
    CloudInRange cloud3 ρ := by
  intro p hp i
  rw [hcl, List.mem_map] at hp
  obtain ⟨q, hq, rfl⟩ := hp
  obtain rfl | rfl | rfl : i = 0 ∨ i = 1 ∨ i = 2 := by omega
  · exact hc q hq 0
  · exact hc q hq 1
  · exact ⟨0, F32.zero_is, by rw [abs_zero]; positivity⟩

lemma flat_cloud_bounds (hcl : FlatCloud (Fp.lit 0) cloud cloud3) :
    (∀ i : Fin 2, cloud3.bounds.min i.castSucc = cloud.bounds.min i ∧ cloud3.bounds.max i.castSucc = cloud.bounds.max i) ∧
      cloud3.bounds.min 2 = Fp.lit 0 ∧ cloud3.bounds.max 2 = Fp.lit 0 := by
  have key : ∀ (ps : List (Point 2 F32)) (b : Bounds 2 F32) (b3 : Bounds 3 F32),
      (∀ i : Fin 2, b3.min i.castSucc = b.min i ∧ b3.max i.castSucc = b.max i) ∧ b3.min 2 = Fp.lit 0 ∧ b3.max 2 = Fp.lit 0 →
      (∀ i : Fin 2, ((ps.map (flatPt (Fp.lit 0))).foldl PointCloud.boundsStep b3).min i.castSucc =
          (ps.foldl PointCloud.boundsStep b).min i ∧
        ((ps.map (flatPt (Fp.lit 0))).foldl PointCloud.boundsStep b3).max i.castSucc =
          (ps.foldl PointCloud.boundsStep b).max i) ∧
        ((ps.map (flatPt (Fp.lit 0))).foldl PointCloud.boundsStep b3).min 2 = Fp.lit 0 ∧
        ((ps.map (flatPt (Fp.lit 0))).foldl PointCloud.boundsStep b3).max 2 = Fp.lit 0 := by
    intro ps
    induction ps with
    | nil => intro b b3 h; exact h
    | cons p ps ih =>
      rintro b b3 ⟨h1, h2, h3⟩
      rw [List.map_cons, List.foldl_cons, List.foldl_cons]
      refine ih _ _ ⟨fun i => ?_, ?_, ?_⟩
      · unfold PointCloud.boundsStep
        dsimp only
        rw [(h1 i).1, (h1 i).2, flatPt_castSucc]
        exact ⟨rfl, rfl⟩
      · unfold PointCloud.boundsStep
        dsimp only
        rw [h2]
        split_ifs <;> rfl
      · unfold PointCloud.boundsStep
        dsimp only
        rw [h3]
        split_ifs <;> rfl
  unfold PointCloud.bounds
  rw [hcl]
  exact key _ _ _ ⟨fun _ => ⟨rfl, rfl⟩, rfl, rfl⟩

lemma cellBounds_ext {D : ℕ} {a b : CellBounds D} (h1 : CellSub a b) (h2 : CellSub b a) : a = b := by
  ext i
  · exact le_antisymm (h2 i).1 (h1 i).1
  · exact le_antisymm (h1 i).2 (h2 i).2

lemma flatCell_sub (w a : Cell 2) (h : ℤ) :
    (fun i => flatCell h w i - flatCell 0 a i) = flatCell h fun i => w i - a i := by
  funext i
  obtain rfl | rfl | rfl : i = 0 ∨ i = 1 ∨ i = 2 := by omega
  · rfl
  · rfl
  · change h - 0 = h; omega

/-- Growing both maps. -/
lemma expand_flat (h : FlatMaps ρ m m3) (hc : CloudInRange cloud ρ) (hcl : FlatCloud (Fp.lit 0) cloud cloud3) :
    ∃ me me3 ncb ncb3, m.expandBounds cloud.bounds (Fp.lit 0) = .ok me ∧ m3.expandBounds cloud3.bounds (Fp.lit 0) = .ok me3 ∧
      ncb ≠ CellBounds.empty ∧ ncb3 = ⟨flatCell 0 ncb.min, flatCell m.tileSize ncb.max⟩ ∧
      Placed me ncb ρ ∧ Placed me3 ncb3 ρ ∧
      (∀ w, InCells w ncb → valueAt me3 ncb3 (flatCell 0 w) = valueAt me ncb w) ∧
      (∀ w k, InCells (flatCell k w) ncb3 → k ≠ 0 → valueAt me3 ncb3 (flatCell k w) = .ok (Fp.lit 0)) := by
  obtain ⟨cb, cb3, hP, hP3, hr, ht, htr, hbox, hv, hv0, hch⟩ := h
  have hpos := hP.res.pos
  have hc3 := flat_cloud_range hpos hc hcl
  have hq := request_of_cloud hpos hc
  have hq3 := request_of_cloud hpos hc3
  obtain ⟨me, ncb, e1, e2, e3, e4, e5⟩ := expand_spec (by norm_num) hP hq (Fp.lit 0 : F32)
  obtain ⟨me3, ncb3, f1, f2, f3, f4, f5⟩ := expand_spec (by norm_num) hP3 hq3 (Fp.lit 0 : F32)
  obtain ⟨_, g0, g1, g2, g3, g4, -⟩ := newCellBounds_spec hP hq
  obtain ⟨_, k0, k1, k2, k3, k4, -⟩ := newCellBounds_spec hP3 hq3
  rw [e2] at g0; cases g0
  rw [f2] at k0; cases k0
  rw [hr, ht] at k4
  rw [ht] at k1
  rw [hr] at k2
  obtain ⟨b1, b2, b3⟩ := flat_cloud_bounds hcl
  have dxy : ∀ i : Fin 2, (discCells m.resolution cloud3.bounds).min i.castSucc = (discCells m.resolution cloud.bounds).min i ∧
      (discCells m.resolution cloud3.bounds).max i.castSucc = (discCells m.resolution cloud.bounds).max i := fun i => by
    unfold discCells
    dsimp only
    rw [(b1 i).1, (b1 i).2]
    exact ⟨rfl, rfl⟩
  have z0 : |(0 : ℚ)| ≤ 2 ^ 18 * ρ := by rw [abs_zero]; positivity
  have dz : (discCells m.resolution cloud3.bounds).min 2 = 0 ∧ (discCells m.resolution cloud3.bounds).max 2 = 1 := by
    unfold discCells
    dsimp only
    rw [b2, b3]
    constructor
    · refine le_antisymm ?_ (le_cellOf_discMin_of_le hP.res F32.zero_is z0 (by norm_num) (by simp))
      have := cellOf_discMin_le hP.res F32.zero_is z0
      have h1 := nonpos_of_mul_nonpos_left this hpos
      have h2 : (cellOf m.resolution (Bounds.discMin m.resolution (Fp.lit 0 : F32)) : ℚ) < ((1 : ℤ) : ℚ) := by
        push_cast; linarith
      have : cellOf m.resolution (Bounds.discMin m.resolution (Fp.lit 0 : F32)) < 1 := by exact_mod_cast h2
      omega
    · refine le_antisymm (cellOf_discMax_le hP.res F32.zero_is z0 (by norm_num) ?_) (one_le_discMax hP.res F32.zero_is le_rfl z0)
      push_cast
      nlinarith
  have htp : (1 : ℤ) ≤ m.tileSize := by exact_mod_cast hP.tile_pos
  have hne : ncb ≠ CellBounds.empty := by
    rintro rfl
    have h1 := one_le_cloud hP.res hc 0
    have h2 := (g2 0).2
    simp only [CellBounds.empty] at h2
    omega
  have hncb : ncb3 = ⟨flatCell 0 ncb.min, flatCell m.tileSize ncb.max⟩ := by
    refine cellBounds_ext ?_ ?_
    · refine k4 _ ?_ ?_ ?_
      · intro i
        obtain rfl | rfl | rfl : i = 0 ∨ i = 1 ∨ i = 2 := by omega
        · exact g1 0
        · exact g1 1
        · exact ⟨dvd_zero _, dvd_refl _⟩
      · intro i
        obtain rfl | rfl | rfl : i = 0 ∨ i = 1 ∨ i = 2 := by omega
        · have := dxy 0; have h := g2 0; rw [← this.1, ← this.2] at h; exact h
        · have := dxy 1; have h := g2 1; rw [← this.1, ← this.2] at h; exact h
        · rw [dz.1, dz.2]; exact ⟨le_rfl, htp⟩
      · intro hne3 i
        rcases hbox with ⟨-, he⟩ | ⟨hne2, rfl⟩
        · exact absurd he hne3
        · have h := g3 hne2
          obtain rfl | rfl | rfl : i = 0 ∨ i = 1 ∨ i = 2 := by omega
          · exact h 0
          · exact h 1
          · exact ⟨le_rfl, le_rfl⟩
    · have hpr := g4 ⟨fun i => ncb3.min i.castSucc, fun i => ncb3.max i.castSucc⟩ (fun i => k1 i.castSucc)
        (fun i => by have h := k2 i.castSucc; rw [(dxy i).1, (dxy i).2] at h; exact h) (by
          intro hne2 i
          rcases hbox with ⟨he, -⟩ | ⟨-, rfl⟩
          · exact absurd he hne2
          · have h := k3 (by
              intro h0
              have := congrArg (fun c => CellBounds.max c 2) h0
              change (m.tileSize : ℤ) = 0 at this
              omega) i.castSucc
            dsimp only at h
            rw [flatCell_castSucc, flatCell_castSucc] at h
            exact h)
      intro i
      obtain rfl | rfl | rfl : i = 0 ∨ i = 1 ∨ i = 2 := by omega
      · exact hpr 0
      · exact hpr 1
      · have h2 := k2 2
        rw [dz.1, dz.2] at h2
        refine ⟨h2.1, Int.le_of_dvd (by omega) (k1 2).2⟩
  refine ⟨me, me3, ncb, ncb3, e1, f1, hne, hncb, e3, f3, fun w hw => ?_, fun w k hw hk => ?_⟩
  · have hw3 : InCells (flatCell 0 w) ncb3 := by
      rw [hncb]
      intro i
      obtain rfl | rfl | rfl : i = 0 ∨ i = 1 ∨ i = 2 := by omega
      · exact hw 0
      · exact hw 1
      · exact ⟨le_rfl, by change (0 : ℤ) < m.tileSize; omega⟩
    have hiff : InCells (flatCell 0 w) cb3 ↔ InCells w cb := by
      rcases hbox with ⟨rfl, rfl⟩ | ⟨-, rfl⟩
      · constructor
        · intro h; have := h 0; simp only [CellBounds.empty] at this; omega
        · intro h; have := h 0; simp only [CellBounds.empty] at this; omega
      · constructor
        · intro h i
          have := h i.castSucc
          dsimp only at this
          rwa [flatCell_castSucc, flatCell_castSucc, flatCell_castSucc] at this
        · intro h i
          obtain rfl | rfl | rfl : i = 0 ∨ i = 1 ∨ i = 2 := by omega
          · exact h 0
          · exact h 1
          · exact ⟨le_rfl, by change (0 : ℤ) < m.tileSize; omega⟩
    by_cases hin : InCells w cb
    · rw [(f4 _ (hiff.mpr hin)).2, (e4 _ hin).2, hv w hin]
    · rw [f5 _ hw3 fun h => hin (hiff.mp h), e5 _ hw hin]
  · by_cases hin : InCells (flatCell k w) cb3
    · rw [(f4 _ hin).2, hv0 w k hin hk]
    · exact f5 _ hw hin

/-! ## One scan -/

lemma bounds_fine (hP : Placed m cb ρ) (hr : Fine 4 m.resolution) : FinePt 24 m.bounds.min := by
  intro i
  obtain ⟨q, hq⟩ := fine_unit hr
  rw [hP.bounds]
  have hcb : |((cb.min i : ℤ) : ℚ)| ≤ 2 ^ (19 : ℤ) := by
    have := (hP.inRange i).1
    have h2 : |cb.min i| ≤ 2 ^ 19 := by have := hP.min_range i; omega
    have h3 : ((|cb.min i| : ℤ) : ℚ) ≤ ((2 ^ 19 : ℤ) : ℚ) := by exact_mod_cast h2
    push_cast at h3
    norm_num at h3 ⊢
    exact h3
  have hi : (Scalar.ofInt (cb.min i) : F32).Is (cb.min i) := Fp.is_ofInt (f := b32) (by
    have h2 : |cb.min i| ≤ 2 ^ 19 := by have := hP.min_range i; omega
    refine h2.trans (by norm_num [b32]))
  have h1 := (Unit2.same hi hi hcb ⟨cb.min i, by simp⟩ : Unit2 0 0 19 _ _ _).mul' hq (by norm_num) (by norm_num) (by norm_num)
  have h2 := (h1.mono (h := -60) (C := 23) (by norm_num) (by norm_num)).add (Unit2.zero _ _ _) (by norm_num) (by norm_num)
  exact ⟨_, h2.fst, h2.le, h2.grid⟩

lemma bounds_flat {cb : CellBounds 2} {cb3 : CellBounds 3} (hP : Placed m cb ρ) (hP3 : Placed m3 cb3 ρ)
    (hr : m3.resolution = m.resolution) {t : ℤ} (hcb : cb3 = ⟨flatCell 0 cb.min, flatCell t cb.max⟩) :
    m3.bounds.min 0 = m.bounds.min 0 ∧ m3.bounds.min 1 = m.bounds.min 1 ∧ (m3.bounds.min 2).Is 0 := by
  rw [hP.bounds, hP3.bounds, hr, hcb]
  refine ⟨rfl, rfl, ?_⟩
  change (pointCoordFromCellCoord 0 (Fp.lit 0) m.resolution).Is 0
  have hci : (Scalar.ofInt 0 : F32).Is 0 := by
    have := Fp.is_ofInt (f := b32) (n := 0) (by norm_num)
    rw [Int.cast_zero] at this
    exact this
  have h1 := hci.mul hP.res.1 (by rw [zero_mul, Fmt.rnd_zero, abs_zero]; positivity)
  rw [zero_mul, Fmt.rnd_zero] at h1
  have h2 := h1.add F32.zero_is (by rw [add_zero, Fmt.rnd_zero, abs_zero]; positivity)
  rwa [add_zero, Fmt.rnd_zero] at h2

/-- The rays of the two scans into the grown maps. -/
lemma scan_flat (n : ℕ) {me : GridMap 2 F32 F32} {me3 : GridMap 3 F32 F32} {ncb : CellBounds 2} {ncb3 : CellBounds 3}
    {o : Point 2 F32} {ml : F32} (hP : Placed me ncb ρ) (hP3 : Placed me3 ncb3 ρ) (hr : me3.resolution = me.resolution)
    (hf : Fine 4 me.resolution) {t : ℤ} (hcb : ncb3 = ⟨flatCell 0 ncb.min, flatCell t ncb.max⟩) (ho : FinePt 20 o)
    (hp : ∀ p ∈ cloud.points, FinePt 20 p) (hcl : FlatCloud (Fp.lit 0) cloud cloud3) :
    castRays n (flatPt (Fp.lit 0) o) cloud3 me3.bounds me3.resolution ml =
      (castRays n o cloud me.bounds me.resolution ml).map (liftSets 0) := by
  obtain ⟨b0, b1, b2⟩ := bounds_flat hP hP3 hr hcb
  have hpos := hP.res.pos
  rw [hr]
  refine castRays_flat n ho hp (bounds_fine hP hf) hcl b0 b1 ?_ (by rw [hP.res.1.val]; exact hpos) F32.zero_is ?_ ?_
  · obtain ⟨q, h1, h2, h3⟩ := hf
    exact ⟨q, h1, h2.trans (two_zpow_le (by norm_num)), h3⟩
  · have := cellCoord_exact (z := 0) (p := Fp.lit 0) b2 hP.res.1 hpos F32.zero_is (by simpa using Fmt.rep_zero)
      (by simp) Fmt.rep_zero
    rw [this]
    have := Fp.roundAway_int 0
    rw [Int.cast_zero] at this
    rw [this]; decide
  · have hci : (Scalar.ofInt 0 : F32).Is 0 := by
      have := Fp.is_ofInt (f := b32) (n := 0) (by norm_num)
      rw [Int.cast_zero] at this
      exact this
    have h1 := hci.mul hP.res.1 (by rw [zero_mul, Fmt.rnd_zero, abs_zero]; positivity)
    rw [zero_mul, Fmt.rnd_zero] at h1
    have h2 := h1.add b2 (by rw [add_zero, Fmt.rnd_zero, abs_zero]; positivity)
    rwa [add_zero, Fmt.rnd_zero] at h2

variable {nm : LidarNoiseModel F32} {o : Point 2 F32} {ord : List (Cell 2) → List (Cell 2)} {ord3 : List (Cell 3) → List (Cell 3)}

lemma inGrid_flat {me : GridMap 2 F32 F32} {me3 : GridMap 3 F32 F32} {ncb : CellBounds 2} {ncb3 : CellBounds 3} {t : ℕ}
    (hP : Placed me ncb ρ) (hP3 : Placed me3 ncb3 ρ) (ht : 1 ≤ t) (hcb : ncb3 = ⟨flatCell 0 ncb.min, flatCell t ncb.max⟩)
    (c : Cell 2) : InGrid me3 (flatCell 0 c) ↔ InGrid me c := by
  have s := hP.shape
  have s3 := hP3.shape
  rw [hcb] at s3
  have a0 : (me3.data.shape 0 : ℤ) = ncb.max 0 - ncb.min 0 := s3 0
  have a1 : (me3.data.shape 1 : ℤ) = ncb.max 1 - ncb.min 1 := s3 1
  have a2 : (me3.data.shape 2 : ℤ) = t - 0 := s3 2
  have b0 := s 0
  have b1 := s 1
  constructor
  · intro h i
    have h0 : 0 ≤ c 0 ∧ c 0 < me3.data.shape 0 := h 0
    have h1 : 0 ≤ c 1 ∧ c 1 < me3.data.shape 1 := h 1
    obtain rfl | rfl : i = 0 ∨ i = 1 := by omega
    · change 0 ≤ c 0 ∧ c 0 < _; omega
    · change 0 ≤ c 1 ∧ c 1 < _; omega
  · intro h i
    have h0 : 0 ≤ c 0 ∧ c 0 < me.data.shape 0 := h 0
    have h1 : 0 ≤ c 1 ∧ c 1 < me.data.shape 1 := h 1
    obtain rfl | rfl | rfl : i = 0 ∨ i = 1 ∨ i = 2 := by omega
    · change 0 ≤ c 0 ∧ c 0 < _; omega
    · change 0 ≤ c 1 ∧ c 1 < _; omega
    · change (0 : ℤ) ≤ 0 ∧ (0 : ℤ) < _; omega

lemma castsRays_flat_iff {me : GridMap 2 F32 F32} {me3 : GridMap 3 F32 F32} {ml : F32}
    (h : ∀ n, castRays n (flatPt (Fp.lit 0) o) cloud3 me3.bounds me3.resolution ml =
      (castRays n o cloud me.bounds me.resolution ml).map (liftSets 0)) (free3 occ3 : List (Cell 3)) :
    CastsRays (flatPt (Fp.lit 0) o) cloud3 me3.bounds me3.resolution ml free3 occ3 ↔
      ∃ free occ, CastsRays o cloud me.bounds me.resolution ml free occ ∧ free3 = free.map (flatCell 0) ∧
        occ3 = occ.map (flatCell 0) := by
  constructor
  · rintro ⟨n, hn⟩
    rw [h n] at hn
    cases hc : castRays n o cloud me.bounds me.resolution ml with
    | error e => rw [hc] at hn; cases hn
    | ok r =>
      rw [hc] at hn
      cases hn
      exact ⟨r.1, r.2, ⟨n, hc⟩, rfl, rfl⟩
  · rintro ⟨free, occ, ⟨n, hn⟩, rfl, rfl⟩
    refine ⟨n, ?_⟩
    rw [h n, hn]
    rfl

/-- **C97** a scan taken at height zero into a three-dimensional map that holds a two-dimensional one: it returns exactly if
the two-dimensional scan into that one does, and then the grown maps correspond again. -/
theorem C97_step (h : FlatMaps ρ m m3) (hf : Fine 4 m.resolution) (ho : FinePt 20 o)
    (hp : ∀ p ∈ cloud.points, FinePt 20 p) (hc : CloudInRange cloud ρ) (hcl : FlatCloud (Fp.lit 0) cloud cloud3)
    (hord : IsOrder ord) (hord3 : IsOrder ord3) :
    ((∃ m3', Integrates ord3 nm m3 (flatPt (Fp.lit 0) o) cloud3 m3') ↔ ∃ m', Integrates ord nm m o cloud m') ∧
      ∀ m' m3', Integrates ord nm m o cloud m' → Integrates ord3 nm m3 (flatPt (Fp.lit 0) o) cloud3 m3' →
        FlatMaps ρ m' m3' ∧ m'.resolution = m.resolution := by
  obtain ⟨me, me3, ncb, ncb3, e1, f1, hne, hcb, hP, hP3, hv, hv0⟩ := expand_flat h hc hcl
  obtain ⟨cb, cb3, qP, qP3, hr, ht, htr, hbox, -, -, hch⟩ := h
  obtain ⟨c1, c2, c3, c4⟩ := C36_expandBounds e1
  obtain ⟨d1, d2, d3, d4⟩ := C36_expandBounds f1
  have htp := qP.tile_pos
  have hre : me3.resolution = me.resolution := by rw [d1, c1, hr]
  have hscan := fun n => scan_flat n (ml := nm.maxRange) hP hP3 hre (by rw [c1]; exact hf) hcb ho hp hcl
  have hiff := castsRays_flat_iff hscan
  have hgrid := inGrid_flat hP hP3 htp hcb
  constructor
  · rw [C38_returns_iff hord3, C38_returns_iff hord]
    constructor
    · rintro ⟨me3', free3, occ3, k1, k2, k3, k4⟩
      rw [f1] at k1; cases k1
      obtain ⟨free, occ, g, rfl, rfl⟩ := (hiff free3 occ3).mp k2
      exact ⟨me, free, occ, e1, g, fun c hc => (hgrid c).mp (k3 _ (List.mem_map_of_mem hc)),
        fun c hc => (hgrid c).mp (k4 _ (List.mem_map_of_mem hc))⟩
    · rintro ⟨me', free, occ, k1, k2, k3, k4⟩
      rw [e1] at k1; cases k1
      refine ⟨me3, _, _, f1, (hiff _ _).mpr ⟨free, occ, k2, rfl, rfl⟩, fun c hc => ?_, fun c hc => ?_⟩
      · obtain ⟨a, ha, rfl⟩ := List.mem_map.mp hc; exact (hgrid a).mpr (k3 a ha)
      · obtain ⟨a, ha, rfl⟩ := List.mem_map.mp hc; exact (hgrid a).mpr (k4 a ha)
  · intro m' m3' hi hi3
    obtain ⟨me', free, occ, k1, k2, k3, k4, k5, k6, k7, k8, k9⟩ := integrate_spec hord hi
    obtain ⟨me3', free3, occ3, l1, l2, l3, l4, l5, l6, l7, l8, l9⟩ := integrate_spec hord3 hi3
    rw [show m.expandBounds cloud.bounds (Scalar.lit 0) = .ok me from e1] at k1; cases k1
    rw [show m3.expandBounds cloud3.bounds (Scalar.lit 0) = .ok me3 from f1] at l1; cases l1
    obtain ⟨free', occ', g, rfl, rfl⟩ := (hiff free3 occ3).mp l2
    obtain ⟨rfl, rfl⟩ : free' = free ∧ occ' = occ := by
      obtain ⟨n, h2⟩ := k2
      obtain ⟨n', g2⟩ := g
      have := castRays_mono h2 n'
      have h' := castRays_mono g2 n
      rw [Nat.add_comm, h'] at this
      injection this with this
      exact Prod.mk.inj this
    have hb' : m'.bounds = me.bounds := by rw [k5]
    have hr' : m'.resolution = me.resolution := by rw [k5]
    have ht' : m'.tileSize = me.tileSize := by rw [k5]
    have hk' : m'.trackChanges = me.trackChanges := by rw [k5]
    have hb3' : m3'.bounds = me3.bounds := by rw [l5]
    have hr3' : m3'.resolution = me3.resolution := by rw [l5]
    have ht3' : m3'.tileSize = me3.tileSize := by rw [l5]
    have hk3' : m3'.trackChanges = me3.trackChanges := by rw [l5]
    have hPm := placed_of_shape hP hr' hb' ht' k6
    have hPm3 := placed_of_shape hP3 hr3' hb3' ht3' l6
    have hmc : ∀ {w : Cell 3}, InCells w ncb3 → MachineCell fun i => w i - ncb3.min i := fun {w} hw i => by
      have h1 := ((inCells_iff hP3 w).mp hw) i
      have h2 := me3.data.shape_le i
      change isizeMin ≤ w i - ncb3.min i ∧ w i - ncb3.min i ≤ isizeMax
      simp only at h1
      unfold isizeMin
      omega
    have hmc2 : ∀ {w : Cell 2}, InCells w ncb → MachineCell fun i => w i - ncb.min i := fun {w} hw i => by
      have h1 := ((inCells_iff hP w).mp hw) i
      have h2 := me.data.shape_le i
      change isizeMin ≤ w i - ncb.min i ∧ w i - ncb.min i ≤ isizeMax
      simp only at h1
      unfold isizeMin
      omega
    have hloc : ∀ (w : Cell 2) (k : ℤ), (fun i => flatCell k w i - ncb3.min i) = flatCell k fun i => w i - ncb.min i :=
      fun w k => by rw [hcb]; exact flatCell_sub w ncb.min k
    have hmem : ∀ (l : List (Cell 2)) (c : Cell 2), flatCell 0 c ∈ l.map (flatCell 0) ↔ c ∈ l := fun l c =>
      List.mem_map_of_injective (flatCell_injective 0)
    refine ⟨⟨ncb, ncb3, hPm, hPm3, by rw [hr3', hr', hre], by rw [ht3', ht', d2, c2, ht], by rw [hk3', hk', d3, c3, htr],
      .inr ⟨hne, by rw [ht', c2]; exact hcb⟩, fun w hw => ?_, fun w k hw hk => ?_, fun c => ?_⟩, by rw [hr', c1]⟩
    · have hw3 : InCells (flatCell 0 w) ncb3 := by
        rw [inCells_iff hP3, hloc, hgrid, ← inCells_iff hP]; exact hw
      have h1 := hv w hw
      have m3c := hmc hw3
      have m2c := hmc2 hw
      unfold valueAt at h1 ⊢
      rw [hloc] at h1 m3c ⊢
      obtain ⟨v, hv2⟩ := (C31_get me m2c).1 ((inCells_iff hP w).mp hw)
      rw [hv2] at h1
      by_cases hcf : (fun i => w i - ncb.min i) ∈ free'
      · rw [k7 _ hcf v hv2, l7 _ ((hmem _ _).mpr hcf) v h1]
      · by_cases hco : (fun i => w i - ncb.min i) ∈ occ'
        · rw [k8 _ hco v hv2, l8 _ ((hmem _ _).mpr hco) v h1]
        · rw [k9 _ m2c hcf hco, l9 _ m3c (fun h => hcf ((hmem _ _).mp h)) (fun h => hco ((hmem _ _).mp h)), h1, hv2]
    · have h1 := hv0 w k hw hk
      have m3c := hmc hw
      unfold valueAt at h1 ⊢
      rw [hloc] at h1 m3c ⊢
      have hno : ∀ l : List (Cell 2), (flatCell k fun i => w i - ncb.min i) ∉ l.map (flatCell 0) := fun l hl => by
        obtain ⟨a, -, ha⟩ := List.mem_map.mp hl
        exact hk (congrFun ha 2).symm
      rw [l9 _ m3c (hno _) (hno _), h1]
    · rw [k5, l5]
      simp only
      rw [d3, c3, htr, d4, c4]
      split_ifs
      · rw [List.mem_append, List.mem_append, (hord3 _).mem_iff, (hord3 _).mem_iff, hch]
        simp only [List.mem_append, (hord free').mem_iff, (hord occ').mem_iff, List.mem_map]
        constructor
        · rintro (⟨a, ha, rfl⟩ | ⟨a, ha, rfl⟩ | ⟨a, ha, rfl⟩)
          · exact ⟨a, .inl ha, rfl⟩
          · exact ⟨a, .inr (.inl ha), rfl⟩
          · exact ⟨a, .inr (.inr ha), rfl⟩
        · rintro ⟨a, ha | ha | ha, rfl⟩
          · exact .inl ⟨a, ha, rfl⟩
          · exact .inr (.inl ⟨a, ha, rfl⟩)
          · exact .inr (.inr ⟨a, ha, rfl⟩)
      · exact hch c

/-! ## Any number of scans -/

/-- **C97** any two runs with corresponding scans: the maps correspond after every scan and at the end. -/
theorem C97_history {hist hist3} (h : FlatMaps ρ m m3) (hf : Fine 4 m.resolution) (h2 : History nm m hist m')
    (h3 : History nm m3 hist3 m3') (hs : List.Forall₂ FlatScan hist hist3) (hr : ∀ s ∈ hist, FineScan ρ s) :
    FlatMaps ρ m' m3' ∧ List.Forall₂ (fun s s3 => FlatMaps ρ s.1 s3.1) hist hist3 := by
  induction h2 generalizing m3 hist3 with
  | done m =>
    cases hs
    cases h3
    exact ⟨h, .nil⟩
  | step hord hi _ ih =>
    obtain _ | ⟨hs1, hs2⟩ := hs
    obtain _ | ⟨hord3, hi3, hrest3⟩ := h3
    obtain ⟨rfl, hcl⟩ := hs1
    have hfs := hr _ List.mem_cons_self
    obtain ⟨h4, h5⟩ := (C97_step h hf hfs.1 hfs.2.1 hfs.2.2 hcl hord hord3).2 _ _ hi hi3
    obtain ⟨i1, i2⟩ := ih h4 (by rw [h5]; exact hf) hrest3 hs2 fun s hs => hr s (List.mem_cons_of_mem _ hs)
    exact ⟨i1, .cons h4 i2⟩

/-- **C97** every two-dimensional run can be flown in three dimensions. -/
theorem C97_history_lift {hist} (h : FlatMaps ρ m m3) (hf : Fine 4 m.resolution) (h2 : History nm m hist m')
    (hr : ∀ s ∈ hist, FineScan ρ s) : ∃ hist3 m3', History nm m3 hist3 m3' ∧ List.Forall₂ FlatScan hist hist3 := by
  induction h2 generalizing m3 with
  | done m => exact ⟨[], m3, .done m3, .nil⟩
  | @step m m1 m' ord origin cloud rest hord hi _ ih =>
    have hfs := hr _ List.mem_cons_self
    have hcl : FlatCloud (Fp.lit 0) cloud (PointCloud.fromPoints (cloud.points.map (flatPt (Fp.lit 0)))) :=
      C13_points_fromPoints _
    have hst := C97_step (nm := nm) h hf hfs.1 hfs.2.1 hfs.2.2 hcl hord (ord3 := id) fun l => .refl l
    obtain ⟨m31, hi3⟩ := hst.1.mpr ⟨m1, hi⟩
    obtain ⟨h4, h5⟩ := hst.2 _ _ hi hi3
    obtain ⟨hist3, m3', r1, r2⟩ := ih h4 (by rw [h5]; exact hf) fun s hs => hr s (List.mem_cons_of_mem _ hs)
    exact ⟨_, m3', .step (fun l => .refl l) hi3 r1, .cons ⟨rfl, hcl⟩ r2⟩

/-- **C97** every three-dimensional run of flat scans is one of those. -/
theorem C97_history_flatten {hist3} {scans : List (Point 2 F32 × PointCloud 2 F32)} (h : FlatMaps ρ m m3)
    (hf : Fine 4 m.resolution) (h3 : History nm m3 hist3 m3')
    (hs : List.Forall₂ (fun s s3 => s3.2.1 = flatPt (Fp.lit 0) s.1 ∧ FlatCloud (Fp.lit 0) s.2 s3.2.2) scans hist3)
    (hr : ∀ s ∈ scans, FinePt 20 s.1 ∧ (∀ p ∈ s.2.points, FinePt 20 p) ∧ CloudInRange s.2 ρ) :
    ∃ hist m', History nm m hist m' ∧ hist.map Prod.snd = scans ∧ FlatMaps ρ m' m3' := by
  induction h3 generalizing m scans with
  | done m3 =>
    cases hs
    exact ⟨[], m, .done m, rfl, h⟩
  | step hord3 hi3 _ ih =>
    obtain _ | ⟨⟨rfl, hcl⟩, hs2⟩ := hs
    have hfs := hr _ List.mem_cons_self
    have hst := C97_step (nm := nm) h hf hfs.1 hfs.2.1 hfs.2.2 hcl (ord := id) (fun l => .refl l) hord3
    obtain ⟨m1, hi⟩ := hst.1.mp ⟨_, hi3⟩
    obtain ⟨h4, h5⟩ := hst.2 _ _ hi hi3
    obtain ⟨hist, m', r1, r2, r3⟩ := ih h4 (by rw [h5]; exact hf) hs2 fun s hs => hr s (List.mem_cons_of_mem _ hs)
    exact ⟨_, m', .step (fun l => .refl l) hi r1, by rw [List.map_cons, r2], r3⟩

lemma new_flat {r : F32} (hr : Res r ρ) {t : ℕ} (ht : 1 ≤ t) (ht' : t ≤ 2 ^ 17) :
    ∃ (a : GridMap 2 F32 F32) (a3 : GridMap 3 F32 F32), GridMap.new r Bounds.empty t (Fp.lit 0) = .ok a ∧
      GridMap.new r Bounds.empty t (Fp.lit 0) = .ok a3 ∧ FlatMaps ρ a a3 ∧ a.resolution = r := by
  obtain ⟨a, h1, h2⟩ := new_empty_placed (D := 2) (by norm_num) hr ht ht' (Fp.lit 0 : F32)
  obtain ⟨a3, k1, k2⟩ := new_empty_placed (D := 3) (by norm_num) hr ht ht' (Fp.lit 0 : F32)
  obtain ⟨d, -, e⟩ := M.bind_eq_ok.mp h1
  obtain ⟨d3, -, e3⟩ := M.bind_eq_ok.mp k1
  cases e
  cases e3
  have hno : ∀ {D : ℕ} (w : Cell (D + 1)), ¬ InCells w CellBounds.empty := fun w h => by
    have := h 0
    simp only [CellBounds.empty] at this
    omega
  exact ⟨_, _, h1, k1, ⟨_, _, h2, k2, rfl, rfl, rfl, .inl ⟨rfl, rfl⟩, fun w h => absurd h (hno w),
    fun w k h => absurd h (hno _), fun c => by simp⟩, rfl⟩

/-- **C97** new maps with the same settings correspond, and go on doing so when tracking is switched. -/
theorem C97_new {r : F32} (hr : Res r ρ) {t : ℕ} (ht : 1 ≤ t) (ht' : t ≤ 2 ^ 17) (track : Bool) :
    ∃ (a : OccupancyGridMap 2 F32) (a3 : OccupancyGridMap 3 F32), OccupancyGridMap.new nm r t = .ok a ∧
      OccupancyGridMap.new nm r t = .ok a3 ∧ FlatMaps ρ a.gridMap a3.gridMap ∧
      FlatMaps ρ (a.gridMap.setTrackChanges track) (a3.gridMap.setTrackChanges track) ∧ a.gridMap.resolution = r := by
  obtain ⟨a, a3, h1, h2, h3, h4⟩ := new_flat hr ht ht'
  refine ⟨⟨a, nm⟩, ⟨a3, nm⟩, ?_, ?_, h3, ?_, h4⟩
  · unfold OccupancyGridMap.new
    rw [show GridMap.new r Bounds.empty t nm.defaultCellValue = .ok a from h1]; rfl
  · unfold OccupancyGridMap.new
    rw [show GridMap.new r Bounds.empty t nm.defaultCellValue = .ok a3 from h2]; rfl
  · obtain ⟨cb, cb3, g1, g2, g3, g4, -, g6, g7, g8, g9⟩ := h3
    exact ⟨cb, cb3, placed_of_shape g1 rfl rfl rfl rfl, placed_of_shape g2 rfl rfl rfl rfl, g3, g4, rfl, g6, g7, g8, g9⟩

/-- **C97** what corresponding maps answer: every cell of the two-dimensional grid is a cell of the lowest layer of the
other, with the same value and occupancy; every cell of the other layers has the value zero. -/
theorem C97_queries (h : FlatMaps ρ m m3) (c : Cell 2) :
    (m.data.shape = 0 ∨ (InGrid m3 (flatCell 0 c) ↔ InGrid m c)) ∧
      (InGrid m c → m3.get (flatCell 0 c) = m.get c ∧ nm.occupied m3 (flatCell 0 c) = nm.occupied m c) ∧
      ∀ k, k ≠ 0 → InGrid m3 (flatCell k c) → m3.get (flatCell k c) = .ok (Fp.lit 0) := by
  obtain ⟨cb, cb3, hP, hP3, -, -, -, hbox, hv, hv0, -⟩ := h
  rcases hbox with ⟨rfl, rfl⟩ | ⟨-, rfl⟩
  · have hs : m.data.shape = 0 := by
      funext i
      have := hP.shape i
      simp only [CellBounds.empty, sub_self] at this
      exact_mod_cast this
    have hs3 : m3.data.shape 0 = 0 := by
      have := hP3.shape 0
      simp only [CellBounds.empty, sub_self] at this
      exact_mod_cast this
    refine ⟨.inl hs, fun hg => ?_, fun k _ hg => ?_⟩
    · have := hg 0
      rw [hs] at this
      simp only [Pi.zero_apply] at this
      omega
    · have := hg 0
      rw [hs3] at this
      omega
  · have hloc : ∀ k, (fun i => flatCell k (fun j => c j + cb.min j) i - flatCell 0 cb.min i) = flatCell k c := fun k => by
      rw [flatCell_sub]
      congr 1
      funext i
      omega
    have hl2 : (fun i => (fun j => c j + cb.min j) i - cb.min i) = c := by funext i; dsimp only; omega
    refine ⟨.inr (inGrid_flat hP hP3 hP.tile_pos rfl c), fun hg => ?_, fun k hk hg => ?_⟩
    · have h1 := hv (fun j => c j + cb.min j) ((inCells_iff hP _).mpr (by rw [hl2]; exact hg))
      unfold valueAt at h1
      rw [hl2] at h1
      change m3.get (fun i => flatCell 0 (fun j => c j + cb.min j) i - flatCell 0 cb.min i) = _ at h1
      rw [hloc] at h1
      refine ⟨h1, ?_⟩
      unfold LidarNoiseModel.occupied
      rw [h1]
    · have h1 := hv0 (fun j => c j + cb.min j) k ((inCells_iff hP3 _).mpr (by
        change InGrid m3 fun i => flatCell k (fun j => c j + cb.min j) i - flatCell 0 cb.min i
        rw [hloc]; exact hg)) hk
      unfold valueAt at h1
      change m3.get (fun i => flatCell k (fun j => c j + cb.min j) i - flatCell 0 cb.min i) = _ at h1
      rwa [hloc] at h1

end

/-! ## Why the height matters -/

/-- A ray along the first axis at height `z`: the first coordinates of its cells. -/
def heightRay (z : F32) : M (List ℤ × Bool) := do
  let r ← castRay 20 (flatPt z ![Fp.lit 0, Fp.lit 0]) (flatPt z ![Fp.lit 5, Fp.lit 0])
    (⟨fun _ => Fp.lit 0, fun _ => Fp.lit 8⟩ : Bounds 3 F32) (Fp.lit 1) (Fp.lit 3)
  .ok (r.1.map (· 0), r.2.isSome)

/-- **C97** at another height of the same layer a range limit cuts the ray one cell earlier, since it is the distance to the
centre of a cell that is compared with the limit. -/
theorem C97_height_refuted : heightRay (Fp.lit 0) = .ok ([0, 1, 2, 3], false) ∧
    cellCoordFromPointCoord (Fp.lit 0.4 : F32) (Fp.lit 0) (Fp.lit 1) = 0 ∧
    heightRay (Fp.lit 0.4) = .ok ([0, 1, 2], false) := by
  refine ⟨?_, ?_, ?_⟩ <;> decide +kernel

/-! ### Examples -/

/-- A test of `Fine` on concrete floats. -/
def fineTest (B : ℕ) : F32 → Bool
  | .fin q _ _ _ => |q| ≤ 2 ^ B ∧ (q * 2 ^ 60).den = 1
  | _ => false

lemma fine_of_test {B : ℕ} {x : F32} (h : fineTest B x = true) : Fine B x := by
  cases x with
  | fin q a b d =>
    obtain ⟨h1, h2⟩ := of_decide_eq_true h
    refine ⟨q, ⟨_, _, _, rfl⟩, by exact_mod_cast h1, (q * 2 ^ 60).num, ?_⟩
    rw [Rat.coe_int_num_of_den_eq_one h2, mul_assoc]
    norm_num
  | _ => cases h

def pOrigin : Point 2 F32 := ![Fp.lit 0.3, Fp.lit 0.9]
def pCloud : PointCloud 2 F32 := .fromPoints [![Fp.lit 2.1, Fp.lit 1.05], ![Fp.lit (-1.3), Fp.lit (-0.7)]]

lemma p_origin : FinePt 20 pOrigin := fun i => by
  obtain rfl | rfl : i = 0 ∨ i = 1 := by omega
  all_goals exact fine_of_test (B := 20) (by decide +kernel)

lemma p_points : ∀ p ∈ pCloud.points, FinePt 20 p := by
  intro p hp i
  rw [pCloud, C13_points_fromPoints] at hp
  simp only [List.mem_cons, List.not_mem_nil, or_false] at hp
  rcases hp with rfl | rfl
  all_goals
    obtain rfl | rfl : i = 0 ∨ i = 1 := by omega
    all_goals exact fine_of_test (B := 20) (by decide +kernel)

/-- `C97_ray` and `C97_scan` one layer up, at the height of its centres. -/
example : castRays 200 (flatPt (Fp.lit 0.1) pOrigin) (.fromPoints (pCloud.points.map (flatPt (Fp.lit 0.1))))
      (⟨fun _ => Fp.lit 0, fun _ => Fp.lit 1⟩ : Bounds 3 F32) (Fp.lit 0.1) (Fp.lit 60) =
    (castRays 200 pOrigin pCloud (⟨fun _ => Fp.lit 0, fun _ => Fp.lit 1⟩ : Bounds 2 F32) (Fp.lit 0.1) (Fp.lit 60)).map
      fun s => (s.1.map (flatCell 1), s.2.map (flatCell 1)) :=
  C97_scan 200 p_origin p_points (fun _ => fine_of_test (B := 24) (x := Fp.lit 0) (by decide +kernel)) (C13_points_fromPoints _) rfl rfl
    (fine_of_test (B := 20) (by decide +kernel)) (by decide +kernel) (Fp.isFin_is (by decide +kernel)) (by decide +kernel)
    (by
      have e : pointCoordFromCellCoord 1 (Fp.lit 0) (Fp.lit 0.1 : F32) = Fp.lit 0.1 := by decide +kernel
      change (pointCoordFromCellCoord 1 (Fp.lit 0) (Fp.lit 0.1 : F32)).Is _
      rw [e]
      exact Fp.isFin_is (by decide +kernel))

lemma p_range : CloudInRange pCloud (Fp.lit 0.1 : F32).val := by
  intro p hp i
  rw [pCloud, C13_points_fromPoints] at hp
  simp only [List.mem_cons, List.not_mem_nil, or_false] at hp
  rcases hp with rfl | rfl
  all_goals
    obtain rfl | rfl : i = 0 ∨ i = 1 := by omega
    all_goals exact ⟨_, Fp.isFin_is (by decide +kernel), by decide +kernel⟩

/-- `C97_new`, `C97_step`, `C97_history`, `C97_history_lift` and `C97_queries`: two scans into new maps. -/
example : ∃ (a a' : OccupancyGridMap 2 F32) (a3 : OccupancyGridMap 3 F32) (b3 : GridMap 3 F32 F32), ∃ hist hist3,
    OccupancyGridMap.new defaultNM (Fp.lit 0.1) 4 = .ok a ∧ OccupancyGridMap.new defaultNM (Fp.lit 0.1) 4 = .ok a3 ∧
    OccRuns a hist a' ∧ hist.length = 2 ∧ History defaultNM a3.gridMap hist3 b3 ∧
    FlatMaps (Fp.lit 0.1 : F32).val a'.gridMap b3 ∧
    ∃ c, InGrid a'.gridMap c ∧ defaultNM.occupied b3 (flatCell 0 c) = .ok true := by
  have hres : Res (Fp.lit 0.1 : F32) (Fp.lit 0.1 : F32).val :=
    ⟨Fp.isFin_is (by decide +kernel), by decide +kernel, by decide +kernel⟩
  have h : (do
      let o : OccupancyGridMap 2 F32 ← OccupancyGridMap.new defaultNM (Fp.lit 0.1) 4
      let o1 ← o.integratePointCloud id 200 pOrigin pCloud
      let o2 ← o1.integratePointCloud id 200 pOrigin pCloud
      let v ← o2.occupied (o2.cellFromPoint ![Fp.lit 2.1, Fp.lit 1.05])
      return (decide (InGrid o2.gridMap (o2.cellFromPoint ![Fp.lit 2.1, Fp.lit 1.05])), v)) = Except.ok (true, true) := by
    decide +kernel
  obtain ⟨o, h1, h⟩ := M.bind_eq_ok.mp h
  obtain ⟨o1, h2, h⟩ := M.bind_eq_ok.mp h
  obtain ⟨o2, h3, h⟩ := M.bind_eq_ok.mp h
  obtain ⟨v, h4, h⟩ := M.bind_eq_ok.mp h
  have h5 := Prod.mk.inj (Except.ok.inj h)
  obtain ⟨a, a3, n1, n2, n3, -, n5⟩ := C97_new (nm := defaultNM) hres (t := 4) (by norm_num) (by norm_num) true
  obtain rfl : a = o := Except.ok.inj (n1.symm.trans h1)
  have hn : a.noiseModel = defaultNM := by
    obtain ⟨g, -, e⟩ := M.bind_eq_ok.mp n1
    cases e; rfl
  have hruns : OccRuns a [(o1, pOrigin, pCloud), (o2, pOrigin, pCloud)] o2 :=
    .step (fun l => .refl l) h2 (.step (fun l => .refl l) h3 (.done o2))
  obtain ⟨q1, -, q2⟩ := occRuns_history hruns
  rw [hn] at q1 q2
  have hr : ∀ s ∈ ([(o1, pOrigin, pCloud), (o2, pOrigin, pCloud)].map fun s => (s.1.gridMap, s.2)),
      FineScan (Fp.lit 0.1 : F32).val s := by
    intro s hs
    simp only [List.map_cons, List.map_nil, List.mem_cons, List.not_mem_nil, or_false] at hs
    rcases hs with rfl | rfl <;> exact ⟨p_origin, p_points, p_range⟩
  have hf : Fine 4 a.gridMap.resolution := by rw [n5]; exact fine_of_test (B := 4) (by decide +kernel)
  obtain ⟨hist3, b3, r1, r2⟩ := C97_history_lift n3 hf q2 hr
  obtain ⟨r3, -⟩ := C97_history n3 hf q2 r1 r2 hr
  have hin : InGrid o2.gridMap (o2.cellFromPoint ![Fp.lit 2.1, Fp.lit 1.05]) := of_decide_eq_true h5.1
  refine ⟨a, o2, a3, b3, _, hist3, n1, n2, hruns, rfl, r1, r3, _, hin, ?_⟩
  rw [((C97_queries (nm := defaultNM) r3 _).2.1 hin).2]
  change o2.noiseModel.occupied _ _ = _ at h4
  rw [q1, h5.2] at h4
  exact h4

end Verif.Props
