import Verif.Props.Extent
import Verif.Props.Memory
import Verif.Props.TileSize

/-!
# C120: a scene far from the origin
-/

namespace Verif.Props
open Scalar Spec

section
variable {r v : F32} {ρ : ℚ}

/-- The upper corner of the rounded box is not below the value, the lower one at most a cell above it. -/
lemma disc_reach (hr : Res r ρ) {x : ℚ} (hv : v.Is x) (hx : |x| ≤ 2 ^ 18 * ρ) :
    x ≤ cellOf r (Bounds.discMax r true v) * ρ ∧ (cellOf r (Bounds.discMin r v) - 1) * ρ ≤ x ∧
      (x ≤ 0 → cellOf r (Bounds.discMin r v) ≤ 0) := by
  have hpos := hr.pos
  obtain ⟨a1, a2, a3⟩ := disc_cells hr hv hx
  have hq : |x / ρ| ≤ 2 ^ 18 := by rw [abs_div, abs_of_pos hpos, div_le_iff₀ hpos]; exact hx
  have he : |b32.rnd (x / ρ) - x / ρ| ≤ 1 / 4 := by
    have h1 := Fmt.rnd_err_add (f := b32) (x / ρ)
    have h2 : |x / ρ| * 2 ^ (-(b32.prec : ℤ)) ≤ 2 ^ 18 * 2 ^ (-(b32.prec : ℤ)) := by gcongr
    have h3 : (2 : ℚ) ^ 18 * 2 ^ (-(b32.prec : ℤ)) + 2 ^ (b32.qmin - 1) ≤ 1 / 4 := by decide +kernel
    linarith
  have hra := Fp.roundAway_err (b32.rnd (x / ρ))
  rw [abs_le] at he hra
  have key1 : x / ρ ≤ cellOf r (Bounds.discMax r true v) := by
    rw [a3]
    split_ifs with h
    · push_cast
      linarith [hra.1, he.1]
    · by_contra hn
      push Not at hn
      have hcl := Int.le_ceil (b32.rnd (x / ρ))
      obtain ⟨-, -, c3⟩ := floor_ceil_range hr hx
      have hrep : b32.Rep (⌈b32.rnd (x / ρ)⌉ : ℚ) := Fmt.rep_int (f := b32) (by norm_num [b32] at c3 ⊢; omega)
      have := Fmt.le_rnd_of_rep hrep hn.le
      exact h (relativeEq_int a1 (k := ⌈b32.rnd (x / ρ)⌉) (le_antisymm hcl this))
  have key2 : (cellOf r (Bounds.discMin r v) : ℚ) - 1 ≤ x / ρ := by
    rw [a2]
    split_ifs with h
    · linarith [hra.2, he.2]
    · linarith [Int.floor_le (b32.rnd (x / ρ)), he.2]
  refine ⟨(div_le_iff₀ hpos).mp key1, (le_div_iff₀ hpos).mp key2, fun h0 => ?_⟩
  have hc0 : b32.rnd (x / ρ) ≤ 0 := by
    have := Fmt.rnd_mono (f := b32) (div_nonpos_of_nonpos_of_nonneg h0 hpos.le)
    rwa [Fmt.rnd_zero] at this
  rw [a2]
  split_ifs
  · have := Fp.roundAway_mono hc0
    rwa [show roundAway (0 : ℚ) = 0 by simpa using Fp.roundAway_int 0] at this
  · exact Int.floor_nonpos hc0
end

section
variable {D : ℕ} {ρ : ℚ} {r : F32} {nm : LidarNoiseModel F32} {m m' me : GridMap D F32 F32} {cb ncb : CellBounds D}
  {origin : Point D F32} {cloud : PointCloud D F32} {B : ℕ} {ord : List (Cell D) → List (Cell D)}

lemma disc_origin (hr : Res r ρ) (hc : CloudInRange cloud ρ) (h : CellSub (discCells r cloud.bounds) cb) (i : Fin D) :
    cb.min i ≤ 0 ∧ 1 ≤ cb.max i ∧
      ∀ p ∈ cloud.points, ∀ y, (p i).Is y → |y| ≤ (cb.max i - cb.min i : ℤ) * ρ := by
  have hpos := hr.pos
  obtain ⟨x, y, hx, hy, -, hx', hy'⟩ := request_of_cloud hpos hc i
  obtain ⟨k1, k2, k3⟩ := C14_bounds_contain cloud i
  have x0 : x ≤ 0 := (Fp.FLe_is hx F32.zero_is).mp k1
  have y0 : 0 ≤ y := (Fp.FLe_is F32.zero_is hy).mp k2
  obtain ⟨-, b2, b3⟩ := disc_reach hr hx hx'
  obtain ⟨b4, -, -⟩ := disc_reach hr hy hy'
  have b5 : 1 ≤ (discCells r cloud.bounds).max i := one_le_discMax hr hy y0 hy'
  obtain ⟨h1, h2⟩ := h i
  have h1' : cb.min i ≤ cellOf r (Bounds.discMin r (cloud.bounds.min i)) := h1
  have h2' : cellOf r (Bounds.discMax r true (cloud.bounds.max i)) ≤ cb.max i := h2
  have m0 : cb.min i ≤ 0 := h1'.trans (b3 x0)
  have m1 : 1 ≤ cb.max i := b5.trans h2
  refine ⟨m0, m1, fun p hp z hz => ?_⟩
  obtain ⟨e1, e2⟩ := k3 p hp (by obtain ⟨_, _, _, e⟩ := hz; rw [e]; rfl)
  have z1 : x ≤ z := (Fp.FLe_is hx hz).mp e1
  have z2 : z ≤ y := (Fp.FLe_is hz hy).mp e2
  have q0 : (cb.min i : ℚ) ≤ 0 := by exact_mod_cast m0
  have q1 : (1 : ℚ) ≤ cb.max i := by exact_mod_cast m1
  have q2 : (cb.min i : ℚ) ≤ cellOf r (Bounds.discMin r (cloud.bounds.min i)) := by exact_mod_cast h1'
  have q3 : (cellOf r (Bounds.discMax r true (cloud.bounds.max i)) : ℚ) ≤ cb.max i := by exact_mod_cast h2'
  push_cast
  rw [abs_le]
  constructor <;> nlinarith

/-- C120: after any scans that returned, from any map on, the map contains the world origin, and on each axis it is as
long as any of the points is away from the origin. -/
theorem C120_extent (hD : D ≤ 3) (hP : Placed m cb ρ) {scans : List (Point D F32 × PointCloud D F32)}
    (hc : ∀ s ∈ scans, CloudInRange s.2 ρ) (hne : scans ≠ []) (h : Scans nm m scans m') :
    ∃ cb', Placed m' cb' ρ ∧ InCells (fun _ => 0) cb' ∧
      ∀ s ∈ scans, ∀ p ∈ s.2.points, ∀ i y, (p i).Is y → |y| ≤ m'.data.shape i * ρ := by
  obtain ⟨cb', p1, -, -, p4⟩ := boxes_scans hD hP hc hne h
  have key := fun s (hs : s ∈ scans) => disc_origin hP.res (hc s hs) (p4.covers s.2 (List.mem_map_of_mem hs))
  obtain ⟨s0, hs0⟩ := List.exists_mem_of_ne_nil _ hne
  refine ⟨cb', p1, fun i => ?_, fun s hs p hp i y hy => ?_⟩
  · obtain ⟨k1, k2, -⟩ := key s0 hs0 i
    exact ⟨k1, show (0 : ℤ) < _ by omega⟩
  · have := (key s hs i).2.2 p hp y hy
    rw [← p1.shape i] at this
    exact_mod_cast this

lemma shapeProd_ge {D : ℕ} {s : Fin D → ℕ} {y : Fin D → ℚ} (hρ : 0 < ρ) (h : ∀ i, |y i| ≤ s i * ρ) :
    ∏ i, |y i| ≤ shapeProd s * ρ ^ D := by
  induction D with
  | zero => simp [shapeProd]
  | succ D ih =>
    rw [Fin.prod_univ_succ]
    have h1 := ih (s := fun i => s i.succ) (y := fun i => y i.succ) fun i => h i.succ
    have h2 : (0 : ℚ) ≤ ∏ i : Fin D, |y i.succ| := Finset.prod_nonneg fun _ _ => abs_nonneg _
    calc |y 0| * ∏ i : Fin D, |y i.succ| ≤ (s 0 * ρ) * (shapeProd (fun i => s i.succ) * ρ ^ D) :=
          mul_le_mul (h 0) h1 h2 (by positivity)
      _ = shapeProd s * ρ ^ (D + 1) := by
          rw [show shapeProd s = s 0 * shapeProd fun i => s i.succ from rfl]
          push_cast
          ring

/-- C120, memory: for each point of each scan the map has at least as many cells as the box between the world origin and
the point. -/
theorem C120_memory (hD : D ≤ 3) (hP : Placed m cb ρ) {scans : List (Point D F32 × PointCloud D F32)}
    (hc : ∀ s ∈ scans, CloudInRange s.2 ρ) (h : Scans nm m scans m') :
    ∀ s ∈ scans, ∀ p ∈ s.2.points, ∀ y : Fin D → ℚ, (∀ i, (p i).Is (y i)) →
      ∏ i, |y i| ≤ m'.data.data.length * ρ ^ D := by
  intro s hs p hp y hy
  obtain ⟨-, -, -, k⟩ := C120_extent hD hP hc (List.ne_nil_of_mem hs) h
  rw [m'.data.len]
  exact shapeProd_ge hP.res.pos fun i => k s hs p hp i _ (hy i)

/-- C120, where an allocation has at most `B` entries: a scan with a point such that the box between it and the world
origin has more cells does not return, however few cells it sees. -/
theorem C120_limited (hD : D ≤ 3) (hP : Placed m cb ρ) (hm : GridFits B m) (hc : CloudInRange cloud ρ) {p : Point D F32}
    (hp : p ∈ cloud.points) {y : Fin D → ℚ} (hy : ∀ i, (p i).Is (y i)) (hB : B * ρ ^ D < ∏ i, |y i|) :
    Mem.integratePointCloud B ord nm m origin cloud ≠ .ok m' := by
  intro h
  obtain ⟨-, me, h1, h2⟩ := (C101_returns_iff hm).mp h
  have hreq := request_of_cloud hP.res.pos hc
  obtain ⟨me', ncb, e1, e0, e2, -, -⟩ := expand_spec hD hP hreq nm.defaultCellValue
  rw [h1] at e1
  cases e1
  obtain ⟨ncb', h0', a1, a2, -⟩ := newCellBounds_spec hP hreq
  rw [e0] at h0'
  cases h0'
  have h3 : ∏ i, |y i| ≤ shapeProd me.data.shape * ρ ^ D := shapeProd_ge hP.res.pos fun i => by
    have := (disc_origin hP.res hc a2 i).2.2 p hp _ (hy i)
    rw [← e2.shape i] at this
    exact_mod_cast this
  rw [← me.data.len] at h3
  have h4 : (me.data.data.length : ℚ) ≤ B := by exact_mod_cast h2.grid.1
  have h5 : (0 : ℚ) < ρ ^ D := pow_pos hP.res.pos D
  nlinarith
end

/-! ## Examples -/

/-- One point 2 cells from the sensor, at the origin and 30 cells away on both axes. -/
def nearScene : Point 2 F32 × PointCloud 2 F32 := (![Fp.lit 0, Fp.lit 0], PointCloud.fromPoints [![Fp.lit 2, Fp.lit 0]])
def farScene : Point 2 F32 × PointCloud 2 F32 := (![Fp.lit 30, Fp.lit 30], PointCloud.fromPoints [![Fp.lit 32, Fp.lit 30]])

/-- C120: the same scene, of three cells in a row, needs 8 cells at the origin, and 1088 when moved by 30 cells on both
axes. -/
theorem C120_moved : ∃ m m' : GridMap 2 F32 F32, Scans smallNM smallMap [nearScene] m ∧ Scans smallNM smallMap [farScene] m' ∧
    m.data.data.length = 8 ∧ m'.data.data.length = 1088 ∧
    smallNM.occupied m ![2, 0] = .ok true ∧ smallNM.occupied m' ![32, 30] = .ok true := by
  have h : (do
      let m ← smallNM.integratePointCloud id 20 smallMap nearScene.1 nearScene.2
      let m' ← smallNM.integratePointCloud id 20 smallMap farScene.1 farScene.2
      let o ← smallNM.occupied m ![2, 0]
      let o' ← smallNM.occupied m' ![32, 30]
      if m.data.data.length = 8 ∧ m'.data.data.length = 1088 ∧ o = true ∧ o' = true then return () else .error .fuel) =
        Except.ok () := by decide +kernel
  simp only [M.bind_eq_ok] at h
  obtain ⟨m, h1, m', h2, o, ho, o', ho', h⟩ := h
  have hid : IsOrder (id : List (Cell 2) → List (Cell 2)) := fun l => .refl l
  split_ifs at h with hc
  · obtain ⟨c1, c2, rfl, rfl⟩ := hc
    exact ⟨m, m', .step hid ⟨20, h1⟩ (.done _), .step hid ⟨20, h2⟩ (.done _), c1, c2, ho, ho'⟩

lemma farScene_point : (![Fp.lit 32, Fp.lit 30] : Point 2 F32) ∈ farScene.2.points ∧
    (∀ i, ((![Fp.lit 32, Fp.lit 30] : Point 2 F32) i).Is ((![32, 30] : Fin 2 → ℚ) i)) ∧ CloudInRange farScene.2 1 := by
  refine ⟨by rw [farScene, C13_points_fromPoints]; exact List.mem_singleton_self _, by decide +kernel, fun p hp i => ?_⟩
  rw [farScene, C13_points_fromPoints, List.mem_singleton] at hp
  subst hp
  refine ⟨(![32, 30] : Fin 2 → ℚ) i, ?_, ?_⟩ <;> revert i <;> decide +kernel

/-- The hypotheses of `C120_extent` and `C120_memory`: at least 960 cells for the point (32, 30). -/
example : ∃ m' : GridMap 2 F32 F32, Scans smallNM smallMap [farScene] m' ∧ 960 ≤ m'.data.data.length ∧
    (32 : ℚ) ≤ m'.data.shape 0 := by
  obtain ⟨-, m', -, h, -⟩ := C120_moved
  obtain ⟨p1, p2, p3⟩ := farScene_point
  have hc : ∀ s ∈ [farScene], CloudInRange s.2 1 := fun s hs => by rw [List.mem_singleton.mp hs]; exact p3
  refine ⟨m', h, ?_, ?_⟩
  · have := C120_memory (by norm_num) smallMap_placed hc h _ (List.mem_singleton_self _) _ p1 _ p2
    rw [Fin.prod_univ_two] at this
    norm_num at this
    exact_mod_cast this
  · obtain ⟨-, -, -, k⟩ := C120_extent (by norm_num) smallMap_placed hc (by simp) h
    have := k _ (List.mem_singleton_self _) _ p1 0 _ (p2 0)
    norm_num at this
    exact_mod_cast this

/-- The hypotheses of `C120_limited`: with room for 900 cells the scan of three cells does not return. -/
example (m' : GridMap 2 F32 F32) : Mem.integratePointCloud 900 id smallNM smallMap farScene.1 farScene.2 ≠ .ok m' := by
  obtain ⟨p1, p2, p3⟩ := farScene_point
  exact C120_limited (by norm_num) smallMap_placed ⟨by decide, by decide⟩ p3 p1 p2
    (by rw [Fin.prod_univ_two]; norm_num)

end Verif.Props
