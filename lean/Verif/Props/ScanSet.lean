import Verif.Props.Noise
import Verif.Props.Cloud
import Verif.Props.VizWitness

/-!
# C64: a scan is a set of points

All floats, NaN and infinities included.
-/

namespace Verif.Props
open Spec

variable {D : ℕ} {f : Fmt} {nm : LidarNoiseModel (Fp f)} {m m' : GridMap D (Fp f) (Fp f)} {origin : Point D (Fp f)}
  {cloud cloud' : PointCloud D (Fp f)} {ord ord' : List (Cell D) → List (Cell D)}

lemma zeroF_is : (zeroF : Fp f).Is 0 := Fp.ofRat_is_rep (Fmt.rep_int (n := 0) (by simp))

lemma eq_of_key {x y : Fp f} (hx : x.isNaN = false) (hy : y.isNaN = false) (h : x.key = y.key)
    (h0 : x.key ≠ (zeroF : Fp f).key) : x = y := by
  have hz : (zeroF : Fp f).key = (((0 : ℚ) : WithTop ℚ) : WithBot (WithTop ℚ)) := Fp.key_is zeroF_is
  rw [hz] at h0
  rcases x with _ | (_ | _) | ⟨q, nz, h1, h2⟩ <;> rcases y with _ | (_ | _) | ⟨r, nz', h3, h4⟩ <;>
    simp_all [Fp.key, Fp.isNaN]
  cases nz <;> cases nz' <;> simp_all

/-- A lower corner is plus zero or below zero, an upper corner plus zero or above. -/
lemma bounds_zero (c : PointCloud D (Fp f)) (i : Fin D) :
    (c.bounds.min i = zeroF ∨ (c.bounds.min i).lt zeroF = true) ∧
      (c.bounds.max i = zeroF ∨ Fp.lt zeroF (c.bounds.max i) = true) := by
  have key : ∀ (ps : List (Point D (Fp f))) (b : Bounds D (Fp f)),
      (b.min i = zeroF ∨ (b.min i).lt zeroF = true) ∧ (b.max i = zeroF ∨ Fp.lt zeroF (b.max i) = true) →
      ((ps.foldl PointCloud.boundsStep b).min i = zeroF ∨ ((ps.foldl PointCloud.boundsStep b).min i).lt zeroF = true) ∧
        ((ps.foldl PointCloud.boundsStep b).max i = zeroF ∨
          Fp.lt zeroF ((ps.foldl PointCloud.boundsStep b).max i) = true) := by
    intro ps
    induction ps with
    | nil => exact fun _ h => h
    | cons p ps ih =>
      intro b h
      refine ih _ ⟨?_, ?_⟩
      · simp only [PointCloud.boundsStep]
        split_ifs with hlt
        · right
          have hlt : Fp.lt (p i) (b.min i) = true := hlt
          rcases h.1 with h1 | h1
          · rw [h1] at hlt; exact hlt
          · obtain ⟨a1, a2, a3⟩ := Fp.lt_iff.mp hlt
            obtain ⟨b1, b2, b3⟩ := Fp.lt_iff.mp h1
            exact Fp.lt_iff.mpr ⟨a1, b2, a3.trans b3⟩
        · exact h.1
      · simp only [PointCloud.boundsStep]
        split_ifs with hlt
        · right
          have hlt : Fp.lt (b.max i) (p i) = true := hlt
          rcases h.2 with h1 | h1
          · rw [h1] at hlt; exact hlt
          · obtain ⟨a1, a2, a3⟩ := Fp.lt_iff.mp hlt
            obtain ⟨b1, b2, b3⟩ := Fp.lt_iff.mp h1
            exact Fp.lt_iff.mpr ⟨b1, a2, b3.trans a3⟩
        · exact h.2
  exact key c.points Bounds.empty ⟨.inl rfl, .inl rfl⟩

lemma eq_of_zero_or_lt {x y : Fp f} (hx : x.isNaN = false) (hy : y.isNaN = false) (h : x.key = y.key)
    (h1 : x = zeroF ∨ x.key ≠ (zeroF : Fp f).key) (h2 : y = zeroF ∨ y.key ≠ (zeroF : Fp f).key) : x = y := by
  by_cases h0 : x.key = (zeroF : Fp f).key
  · rw [h1.resolve_right (fun g => g h0), h2.resolve_right (fun g => g (h ▸ h0))]
  · exact eq_of_key hx hy h h0

/-- C64: the bounds of a cloud depend only on the set of its points; they are equal bit by bit, whatever the
order, the repetitions, the signs of zeros and the NaNs. -/
theorem C64_bounds (h : ∀ p, p ∈ cloud.points ↔ p ∈ cloud'.points) : cloud.bounds = cloud'.bounds := by
  have sub : ∀ {c c' : PointCloud D (Fp f)}, (∀ p, p ∈ c.points ↔ p ∈ c'.points) → ∀ i,
      FLe (c'.bounds.min i) (c.bounds.min i) ∧ FLe (c.bounds.max i) (c'.bounds.max i) := by
    intro c c' h i
    obtain ⟨h1, h2, h3⟩ := C14_bounds_contain c' i
    exact C14_bounds_least c i _ _ ⟨h1, h2⟩ fun p hp hn => h3 p ((h p).mp hp) hn
  have ne1 : ∀ {x : Fp f}, x.lt zeroF = true → x.key ≠ (zeroF : Fp f).key := fun h => (Fp.lt_iff.mp h).2.2.ne
  have ne2 : ∀ {x : Fp f}, Fp.lt zeroF x = true → x.key ≠ (zeroF : Fp f).key := fun h => (Fp.lt_iff.mp h).2.2.ne'
  ext i
  · have a := (sub h i).1
    have b := (sub (fun p => (h p).symm) i).1
    exact eq_of_zero_or_lt a.2.1 a.1 (le_antisymm b.2.2 a.2.2) ((bounds_zero cloud i).1.imp id ne1)
      ((bounds_zero cloud' i).1.imp id ne1)
  · have a := (sub h i).2
    have b := (sub (fun p => (h p).symm) i).2
    exact eq_of_zero_or_lt a.1 a.2.1 (le_antisymm a.2.2 b.2.2) ((bounds_zero cloud i).2.imp id ne2)
      ((bounds_zero cloud' i).2.imp id ne2)

/-- C64: integrating a cloud depends only on the set of its points: with the same points in another order, some
of them repeated or no longer repeated, and with another order of the hash sets, the call returns too, and the
maps agree in everything except the order of the newly recorded cells. -/
theorem C64_scan_is_set (ho : IsOrder ord) (ho' : IsOrder ord') (hp : ∀ p, p ∈ cloud.points ↔ p ∈ cloud'.points)
    (h : Integrates ord nm m origin cloud m') :
    ∃ m'', Integrates ord' nm m origin cloud' m'' ∧ m''.data = m'.data ∧ m''.bounds = m'.bounds ∧
      m''.resolution = m'.resolution ∧ m''.tileSize = m'.tileSize ∧
      m''.trackChanges = m'.trackChanges ∧ m''.changedCells.Perm m'.changedCells := by
  have hb := C64_bounds hp
  obtain ⟨me, free, occ, h1, h2, h3, h4, h5, h6, h7, h8, h9⟩ := integrate_spec ho h
  obtain ⟨free', occ', h2', pf, po⟩ := C29_order_irrelevant hp h2
  obtain ⟨m'', h''⟩ := (C38_returns_iff ho').mpr ⟨me, free', occ', by rw [← hb]; exact h1, h2',
    fun c hc => h3 c (pf.mem_iff.mpr hc), fun c hc => h4 c (po.mem_iff.mpr hc)⟩
  refine ⟨m'', h'', ?_⟩
  obtain ⟨me', free1, occ1, g1, g2, g3, g4, g5, g6, g7, g8, g9⟩ := integrate_spec ho' h''
  rw [← hb, h1] at g1
  cases g1
  have e : free1 = free' ∧ occ1 = occ' := by
    obtain ⟨n, h2'⟩ := h2'
    obtain ⟨n', g2⟩ := g2
    have := castRays_mono h2' n'
    have h' := castRays_mono g2 n
    rw [Nat.add_comm, h'] at this
    injection this with this
    exact Prod.mk.inj this
  obtain ⟨rfl, rfl⟩ := e
  obtain ⟨k1, k2⟩ := castsRays_machine h2
  refine ⟨?_, by rw [g5, h5], by rw [g5, h5], by rw [g5, h5], by rw [g5, h5], ?_⟩
  · apply map_ext (g6.trans h6.symm)
    intro c hc
    by_cases hf : c ∈ free
    · obtain ⟨v, hv⟩ := (C31_get me (k1 c hf)).1 (h3 c hf)
      rw [h7 c hf v hv, g7 c (pf.mem_iff.mp hf) v hv]
    · by_cases hoc : c ∈ occ
      · obtain ⟨v, hv⟩ := (C31_get me (k2 c hoc)).1 (h4 c hoc)
        rw [h8 c hoc v hv, g8 c (po.mem_iff.mp hoc) v hv]
      · rw [h9 c hc hf hoc, g9 c hc (fun h => hf (pf.mem_iff.mpr h)) (fun h => hoc (po.mem_iff.mpr h))]
  · rw [g5, h5]
    split_ifs
    · refine List.Perm.append_left _ (List.Perm.append ?_ ?_)
      · exact (ho' _).trans (pf.symm.trans (ho _).symm)
      · exact (ho' _).trans (po.symm.trans (ho _).symm)
    · exact List.Perm.refl _

/-- Two clouds with the same points, one of them with a repetition, a NaN and zeros of both signs. -/
example : (∀ p, p ∈ (PointCloud.fromPoints [![Fp.lit 5, .nan], ![Fp.neg (Fp.lit 0), Fp.lit 0], ![Fp.lit 5, .nan]] :
      PointCloud 2 F32).points ↔
    p ∈ (PointCloud.fromPoints [![Fp.neg (Fp.lit 0), Fp.lit 0], ![Fp.lit 5, .nan]] : PointCloud 2 F32).points) := by
  intro p
  rw [C13_points_fromPoints, C13_points_fromPoints]
  simp only [List.mem_cons, List.not_mem_nil, or_false]
  tauto

end Verif.Props
