import Verif.Props.Longer
import Verif.Props.Order
import Verif.Spec.Settle

/-!
# C107: recordings played over and over: the map settles
-/

namespace Verif.Props
open Scalar Spec

/-! ## Finitely many values -/

lemma finite_fp (f : Fmt) : Finite (Fp f) := by
  have hq : {q : ℚ | f.Rep q}.Finite := by
    refine ((((Set.finite_Ioo (-2 ^ f.prec : ℤ) (2 ^ f.prec)).prod
      (Set.finite_Icc f.qmin (f.emax - f.prec))).image fun a : ℤ × ℤ => (a.1 : ℚ) * 2 ^ a.2)).subset ?_
    rintro q ⟨m, e, h1, h2, h3, rfl⟩
    exact ⟨(m, e), ⟨abs_lt.mp h1, h2, by show e ≤ f.emax - f.prec; omega⟩, rfl⟩
  have : Finite {q : ℚ | f.Rep q} := hq
  refine Finite.of_surjective
    (fun a : Bool ⊕ Unit ⊕ ({q : ℚ | f.Rep q} × Bool) => match a with
      | .inl s => Fp.inf s
      | .inr (.inl _) => Fp.nan
      | .inr (.inr (q, nz)) => if hz : nz = true → q.1 = 0 then Fp.fin q.1 nz q.2 hz else Fp.nan) ?_
  rintro (_ | s | ⟨q, nz, h, hz⟩)
  · exact ⟨.inr (.inl ()), rfl⟩
  · exact ⟨.inl s, rfl⟩
  · exact ⟨.inr (.inr (⟨q, h⟩, nz)), dif_pos hz⟩

section
variable {f : Fmt} {g : Fp f → Fp f} {v : Fp f}

lemma iterate_le_of_le (hg : ∀ {v w}, FLe v w → FLe (g v) (g w)) (h : FLe v (g v)) {i j : ℕ} (hij : i ≤ j) :
    FLe (g^[i] v) (g^[j] v) := by
  induction j, hij using Nat.le_induction with
  | base =>
    have := iterate_mono (g := g) hg i h
    exact Fp.FLe_refl this.1
  | succ j _ ih =>
    refine Fp.FLe_trans ih ?_
    rw [Function.iterate_succ_apply]
    exact iterate_mono (g := g) hg j h

lemma iterate_ge_of_le (hg : ∀ {v w}, FLe v w → FLe (g v) (g w)) (h : FLe (g v) v) {i j : ℕ} (hij : i ≤ j) :
    FLe (g^[j] v) (g^[i] v) := by
  induction j, hij using Nat.le_induction with
  | base =>
    have := iterate_mono (g := g) hg i h
    exact Fp.FLe_refl this.2.1
  | succ j _ ih =>
    refine Fp.FLe_trans ?_ ih
    rw [Function.iterate_succ_apply]
    exact iterate_mono (g := g) hg j h

/-- Repeating a monotone step on floating point numbers ends in a fixed number. -/
lemma iterate_settles (hg : ∀ {v w}, FLe v w → FLe (g v) (g w)) (hv : v.isNaN = false) {a b : ℕ}
    (ha : Nat.card (Fp f) ≤ a) (hb : Nat.card (Fp f) ≤ b) : Alike (g^[a] v) (g^[b] v) := by
  have := finite_fp f
  have := Fintype.ofFinite (Fp f)
  obtain ⟨i, j, hij, hlt, heq⟩ : ∃ i j : ℕ, i < j ∧ i ≤ Nat.card (Fp f) ∧ g^[i] v = g^[j] v := by
    obtain ⟨i, j, hne, he⟩ := Fintype.exists_ne_map_eq_of_card_lt
      (fun k : Fin (Nat.card (Fp f) + 1) => g^[k.1] v) (by simp [Nat.card_eq_fintype_card])
    rcases lt_or_gt_of_ne hne with h | h
    · exact ⟨i, j, h, by omega, he⟩
    · exact ⟨j, i, h, by omega, he.symm⟩
  have hnan : (g v).isNaN = false := (hg (Fp.FLe_refl hv)).1
  -- from `i` on the sequence stands still
  have key : ∀ k, i ≤ k → Alike (g^[k] v) (g^[i] v) := by
    intro k hk
    have hper : ∀ t, g^[i + t * (j - i)] v = g^[i] v := by
      intro t
      induction t with
      | zero => simp
      | succ t ih =>
        rw [show i + (t + 1) * (j - i) = (j - i) + (i + t * (j - i)) by ring, Function.iterate_add_apply, ih,
          ← Function.iterate_add_apply, show j - i + i = j by omega, heq]
    have hbig : k ≤ i + k * (j - i) := by
      have : k * 1 ≤ k * (j - i) := Nat.mul_le_mul_left k (by omega)
      omega
    rcases Fp.FLe_total hv hnan with h | h
    · refine ⟨?_, iterate_le_of_le hg h hk⟩
      rw [← hper k]
      exact iterate_le_of_le hg h hbig
    · refine ⟨iterate_ge_of_le hg h hk, ?_⟩
      have := iterate_ge_of_le hg h hbig
      rwa [hper k] at this
  obtain ⟨p1, p2⟩ := key a (by omega)
  obtain ⟨q1, q2⟩ := key b (by omega)
  exact ⟨Fp.FLe_trans p1 q2, Fp.FLe_trans q1 p2⟩
end

section
variable {D : ℕ} {nm : LidarNoiseModel F32} {recs : ℕ → Point D F32 × PointCloud D F32} {n : ℕ}
  {m₀ m m' : GridMap D F32 F32} {ρ : ℚ} {cb : CellBounds D}
  {hist hist' : List (GridMap D F32 F32 × Point D F32 × PointCloud D F32)}

/-! ## The bounds after one round -/

/-- After a playback the map is made of whole tiles and covers all the clouds. -/
lemma playback_boxes (hD : D ≤ 3) (hP : Placed m₀ cb ρ) (hc : ∀ e ∈ hist, CloudInRange e.2.2 ρ)
    (h : Playback nm m₀ hist m) :
    ∃ cb', Placed m cb' ρ ∧ m.tileSize = m₀.tileSize ∧ m.resolution = m₀.resolution ∧
      (hist ≠ [] → Aligned m₀.tileSize cb') ∧
      ∀ e ∈ hist, CellSub (discCells m₀.resolution e.2.2.bounds) cb' := by
  induction h with
  | start => exact ⟨cb, hP, rfl, rfl, fun h => absurd rfl h, by simp⟩
  | scan _ ho hi ih =>
    obtain ⟨cb1, p1, p2, p3, p4, p5⟩ := ih fun s hs => hc s (List.mem_append_left _ hs)
    have hcl := hc _ (List.mem_append_right _ (List.mem_singleton_self _))
    obtain ⟨cb2, q1, q2, q3, q4⟩ := boxes_step hD p1 hcl ho hi
    rw [p2, p3] at q4
    refine ⟨cb2, q1, q2.trans p2, q3.trans p3, fun _ => q4.tiles, fun e he => ?_⟩
    rcases List.mem_append.mp he with he | he
    · by_cases hemp : cb1 = CellBounds.empty
      · intro i
        have h5 := (p5 e he i).2
        have h6 := one_le_cloud (m := m₀) hP.res (hc e (List.mem_append_left _ he)) i
        rw [hemp] at h5
        simp only [CellBounds.empty] at h5
        omega
      · intro i
        have h5 := p5 e he i
        have h6 := q4.old hemp i
        exact ⟨h6.1.trans h5.1, h5.2.trans h6.2⟩
    · rw [List.mem_singleton.mp he]
      exact q4.covers _ (List.mem_singleton_self _)
  | marks _ hg ih =>
    obtain ⟨cb1, p1, p2, p3, p4, p5⟩ := ih hc
    obtain ⟨g1, g2, g3, g4⟩ := hg
    exact ⟨cb1, placed_of_shape p1 g3 g2 g4 (by rw [g1]), g4.trans p2, g3.trans p3, p4, p5⟩

/-- A cloud that was played fits. -/
lemma playback_fits (hD : D ≤ 3) (hP : Placed m₀ cb ρ) (hc : ∀ e ∈ hist, CloudInRange e.2.2 ρ)
    (h : Playback nm m₀ hist m) {e} (he : e ∈ hist) : Fits m e.2.2 := by
  obtain ⟨cb', p1, p2, p3, p4, p5⟩ := playback_boxes hD hP hc h
  refine C67_fits p1 (hc e he) (by rw [p2]; exact p4 (List.ne_nil_of_mem he)) fun b' hb' => ?_
  have hreq := request_of_cloud hP.res.pos (hc e he)
  rw [p3, discretized_eq hP.res hreq] at hb'
  cases hb'
  rw [p3, fromBounds_eq _ hP.res.1 hP.res.pos]
  exact p5 e he

lemma cyclic_succ (k : ℕ) : cyclic recs n (k + 1) = cyclic recs n k ++ [recs (k % n)] := by
  unfold cyclic
  rw [List.range_succ, List.map_append]
  rfl

/-- The playback without its last scan. -/
lemma cyclic_snoc {l} {e : GridMap D F32 F32 × Point D F32 × PointCloud D F32}
    (hs : (l ++ [e]).map (·.2) = cyclic recs n (l ++ [e]).length) :
    l.map (·.2) = cyclic recs n l.length ∧ e.2 = recs (l.length % n) := by
  rw [List.map_append, List.length_append, List.length_singleton, cyclic_succ] at hs
  obtain ⟨h1, h2⟩ := List.append_inj' hs rfl
  exact ⟨h1, by simpa using h2⟩

lemma cyclic_at {l : List (GridMap D F32 F32 × Point D F32 × PointCloud D F32)}
    (hs : l.map (·.2) = cyclic recs n l.length) {r : ℕ} (hr : r < n) (hl : n ≤ l.length) :
    ∃ e ∈ l, e.2 = recs r := by
  have : recs r ∈ l.map (·.2) := by
    rw [hs]
    exact List.mem_map.mpr ⟨r, List.mem_range.mpr (by omega), by rw [Nat.mod_eq_of_lt hr]⟩
  obtain ⟨e, he, h⟩ := List.mem_map.mp this
  exact ⟨e, he, h⟩

lemma cyclic_from {l : List (GridMap D F32 F32 × Point D F32 × PointCloud D F32)}
    (hs : l.map (·.2) = cyclic recs n l.length) (hn : 0 < n) {e} (he : e ∈ l) : ∃ r < n, e.2 = recs r := by
  have : e.2 ∈ cyclic recs n l.length := hs ▸ List.mem_map_of_mem he
  obtain ⟨j, -, hj⟩ := List.mem_map.mp this
  exact ⟨j % n, Nat.mod_lt _ hn, hj.symm⟩

/-- C107: a playback of more than one round goes through the maps of its first round, and after that the bounds stay;
every later scan acts on a world cell as it does with the bounds at the end of the first round. -/
theorem C107_rounds (hD : D ≤ 3) (hn : 0 < n) (hP : Placed m₀ cb ρ) (hc : ∀ r < n, CloudInRange (recs r).2 ρ)
    (h : Playback nm m₀ hist m) (hs : hist.map (·.2) = cyclic recs n hist.length) (hl : n ≤ hist.length) :
    ∃ first m1, Playback nm m₀ first m1 ∧ first.map (·.2) = cyclic recs n n ∧ first.length = n ∧
      m.bounds = m1.bounds ∧ m.resolution = m1.resolution ∧ m.tileSize = m1.tileSize ∧
      ∀ w v, foldSeen nm hist w v = (List.range (hist.length - n)).foldl (fun v j => Seen.apply nm v
        (seen (recs (j % n)).1 (recs (j % n)).2 m1.bounds m1.resolution nm.maxRange (localCell m1 w)))
        (foldSeen nm first w v) := by
  obtain ⟨k, hk⟩ := Nat.exists_eq_add_of_le hl
  induction k generalizing hist m with
  | zero =>
    refine ⟨hist, m, h, by rw [hs, hk]; rfl, hk, rfl, rfl, rfl, fun w v => ?_⟩
    rw [hk]
    simp
  | succ k ih =>
    rcases List.eq_nil_or_concat hist with rfl | ⟨l, e, rfl⟩
    · simp at hk
    rw [List.concat_eq_append] at *
    obtain ⟨s1, s2⟩ := cyclic_snoc hs
    have hlen : l.length = n + k := by simp at hk; omega
    obtain ⟨mb, ord, a1, a2, a3, a4⟩ := playback_snoc h rfl
    obtain ⟨first, m1, b1, b2, b3, b4, b5, b6, b7⟩ := ih a1 s1 (by omega) hlen
    obtain ⟨e', c1, c2⟩ := cyclic_at s1 (Nat.mod_lt l.length hn) (by omega)
    have hfit : Fits mb e.2.2 := by
      have := playback_fits hD hP (fun x hx => by
        obtain ⟨r, hr, hx⟩ := cyclic_from s1 hn hx
        rw [hx]; exact hc r hr) a1 c1
      rw [s2, ← c2]
      exact this
    obtain ⟨d1, d2, d3, -⟩ := fits_step hfit a2 a3
    obtain ⟨-, g2, g3, g4⟩ := a4
    refine ⟨first, m1, b1, b2, b3, (g2.trans d1).trans b4, (g3.trans d2).trans b5, (g4.trans d3).trans b6,
      fun w v => ?_⟩
    have e1 : (l ++ [e]).length - n = k + 1 := by simp; omega
    have e2 : l.length - n = k := by omega
    have e3 : l.length % n = k % n := by rw [hlen]; simp
    have e4 : localCell e.1 w = localCell m1 w := by unfold localCell; rw [d1, d2, b4, b5]
    rw [e1, List.range_succ, List.foldl_append, ← e2, ← b7 w v]
    unfold foldSeen
    rw [List.foldl_append, List.foldl_cons, List.foldl_nil, List.foldl_cons, List.foldl_nil, e2, ← e3, ← s2, d1, d2, b4,
      b5, e4]

/-! ## The values -/

/-- What `k` scans, starting with the first recording, make of the value of a world cell of a map that no longer
grows. -/
noncomputable def turn (nm : LidarNoiseModel F32) (recs : ℕ → Point D F32 × PointCloud D F32) (n : ℕ)
    (m1 : GridMap D F32 F32) (w : Cell D) (k : ℕ) (v : F32) : F32 :=
  (List.range k).foldl (fun v j => Seen.apply nm v
    (seen (recs (j % n)).1 (recs (j % n)).2 m1.bounds m1.resolution nm.maxRange (localCell m1 w))) v

lemma turn_add {m1 : GridMap D F32 F32} {w : Cell D} (k : ℕ) (v : F32) :
    turn nm recs n m1 w (n + k) v = turn nm recs n m1 w k (turn nm recs n m1 w n v) := by
  unfold turn
  rw [List.range_add, List.foldl_append, List.foldl_map]
  congr 1
  funext v j
  rw [Nat.add_mod_left]

lemma turn_rounds {m1 : GridMap D F32 F32} {w : Cell D} (q k : ℕ) (v : F32) :
    turn nm recs n m1 w (q * n + k) v = turn nm recs n m1 w k ((turn nm recs n m1 w n)^[q] v) := by
  induction q generalizing v with
  | zero => simp
  | succ q ih =>
    rw [show (q + 1) * n + k = n + (q * n + k) by ring, turn_add, ih, Function.iterate_succ_apply]

lemma apply_mono {a b : ℚ} (h1 : nm.hit.Is a) (h2 : nm.miss.Is b) (h3 : nm.max.isNaN = false)
    (h4 : nm.min.isNaN = false) (s : Seen) {v w : F32} (h : FLe v w) :
    FLe (Seen.apply nm v s) (Seen.apply nm w s) := by
  cases s
  · exact hit_mono h1 h3 h
  · exact miss_mono h2 h4 h
  · exact h

lemma turn_mono {a b : ℚ} (h1 : nm.hit.Is a) (h2 : nm.miss.Is b) (h3 : nm.max.isNaN = false)
    (h4 : nm.min.isNaN = false) {m1 : GridMap D F32 F32} {w : Cell D} (k : ℕ) {v v' : F32} (h : FLe v v') :
    FLe (turn nm recs n m1 w k v) (turn nm recs n m1 w k v') := by
  induction k generalizing v v' with
  | zero => exact h
  | succ k ih =>
    unfold turn at *
    rw [List.range_succ, List.foldl_append, List.foldl_append]
    exact apply_mono h1 h2 h3 h4 _ (ih h)

lemma foldSeen_notNaN {a b : ℚ} (h1 : nm.hit.Is a) (h2 : nm.miss.Is b) (h3 : nm.max.isNaN = false)
    (h4 : nm.min.isNaN = false) (w : Cell D) {v : F32} (h : v.isNaN = false) :
    (foldSeen nm hist w v).isNaN = false := by
  unfold foldSeen
  induction hist generalizing v with
  | nil => exact h
  | cons e l ih => exact ih (apply_mono h1 h2 h3 h4 _ (Fp.FLe_refl h)).1

lemma foldSeen_same {l l' : List (GridMap D F32 F32 × Point D F32 × PointCloud D F32)} (w : Cell D) (v : F32)
    (h : List.Forall₂ (fun a b => b.2 = a.2 ∧ b.1.bounds = a.1.bounds ∧ b.1.resolution = a.1.resolution) l l') :
    foldSeen nm l' w v = foldSeen nm l w v := by
  unfold foldSeen
  induction h generalizing v with
  | nil => rfl
  | @cons a b _ _ hab _ ih =>
    obtain ⟨t1, t2, t3⟩ := hab
    have e : localCell b.1 w = localCell a.1 w := by unfold localCell; rw [t2, t3]
    rw [List.foldl_cons, List.foldl_cons, t1, t2, t3, e]
    exact ih _

/-- The values after one round or more, in terms of any playback of the first round. -/
lemma after_round (hD : 1 ≤ D ∧ D ≤ 3) (hn : 0 < n) (h0 : Placed m₀ CellBounds.empty ρ)
    (hc : ∀ r < n, CloudInRange (recs r).2 ρ) {first} {m1 : GridMap D F32 F32} (hf : Playback nm m₀ first m1)
    (hfs : first.map (·.2) = cyclic recs n n) (h : Playback nm m₀ hist m)
    (hs : hist.map (·.2) = cyclic recs n hist.length) (hl : n ≤ hist.length) :
    m.bounds = m1.bounds ∧ m.resolution = m1.resolution ∧ ∃ cb, Placed m1 cb ρ ∧ Placed m cb ρ ∧
      ∀ w, Before m cb w (turn nm recs n m1 w (hist.length - n) (foldSeen nm first w (Fp.lit 0))) := by
  obtain ⟨first', m1', a1, a2, a3, a4, a5, a6, a7⟩ := C107_rounds hD.2 hn h0 hc h hs hl
  obtain ⟨⟨b1, b2, b3⟩, b4⟩ := C106_same_bounds hf a1 (a2.trans hfs.symm)
  have hr : ∀ {l : List (GridMap D F32 F32 × Point D F32 × PointCloud D F32)} {k}, l.map (·.2) = cyclic recs n k →
      ∀ e ∈ l, CloudInRange e.2.2 ρ := by
    intro l k hk e he
    have hlen : k = l.length := by
      have := congrArg List.length hk
      simpa [cyclic] using this.symm
    obtain ⟨r, hr, hx⟩ := cyclic_from (hlen ▸ hk) hn he
    rw [hx]; exact hc r hr
  obtain ⟨cb, q1, q2⟩ := C69_values hD.2 h0 (hr hs) h
  obtain ⟨cb', r1, -⟩ := C69_values hD.2 h0 (hr hfs) hf
  have hcb : cb' = cb := by rw [← q1.cells, ← r1.cells, a4, a5, b1, b2]
  subst hcb
  refine ⟨a4.trans b1, a5.trans b2, cb', r1, q1, fun w => ?_⟩
  have e4 : localCell m1' w = localCell m1 w := by unfold localCell; rw [b1, b2]
  have hval : turn nm recs n m1 w (hist.length - n) (foldSeen nm first w (Fp.lit 0)) = foldSeen nm hist w (Fp.lit 0) := by
    rw [a7, foldSeen_same w _ (b4.imp fun a b h => ⟨h.1, h.2.1, h.2.2.1⟩), e4, b1, b2]
    rfl
  have hz : worldValue m₀ CellBounds.empty w = .ok (Fp.lit 0) := if_neg fun h => by
    have := h ⟨0, by omega⟩
    simp only [CellBounds.empty] at this
    omega
  have hv := q2 w
  rw [hz] at hv
  rw [hval]
  refine ⟨fun hin => ?_, fun hin => ?_⟩
  · rw [show worldValue m cb' w = valueAt m cb' w from if_pos hin] at hv
    exact hv
  · rw [show worldValue m cb' w = .ok (Fp.lit 0) from if_neg hin] at hv
    exact (Except.ok.inj hv).symm

/-- C107: the recordings are played over and over into an empty map. There is a number of scans from which on the map is
the same, up to the signs of zeros, whenever the same recording comes next. -/
theorem C107_settles (hD : 1 ≤ D ∧ D ≤ 3) (hn : 0 < n) (h0 : Placed m₀ CellBounds.empty ρ)
    (hc : ∀ r < n, CloudInRange (recs r).2 ρ) {a b : ℚ} (h1 : nm.hit.Is a) (h2 : nm.miss.Is b)
    (h3 : nm.max.isNaN = false) (h4 : nm.min.isNaN = false) :
    ∃ K, ∀ hist m hist' m', Playback nm m₀ hist m → Playback nm m₀ hist' m' →
      hist.map (·.2) = cyclic recs n hist.length → hist'.map (·.2) = cyclic recs n hist'.length →
      K ≤ hist.length → K ≤ hist'.length → hist'.length % n = hist.length % n →
      m'.bounds = m.bounds ∧ m'.resolution = m.resolution ∧ ∃ cb, Placed m cb ρ ∧ Placed m' cb ρ ∧
        ∀ w, ∃ v v', Before m cb w v ∧ Before m' cb w v' ∧ Alike v v' := by
  refine ⟨n + Nat.card F32 * n, fun hist m hist' m' p p' s s' l l' hmod => ?_⟩
  obtain ⟨first, m1, f1, f2, -⟩ := C107_rounds hD.2 hn h0 hc p s (by omega)
  obtain ⟨x1, x2, cb, x3, x4, x5⟩ := after_round hD hn h0 hc f1 f2 p s (by omega)
  obtain ⟨y1, y2, cb', y3, y4, y5⟩ := after_round hD hn h0 hc f1 f2 p' s' (by omega)
  have hcb : cb' = cb := by rw [← x3.cells, ← y3.cells]
  subst hcb
  refine ⟨y1.trans x1.symm, y2.trans x2.symm, cb', x4, y4, fun w => ⟨_, _, x5 w, y5 w, ?_⟩⟩
  have split : ∀ L, n + Nat.card F32 * n ≤ L → ∃ q, Nat.card F32 ≤ q ∧ L - n = q * n + L % n := by
    intro L hL
    refine ⟨(L - n) / n, (Nat.le_div_iff_mul_le hn).mpr (by omega), ?_⟩
    have hm : L % n = (L - n) % n := Nat.mod_eq_sub_mod (by omega)
    rw [hm, Nat.mul_comm]
    exact (Nat.div_add_mod (L - n) n).symm
  obtain ⟨q, hq, e⟩ := split _ l
  obtain ⟨q', hq', e'⟩ := split _ l'
  rw [e, e', hmod, turn_rounds, turn_rounds]
  have := iterate_settles (g := turn nm recs n m1 w n) (fun h => turn_mono h1 h2 h3 h4 n h)
    (foldSeen_notNaN (hist := first) h1 h2 h3 h4 w (Fp.notNaN_is F32.zero_is)) hq hq'
  exact ⟨turn_mono h1 h2 h3 h4 _ this.1, turn_mono h1 h2 h3 h4 _ this.2⟩

/-- C107: at the ends of the rounds the value of a world cell goes in one direction only. -/
theorem C107_one_way (hD : 1 ≤ D ∧ D ≤ 3) (hn : 0 < n) (h0 : Placed m₀ CellBounds.empty ρ)
    (hc : ∀ r < n, CloudInRange (recs r).2 ρ) {a b : ℚ} (h1 : nm.hit.Is a) (h2 : nm.miss.Is b)
    (h3 : nm.max.isNaN = false) (h4 : nm.min.isNaN = false) (w : Cell D) :
    ∃ up : Bool, ∀ i j hist m hist' m', i ≤ j → Playback nm m₀ hist m → Playback nm m₀ hist' m' →
      hist.map (·.2) = cyclic recs n ((i + 1) * n) → hist'.map (·.2) = cyclic recs n ((j + 1) * n) →
      ∃ cb v v', Placed m cb ρ ∧ Placed m' cb ρ ∧ Before m cb w v ∧ Before m' cb w v' ∧
        if up then FLe v v' else FLe v' v := by
  by_cases hex : ∃ first m1, Playback nm m₀ first m1 ∧ first.map (·.2) = cyclic recs n n
  · obtain ⟨first, m1, f1, f2⟩ := hex
    have hv := foldSeen_notNaN (hist := first) h1 h2 h3 h4 w (Fp.notNaN_is F32.zero_is)
    have hmono : ∀ {v v'}, FLe v v' → FLe (turn nm recs n m1 w n v) (turn nm recs n m1 w n v') :=
      fun h => turn_mono h1 h2 h3 h4 n h
    have key : ∀ i hist m, Playback nm m₀ hist m → hist.map (·.2) = cyclic recs n ((i + 1) * n) → ∃ cb,
        Placed m1 cb ρ ∧ Placed m cb ρ ∧
        Before m cb w ((turn nm recs n m1 w n)^[i] (foldSeen nm first w (Fp.lit 0))) := by
      intro i hist m p s
      have hlen : hist.length = (i + 1) * n := by
        have := congrArg List.length s
        simpa [cyclic] using this
      obtain ⟨-, -, cb, x3, x4, x5⟩ := after_round hD hn h0 hc f1 f2 p (by rw [hlen]; exact s)
        (by rw [hlen]; exact Nat.le_mul_of_pos_left n (by omega))
      refine ⟨cb, x3, x4, ?_⟩
      have := x5 w
      rw [hlen, show (i + 1) * n - n = i * n + 0 by rw [Nat.add_mul, one_mul]; omega, turn_rounds] at this
      exact this
    have hnan := (hmono (Fp.FLe_refl hv)).1
    have pair : ∀ i j hist m hist' m', Playback nm m₀ hist m → Playback nm m₀ hist' m' →
        hist.map (·.2) = cyclic recs n ((i + 1) * n) → hist'.map (·.2) = cyclic recs n ((j + 1) * n) →
        ∃ cb, Placed m cb ρ ∧ Placed m' cb ρ ∧
          Before m cb w ((turn nm recs n m1 w n)^[i] (foldSeen nm first w (Fp.lit 0))) ∧
          Before m' cb w ((turn nm recs n m1 w n)^[j] (foldSeen nm first w (Fp.lit 0))) := by
      intro i j hist m hist' m' p p' s s'
      obtain ⟨cb, x1, x2, x3⟩ := key i hist m p s
      obtain ⟨cb', y1, y2, y3⟩ := key j hist' m' p' s'
      have hcb : cb' = cb := by rw [← x1.cells, ← y1.cells]
      subst hcb
      exact ⟨cb', x2, y2, x3, y3⟩
    rcases Fp.FLe_total hv hnan with h | h
    · refine ⟨true, fun i j hist m hist' m' hij p p' s s' => ?_⟩
      obtain ⟨cb, c1, c2, c3, c4⟩ := pair i j hist m hist' m' p p' s s'
      exact ⟨cb, _, _, c1, c2, c3, c4, iterate_le_of_le hmono h hij⟩
    · refine ⟨false, fun i j hist m hist' m' hij p p' s s' => ?_⟩
      obtain ⟨cb, c1, c2, c3, c4⟩ := pair i j hist m hist' m' p p' s s'
      exact ⟨cb, _, _, c1, c2, c3, c4, iterate_ge_of_le hmono h hij⟩
  · refine ⟨true, fun i j hist m hist' m' _ p _ s _ => absurd ?_ hex⟩
    have hlen : hist.length = (i + 1) * n := by
      have := congrArg List.length s
      simpa [cyclic] using this
    obtain ⟨first, m1, f1, f2, -⟩ := C107_rounds hD.2 hn h0 hc p (by rw [hlen]; exact s)
      (by rw [hlen]; exact Nat.le_mul_of_pos_left n (by omega))
    exact ⟨first, m1, f1, f2⟩

/-! ## The visualizer -/

open Viz

/-- C107, for the visualizer: there is a number of scans from which on, at all moments of all runs when the renderer has
processed a batch and the same recording comes next, the maps have the same bounds and the same values. -/
theorem C107_visualizer (hD : 1 ≤ D ∧ D ≤ 3) (hn : 0 < n) (h0 : Placed m₀ CellBounds.empty ρ)
    (hc : ∀ r < n, CloudInRange (recs r).2 ρ) {a b : ℚ} (h1 : nm.hit.Is a) (h2 : nm.miss.Is b)
    (h3 : nm.max.isNaN = false) (h4 : nm.min.isNaN = false) :
    ∃ K, ∀ (ord ord' : ℕ → List (Verif.Cell D) → List (Verif.Cell D))
      (s s' : State (GridMap D F32 F32) (Verif.Cell D) (Point D F32)), (∀ r, IsOrder (ord r)) → (∀ r, IsOrder (ord' r)) →
      Reach (occOps nm recs ord) n m₀ s → Reach (occOps nm recs ord') n m₀ s' →
      s.main = .clearFlag ∨ s.main = .spawn → s'.main = .clearFlag ∨ s'.main = .spawn →
      K ≤ s.workers.length → K ≤ s'.workers.length → s'.workers.length % n = s.workers.length % n →
      s'.map.bounds = s.map.bounds ∧ s'.map.resolution = s.map.resolution ∧
      ∃ cb, Placed s.map cb ρ ∧ Placed s'.map cb ρ ∧
        ∀ w, ∃ v v', Before s.map cb w v ∧ Before s'.map cb w v' ∧ Alike v v' := by
  obtain ⟨K, hK⟩ := C107_settles hD hn h0 hc h1 h2 h3 h4
  refine ⟨K, fun ord ord' s s' ho ho' hr hr' hm hm' hl hl' hmod => ?_⟩
  obtain ⟨hist, p1, p2, -, -, p3⟩ := C69_playback hn ho hr
  obtain ⟨hist', q1, q2, -, -, q3⟩ := C69_playback hn ho' hr'
  exact hK _ _ _ _ p1 q1 p2 q2 (by rw [p3 hm]; exact hl) (by rw [q3 hm']; exact hl')
    (by rw [p3 hm, q3 hm']; exact hmod)

/-- C107, on the screen: if no recording reaches below the tiles that the first one reaches, the picture settles: from
some number of scans on the same cells are drawn at the same points whenever the same recording comes next. -/
theorem C107_screen (hD : 1 ≤ D ∧ D ≤ 3) (hn : 0 < n) (h0 : Placed m₀ CellBounds.empty ρ)
    (ht0 : m₀.changedCells = []) (hth : FLe (Fp.lit 0) nm.threshold)
    (hc : ∀ r, CloudInRange (recs r).2 ρ) {k : Fin D → ℤ} (hk : LowestFirst m₀.tileSize ρ recs k)
    {a b : ℚ} (h1 : nm.hit.Is a) (h2 : nm.miss.Is b) (h3 : nm.max.isNaN = false) (h4 : nm.min.isNaN = false) :
    ∃ K, ∀ (ord ord' : ℕ → List (Verif.Cell D) → List (Verif.Cell D))
      (s s' : State (GridMap D F32 F32) (Verif.Cell D) (Point D F32)), (∀ r, IsOrder (ord r)) → (∀ r, IsOrder (ord' r)) →
      Reach (occOps nm recs ord) n m₀ s → Reach (occOps nm recs ord') n m₀ s' →
      s.main = .clearFlag ∨ s.main = .spawn → s'.main = .clearFlag ∨ s'.main = .spawn →
      K ≤ s.workers.length → K ≤ s'.workers.length → s'.workers.length % n = s.workers.length % n →
      ∀ c, MachineCell c → s'.tracked c = s.tracked c := by
  obtain ⟨K, hK⟩ := C107_visualizer hD hn h0 (fun r _ => hc r) h1 h2 h3 h4
  refine ⟨K, fun ord ord' s s' ho ho' hr hr' hm hm' hl hl' hmod c hmc => ?_⟩
  obtain ⟨c1, c2, cb, d1, d2, d3⟩ := hK ord ord' s s' ho ho' hr hr' hm hm' hl hl' hmod
  rw [C55_lowest_first hD.2 hn h0 ht0 hth ho hD.1 hc hk hr hm _ hmc,
    C55_lowest_first hD.2 hn h0 ht0 hth ho' hD.1 hc hk hr' hm' _ hmc]
  have hp : s'.map.pointFromCell c = s.map.pointFromCell c := by
    unfold GridMap.pointFromCell; rw [c1, c2]
  have hocc : nm.occupied s'.map c = nm.occupied s.map c := by
    obtain ⟨v, v', b1, b2, b3, b4⟩ := d3 fun i => c i + cb.min i
    have hcw : (fun i => (c i + cb.min i) - cb.min i) = c := by funext i; ring
    unfold LidarNoiseModel.occupied
    by_cases hin : InCells (fun i => c i + cb.min i) cb
    · have g1 := b1.1 hin
      have g2 := b2.1 hin
      unfold valueAt at g1 g2
      rw [hcw] at g1 g2
      rw [g1, g2, Verif.M.bind_ok, Verif.M.bind_ok]
      have : nm.threshold.lt v' = nm.threshold.lt v := by
        rw [Bool.eq_iff_iff, Fp.lt_iff, Fp.lt_iff, le_antisymm b3.2.2 b4.2.2, b3.1, b3.2.1]
      exact congrArg _ this
    · rw [(C31_get s.map hmc).2 fun h => hin ((inCells_iff d1 _).mpr (by rw [hcw]; exact h)),
        (C31_get s'.map hmc).2 fun h => hin ((inCells_iff d2 _).mpr (by rw [hcw]; exact h))]
  rw [hp, hocc]
end

/-! ## Examples -/

/-- The sensor at (1/4, 1/4) sees in turn a point at (9/4, 1/4) and one behind it, at (13/4, 1/4). -/
def flickerRecs (r : ℕ) : Point 2 F32 × PointCloud 2 F32 :=
  (![Fp.lit (1 / 4), Fp.lit (1 / 4)],
    PointCloud.fromPoints [![Fp.lit (if r % 2 = 0 then 9 / 4 else 13 / 4), Fp.lit (1 / 4)]])

/-- The map after `k` scans, the recordings in turn. -/
def flicker : ℕ → M (GridMap 2 F32 F32)
  | 0 => .ok smallMap
  | k + 1 => do
    let m ← flicker k
    smallNM.integratePointCloud id 40 m (flickerRecs (k % 2)).1 (flickerRecs (k % 2)).2

lemma flicker_plays (k : ℕ) {m : GridMap 2 F32 F32} (h : flicker k = .ok m) :
    ∃ hist, Playback smallNM smallMap hist m ∧ hist.map (·.2) = cyclic flickerRecs 2 k := by
  induction k generalizing m with
  | zero => cases h; exact ⟨[], .start, rfl⟩
  | succ k ih =>
    unfold flicker at h
    rw [M.bind_eq_ok] at h
    obtain ⟨m1, h1, h2⟩ := h
    obtain ⟨hist, p1, p2⟩ := ih h1
    refine ⟨_, .scan p1 (fun l => List.Perm.refl l) ⟨40, h2⟩, ?_⟩
    rw [List.map_append, p2, cyclic_succ]
    rfl

lemma flicker_values : (flicker 4).toOption.isSome = true ∧
    ((flicker 3).toOption.bind fun m => (m.get ![2, 0]).toOption) = some (Fp.lit 1) ∧
    ((flicker 4).toOption.bind fun m => (m.get ![2, 0]).toOption) = some (Fp.lit 0) ∧
    ((flicker 4).toOption.bind fun m => (m.get ![0, 0]).toOption) = some (Fp.lit (-4)) := by decide +kernel

lemma flicker_inRange (r : ℕ) : CloudInRange (flickerRecs r).2 1 := by
  intro p hp i
  rw [flickerRecs, C13_points_fromPoints, List.mem_singleton] at hp
  subst hp
  refine ⟨![if r % 2 = 0 then 9 / 4 else 13 / 4, 1 / 4] i, ?_, ?_⟩ <;>
    rcases Nat.mod_two_eq_zero_or_one r with h | h <;> simp only [h] <;> revert i <;> decide +kernel

lemma flicker_lowest : LowestFirst smallMap.tileSize 1 flickerRecs (fun _ => 0) := by
  refine ⟨by simp, fun r p hp i => ?_, fun _ => .inl rfl⟩
  rw [flickerRecs, C13_points_fromPoints, List.mem_singleton] at hp
  subst hp
  refine ⟨![if r % 2 = 0 then 9 / 4 else 13 / 4, 1 / 4] i, ?_, ?_⟩ <;>
    rcases Nat.mod_two_eq_zero_or_one r with h | h <;> simp only [h] <;> revert i <;> decide +kernel

/-- The hypotheses of C107 hold, two whole rounds can be played, and the cell (2, 0) does not come to rest within the
rounds: it has the value 1 after an odd number of scans and 0 after an even one. -/
example : Placed smallMap CellBounds.empty 1 ∧ smallMap.changedCells = [] ∧ FLe (Fp.lit 0) smallNM.threshold ∧
    (∀ r, CloudInRange (flickerRecs r).2 1) ∧ LowestFirst smallMap.tileSize 1 flickerRecs (fun _ => 0) ∧
    smallNM.hit.Is 1 ∧ smallNM.miss.Is (-1) ∧ smallNM.max.isNaN = false ∧ smallNM.min.isNaN = false ∧
    (∃ hist m, Playback smallNM smallMap hist m ∧ hist.map (·.2) = cyclic flickerRecs 2 (2 * 2)) ∧
    ((flicker 3).toOption.bind fun m => (m.get ![2, 0]).toOption) = some (Fp.lit 1) ∧
    ((flicker 4).toOption.bind fun m => (m.get ![2, 0]).toOption) = some (Fp.lit 0) := by
  refine ⟨smallMap_placed, rfl, by decide +kernel, flicker_inRange, flicker_lowest, by decide +kernel, by decide +kernel,
    by decide +kernel, by decide +kernel, ?_, flicker_values.2.1, flicker_values.2.2.1⟩
  obtain ⟨m, hm⟩ := Option.isSome_iff_exists.mp flicker_values.1
  cases h : flicker 4 with
  | error e => rw [h] at hm; cases hm
  | ok m =>
    obtain ⟨hist, p1, p2⟩ := flicker_plays 4 h
    exact ⟨hist, m, p1, p2⟩

end Verif.Props
