import Verif.Props.Bad

/-!
# C98: infinite coordinates
-/

namespace Verif.Props

open Verif Spec

variable {D : ℕ}

lemma seqFin_panics {α : Type} {g : Fin D → M α} (h : ∀ i, (∃ v, g i = .ok v) ∨ ∃ p, g i = .error (.panic p))
    {i : Fin D} (hi : ∀ v, g i ≠ .ok v) : ∃ p, seqFin g = .error (.panic p) := by
  induction D with
  | zero => exact i.elim0
  | succ D ih =>
    simp only [seqFin]
    rcases h 0 with ⟨v, hv⟩ | ⟨p, hp⟩
    · rw [hv]
      obtain ⟨j, rfl⟩ := Fin.exists_succ_eq.mpr (show i ≠ 0 from fun e => hi v (by rw [e]; exact hv))
      obtain ⟨p, hp⟩ := ih (g := fun i => g i.succ) (fun i => h i.succ) (i := j) hi
      refine ⟨p, ?_⟩
      rw [M.bind_ok, hp]
      rfl
    · exact ⟨p, by rw [hp]; rfl⟩

lemma isz_or (n : ℤ) : (∃ v, isz n = .ok v) ∨ ∃ p, isz n = .error (.panic p) := by
  unfold isz
  split_ifs
  · exact .inl ⟨_, rfl⟩
  · exact .inr ⟨_, rfl⟩

lemma irem_or (a b : ℤ) : (∃ v, irem a b = .ok v) ∨ ∃ p, irem a b = .error (.panic p) := by
  unfold irem
  split_ifs
  · exact .inr ⟨_, rfl⟩
  · exact .inr ⟨_, rfl⟩
  · exact .inl ⟨_, rfl⟩

lemma bind_or {α β : Type} {x : M α} {g : α → M β} (hx : (∃ v, x = .ok v) ∨ ∃ p, x = .error (.panic p))
    (hg : ∀ v, (∃ w, g v = .ok w) ∨ ∃ p, g v = .error (.panic p)) :
    (∃ w, (x >>= g) = .ok w) ∨ ∃ p, (x >>= g) = .error (.panic p) := by
  rcases hx with ⟨v, rfl⟩ | ⟨p, rfl⟩
  · exact hg v
  · exact .inr ⟨p, rfl⟩

lemma tileMin_or (T : ℕ) (c : ℤ) :
    (∃ v, CellBounds.tileMin T c = .ok v) ∨ ∃ p, CellBounds.tileMin T c = .error (.panic p) := by
  unfold CellBounds.tileMin
  refine bind_or (irem_or _ _) fun r => bind_or (isz_or _) fun q => ?_
  split_ifs
  · exact .inl ⟨_, rfl⟩
  · exact bind_or (isz_or _) fun _ => isz_or _
  · exact isz_or _

lemma tileMax_or (T : ℕ) (c : ℤ) :
    (∃ v, CellBounds.tileMax T c = .ok v) ∨ ∃ p, CellBounds.tileMax T c = .error (.panic p) := by
  unfold CellBounds.tileMax
  refine bind_or (irem_or _ _) fun r => bind_or (isz_or _) fun q => ?_
  split_ifs
  · exact .inl ⟨_, rfl⟩
  · exact isz_or _
  · exact bind_or (isz_or _) fun _ => isz_or _

lemma tileMax_top {T : ℕ} (h1 : 1 ≤ T) (h2 : T ≤ 2 ^ 17) (hT : ¬ (T : ℤ) ∣ isizeMax) (v : ℤ) :
    CellBounds.tileMax T isizeMax ≠ .ok v := by
  intro h
  unfold CellBounds.tileMax at h
  have e : isizeOfUsize T = T := by unfold isizeOfUsize; rw [if_pos (by omega)]
  rw [e] at h
  obtain ⟨r, hr, h⟩ := M.bind_eq_ok.mp h
  unfold irem at hr
  rw [if_neg (by omega), if_neg (by omega)] at hr
  cases hr
  obtain ⟨q, hq, h⟩ := M.bind_eq_ok.mp h
  obtain ⟨rfl, -⟩ := isz_ok.mp hq
  have hpos : (0 : ℤ) < T := by omega
  have hm : isizeMax.tmod T = isizeMax % T := Int.tmod_eq_emod_of_nonneg (by unfold isizeMax; norm_num)
  have hne : isizeMax % T ≠ 0 := fun h0 => hT (Int.dvd_of_emod_eq_zero h0)
  have h3 := Int.emod_nonneg isizeMax hpos.ne'
  have h4 := Int.emod_lt_of_pos isizeMax hpos
  rw [hm, abs_of_nonneg h3, if_neg hne, if_neg (by unfold isizeMax; norm_num)] at h
  obtain ⟨d, hd, h⟩ := M.bind_eq_ok.mp h
  obtain ⟨rfl, -⟩ := isz_ok.mp hd
  obtain ⟨-, h5⟩ := isz_ok.mp h
  have := h5.2
  omega

lemma tileMin_bot {T : ℕ} (h1 : 1 ≤ T) (h2 : T ≤ 2 ^ 17) (hT : ¬ (T : ℤ) ∣ isizeMin) (v : ℤ) :
    CellBounds.tileMin T isizeMin ≠ .ok v := by
  intro h
  unfold CellBounds.tileMin at h
  have e : isizeOfUsize T = T := by unfold isizeOfUsize; rw [if_pos (by omega)]
  rw [e] at h
  obtain ⟨r, hr, h⟩ := M.bind_eq_ok.mp h
  unfold irem at hr
  rw [if_neg (by omega), if_neg (by omega)] at hr
  cases hr
  obtain ⟨q, hq, h⟩ := M.bind_eq_ok.mp h
  obtain ⟨rfl, -⟩ := isz_ok.mp hq
  have hpos : (0 : ℤ) < T := by omega
  have hne : |isizeMin.tmod T| ≠ 0 := fun h0 => hT (Int.dvd_of_tmod_eq_zero (abs_eq_zero.mp h0))
  have h4 : |isizeMin.tmod T| < T := by
    have := Int.tmod_lt_of_pos isizeMin hpos
    have := Int.lt_tmod_of_pos isizeMin hpos
    rw [abs_lt]; omega
  rw [if_neg hne, if_pos (by unfold isizeMin; norm_num)] at h
  obtain ⟨d, hd, h⟩ := M.bind_eq_ok.mp h
  obtain ⟨rfl, -⟩ := isz_ok.mp hd
  obtain ⟨-, h5⟩ := isz_ok.mp h
  have := h5.1
  omega

lemma zero_ne_nan : (Fp.lit 0 : F32) ≠ .nan := by
  obtain ⟨_, _, _, h⟩ := F32.zero_is
  rw [h]
  simp

lemma inf_ne_zero (s : Bool) : Fp.eq (.inf s : F32) (Fp.lit 0) = false := by
  obtain ⟨_, _, _, h⟩ := F32.zero_is
  rw [h]
  rfl

lemma bounds_inf (l : List (Point D F32)) {i : Fin D} : ∀ b : Bounds D F32, b.max i ≠ .nan → b.min i ≠ .nan →
    ((b.max i = .inf false ∨ ∃ p ∈ l, p i = .inf false) → (l.foldl PointCloud.boundsStep b).max i = .inf false) ∧
    ((b.min i = .inf true ∨ ∃ p ∈ l, p i = .inf true) → (l.foldl PointCloud.boundsStep b).min i = .inf true) := by
  induction l with
  | nil => intro b _ _; simp
  | cons p l ih =>
    intro b h1 h2
    rw [List.foldl_cons]
    have a1 : (PointCloud.boundsStep b p).max i ≠ .nan := by
      unfold PointCloud.boundsStep
      dsimp only
      split_ifs with h
      · intro hn; rw [hn] at h
        revert h
        change Fp.lt (b.max i) .nan = true → False
        cases b.max i <;> simp [Fp.lt]
      · exact h1
    have a2 : (PointCloud.boundsStep b p).min i ≠ .nan := by
      unfold PointCloud.boundsStep
      dsimp only
      split_ifs with h
      · intro hn; rw [hn] at h; cases h
      · exact h2
    obtain ⟨k1, k2⟩ := ih _ a1 a2
    refine ⟨fun h => k1 ?_, fun h => k2 ?_⟩
    · have key : b.max i = .inf false ∨ p i = .inf false → (PointCloud.boundsStep b p).max i = .inf false := by
        intro h
        change (if Fp.lt (b.max i) (p i) = true then p i else b.max i) = _
        rcases h with h | h
        · rw [h]
          cases p i with
          | nan => rfl
          | inf a => cases a <;> rfl
          | fin q nz _ _ => rfl
        · rw [h]
          cases hb : b.max i with
          | nan => exact absurd hb h1
          | inf a => cases a <;> rfl
          | fin q nz _ _ => rfl
      rcases h with h | ⟨p', hp', h⟩
      · exact .inl (key (.inl h))
      · rcases List.mem_cons.mp hp' with rfl | hp'
        · exact .inl (key (.inr h))
        · exact .inr ⟨p', hp', h⟩
    · have key : b.min i = .inf true ∨ p i = .inf true → (PointCloud.boundsStep b p).min i = .inf true := by
        intro h
        change (if Fp.lt (p i) (b.min i) = true then p i else b.min i) = _
        rcases h with h | h
        · rw [h]
          cases p i with
          | nan => rfl
          | inf a => cases a <;> rfl
          | fin q nz _ _ => rfl
        · rw [h]
          cases hb : b.min i with
          | nan => exact absurd hb h2
          | inf a => cases a <;> rfl
          | fin q nz _ _ => rfl
      rcases h with h | ⟨p', hp', h⟩
      · exact .inl (key (.inl h))
      · rcases List.mem_cons.mp hp' with rfl | hp'
        · exact .inl (key (.inr h))
        · exact .inr ⟨p', hp', h⟩

lemma inf_round (s : Bool) : Fp.round (.inf s : F32) = .inf s := rfl

lemma discMax_inf {r : F32} {ρ : ℚ} (hr : r.Is ρ) (hpos : 0 < ρ) : Bounds.discMax r true (.inf false) = .inf false := by
  unfold Bounds.discMax
  change (if relativeEq (Fp.div (.inf false) r) (Fp.round (Fp.div (.inf false) r)) = true then
    (if true = true then Fp.add (.inf false) r else _) else _) = _
  rw [inf_div hr hpos, relativeEq_inf, if_pos rfl, if_pos rfl]
  obtain ⟨nz, h1, h2, rfl⟩ := hr
  rfl

lemma discMin_inf {r : F32} {ρ : ℚ} (hr : r.Is ρ) (hpos : 0 < ρ) : Bounds.discMin r (.inf true) = .inf true := by
  unfold Bounds.discMin
  change (if relativeEq (Fp.div (.inf true) r) (Fp.round (Fp.div (.inf true) r)) = true then _ else _) = _
  rw [inf_div hr hpos, relativeEq_inf, if_pos rfl]

lemma cellCoord_inf {r : F32} {ρ : ℚ} (hr : r.Is ρ) (hpos : 0 < ρ) (s : Bool) :
    cellCoordFromPointCoord (.inf s : F32) (Fp.lit 0) r = if s then isizeMin else isizeMax := by
  unfold cellCoordFromPointCoord
  change Fp.toInt (Fp.round (Fp.div (Fp.sub (.inf s) (Fp.lit 0)) r)) = _
  rw [Fp.inf_sub F32.zero_is, inf_div hr hpos, inf_round]
  rfl

variable {A : Type} {m : GridMap D F32 A} {ρ : ℚ} {origin : Point D F32} {cloud : PointCloud D F32}

/-- C98, infinite coordinates: the map cannot be grown to hold an infinite coordinate, whatever the map. -/
theorem C98_infinite_expand (hr : m.resolution.Is ρ) (hpos : 0 < ρ) (h1 : 1 ≤ m.tileSize) (h2 : m.tileSize ≤ 2 ^ 17)
    (hT1 : ¬ m.tileSize ∣ 2 ^ 63) (hT2 : ¬ m.tileSize ∣ 2 ^ 63 - 1)
    (hinf : ∃ p ∈ cloud.points, ∃ i s, p i = .inf s) (z : A) :
    ∃ k, m.expandBounds cloud.bounds z = .error (.panic k) := by
  suffices h : ∃ k, m.newCellBounds cloud.bounds = .error (.panic k) by
    obtain ⟨k, h⟩ := h
    exact ⟨k, by unfold GridMap.expandBounds; rw [h]; rfl⟩
  unfold GridMap.newCellBounds Bounds.discretized Bounds.new
  split_ifs with hle
  swap
  · exact ⟨_, rfl⟩
  rw [M.bind_ok]
  obtain ⟨p, hp, i, s, hs⟩ := hinf
  obtain ⟨b1, b2⟩ := bounds_inf cloud.points (i := i) (Bounds.empty : Bounds D F32) zero_ne_nan zero_ne_nan
  have hT1' : ¬ (m.tileSize : ℤ) ∣ isizeMin := by
    unfold isizeMin
    rw [Int.dvd_neg]
    exact_mod_cast hT1
  have hT2' : ¬ (m.tileSize : ℤ) ∣ isizeMax := by
    intro h
    refine hT2 ?_
    have e : isizeMax = ((2 ^ 63 - 1 : ℕ) : ℤ) := by unfold isizeMax; norm_num
    rw [e] at h
    exact Int.natCast_dvd_natCast.mp h
  set disc : Bounds D F32 := ⟨fun i => Bounds.discMin m.resolution (cloud.bounds.min i),
    fun i => Bounds.discMax m.resolution true (cloud.bounds.max i)⟩ with hdisc
  unfold CellBounds.discretized
  cases s with
  | false =>
    have hb : cloud.bounds.max i = .inf false := b1 (.inr ⟨p, hp, hs⟩)
    have hd : disc.max i = .inf false := by rw [hdisc]; dsimp only; rw [hb]; exact discMax_inf hr hpos
    have he : (m.bounds.enclosing disc).max i = .inf false := by
      unfold Bounds.enclosing
      split_ifs
      · exact hd
      · dsimp only
        rw [hd]
        change (if Fp.lt (.inf false) (m.bounds.max i) = true then _ else _) = _
        rw [if_neg]
        cases m.bounds.max i with
        | nan => simp [Fp.lt]
        | inf a => cases a <;> simp [Fp.lt]
        | fin q nz _ _ => simp [Fp.lt]
    have hne : (m.bounds.enclosing disc).beq Bounds.empty = false := by
      unfold Bounds.beq
      rw [Bool.and_eq_false_iff]
      right
      rw [decide_eq_false_iff_not]
      intro h
      have := h i
      rw [he] at this
      exact absurd ((inf_ne_zero _).symm.trans this) (by simp)
    have hc : (CellBounds.fromBounds (m.bounds.enclosing disc) m.resolution).max i = isizeMax := by
      unfold CellBounds.fromBounds
      rw [hne, if_neg (by simp)]
      change cellCoordFromPointCoord ((m.bounds.enclosing disc).max i) (Fp.lit 0) m.resolution = _
      rw [he, cellCoord_inf hr hpos]
      rfl
    rcases hmn : seqFin fun i => CellBounds.tileMin m.tileSize
        ((CellBounds.fromBounds (m.bounds.enclosing disc) m.resolution).min i) with e | v
    · by_cases hall : ∀ j, ∃ v, CellBounds.tileMin m.tileSize
          ((CellBounds.fromBounds (m.bounds.enclosing disc) m.resolution).min j) = .ok v
      · choose v hv using hall
        rw [seqFin_ok.mpr hv] at hmn
        cases hmn
      · push Not at hall
        obtain ⟨j, hj⟩ := hall
        obtain ⟨k, hk⟩ := seqFin_panics (fun j => tileMin_or _ _) hj
        rw [hk] at hmn
        cases hmn
        exact ⟨k, rfl⟩
    · rw [M.bind_ok]
      obtain ⟨k, hk⟩ := seqFin_panics (g := fun i => CellBounds.tileMax m.tileSize
          ((CellBounds.fromBounds (m.bounds.enclosing disc) m.resolution).max i)) (fun j => tileMax_or _ _) (i := i)
        (by rw [hc]; exact tileMax_top h1 h2 hT2')
      exact ⟨k, by rw [hk]; rfl⟩
  | true =>
    have hb : cloud.bounds.min i = .inf true := b2 (.inr ⟨p, hp, hs⟩)
    have hd : disc.min i = .inf true := by rw [hdisc]; dsimp only; rw [hb]; exact discMin_inf hr hpos
    have he : (m.bounds.enclosing disc).min i = .inf true := by
      unfold Bounds.enclosing
      split_ifs
      · exact hd
      · dsimp only
        rw [hd]
        change (if Fp.lt (m.bounds.min i) (.inf true) = true then _ else _) = _
        rw [if_neg]
        cases m.bounds.min i with
        | nan => simp [Fp.lt]
        | inf a => cases a <;> simp [Fp.lt]
        | fin q nz _ _ => simp [Fp.lt]
    have hne : (m.bounds.enclosing disc).beq Bounds.empty = false := by
      unfold Bounds.beq
      rw [Bool.and_eq_false_iff]
      left
      rw [decide_eq_false_iff_not]
      intro h
      have := h i
      rw [he] at this
      exact absurd ((inf_ne_zero _).symm.trans this) (by simp)
    have hc : (CellBounds.fromBounds (m.bounds.enclosing disc) m.resolution).min i = isizeMin := by
      unfold CellBounds.fromBounds
      rw [hne, if_neg (by simp)]
      change cellCoordFromPointCoord ((m.bounds.enclosing disc).min i) (Fp.lit 0) m.resolution = _
      rw [he, cellCoord_inf hr hpos]
      rfl
    obtain ⟨k, hk⟩ := seqFin_panics (g := fun i => CellBounds.tileMin m.tileSize
        ((CellBounds.fromBounds (m.bounds.enclosing disc) m.resolution).min i)) (fun j => tileMin_or _ _) (i := i)
      (by rw [hc]; exact tileMin_bot h1 h2 hT1')
    exact ⟨k, by rw [hk]; rfl⟩

/-- C98, infinite coordinates: integrating a cloud with an infinite coordinate panics. -/
theorem C98_infinite {m : GridMap D F32 F32} {nm : LidarNoiseModel F32} {ord : List (Cell D) → List (Cell D)}
    (hr : m.resolution.Is ρ) (hpos : 0 < ρ) (h1 : 1 ≤ m.tileSize) (h2 : m.tileSize ≤ 2 ^ 17)
    (hT1 : ¬ m.tileSize ∣ 2 ^ 63) (hT2 : ¬ m.tileSize ∣ 2 ^ 63 - 1)
    (hinf : ∃ p ∈ cloud.points, ∃ i s, p i = .inf s) :
    ∃ k, ∀ fuel, nm.integratePointCloud ord fuel m origin cloud = .error (.panic k) := by
  obtain ⟨k, hk⟩ := C98_infinite_expand hr hpos h1 h2 hT1 hT2 hinf nm.defaultCellValue
  exact ⟨k, fun fuel => by unfold LidarNoiseModel.integratePointCloud; rw [hk]; rfl⟩

/-- A cloud with an infinite coordinate, and tiles of three cells. -/
example : ∃ k, ∀ fuel, defaultNM.integratePointCloud (fun l => l) fuel { smallMap with tileSize := 3 } nanSensor
    (PointCloud.fromPoints [![Fp.lit 1, .inf true], ![.nan, Fp.lit 1]]) = .error (.panic k) := by
  refine C98_infinite (ρ := 1) (show (Fp.lit 1 : F32).Is 1 by decide +kernel) (by norm_num) (by norm_num) (by norm_num)
    (by norm_num) (by norm_num) ⟨![Fp.lit 1, .inf true], ?_, 1, true, rfl⟩
  rw [C13_points_fromPoints]
  exact List.mem_cons_self

end Verif.Props
