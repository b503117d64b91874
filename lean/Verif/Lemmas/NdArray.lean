import Verif.Model.NdArray
import Mathlib.Tactic.Linarith

/-!
# Facts about arrays
-/

namespace Verif

lemma flatIndex_inj {D : ℕ} {s ix iy : Fin D → ℕ} (hx : InShape s ix) (hy : InShape s iy)
    (h : flatIndex s ix = flatIndex s iy) : ix = iy := by
  induction D with
  | zero => funext i; exact i.elim0
  | succ D ih =>
    have hx' : InShape (fun i : Fin D => s i.succ) (fun i => ix i.succ) := fun i => hx i.succ
    have hy' : InShape (fun i : Fin D => s i.succ) (fun i => iy i.succ) := fun i => hy i.succ
    have l1 := flatIndex_lt hx'
    have l2 := flatIndex_lt hy'
    simp only [flatIndex] at h
    generalize shapeProd (fun i : Fin D => s i.succ) = P at *
    have h0 : ix 0 = iy 0 := by
      rcases lt_trichotomy (ix 0) (iy 0) with c | c | c
      · have := Nat.mul_le_mul_right P (Nat.succ_le_of_lt c)
        rw [Nat.succ_mul] at this; omega
      · exact c
      · have := Nat.mul_le_mul_right P (Nat.succ_le_of_lt c)
        rw [Nat.succ_mul] at this; omega
    rw [h0] at h
    have h1 := ih hx' hy' (by omega)
    funext i
    refine Fin.cases h0 (fun j => ?_) i
    exact congrFun h1 j

lemma le_nonzeroProd {D : ℕ} (s : Fin D → ℕ) (i : Fin D) : s i ≤ nonzeroProd s := by
  induction D with
  | zero => exact i.elim0
  | succ D ih =>
    have hpos : ∀ {D : ℕ} (s : Fin D → ℕ), 1 ≤ nonzeroProd s := by
      intro D
      induction D with
      | zero => intro s; simp [nonzeroProd]
      | succ D ih =>
        intro s
        simp only [nonzeroProd]
        have := ih fun i => s i.succ
        split_ifs with h
        · simpa using this
        · exact Nat.one_le_iff_ne_zero.mpr (Nat.mul_ne_zero h (by omega))
    simp only [nonzeroProd]
    refine Fin.cases ?_ (fun j => ?_) i
    · have := hpos fun i => s i.succ
      split_ifs with h
      · omega
      · exact Nat.le_mul_of_pos_right _ this
    · have := ih (fun i => s i.succ) j
      refine this.trans ?_
      split_ifs with h
      · simp
      · exact Nat.le_mul_of_pos_left _ (by omega)

namespace NdArray
variable {D : ℕ} {A : Type}

lemma shape_le (a : NdArray D A) (i : Fin D) : (a.shape i : ℤ) ≤ isizeMax :=
  le_trans (by exact_mod_cast le_nonzeroProd a.shape i) a.valid

lemma get_ok {a : NdArray D A} {ix : Fin D → ℕ} (h : InShape a.shape ix) : ∃ v, a.get ix = .ok v := by
  unfold get; rw [dif_pos h]; exact ⟨_, rfl⟩

lemma get_isOk_iff {a : NdArray D A} {ix : Fin D → ℕ} : (∃ v, a.get ix = .ok v) ↔ InShape a.shape ix := by
  constructor
  · rintro ⟨v, h⟩
    by_contra hc
    unfold get at h; rw [dif_neg hc] at h; cases h
  · exact get_ok

lemma get_panic {a : NdArray D A} {ix : Fin D → ℕ} (h : ¬ InShape a.shape ix) :
    a.get ix = .error (.panic .index) := by
  unfold get; rw [dif_neg h]

lemma set_panic {a : NdArray D A} {ix : Fin D → ℕ} {v : A} (h : ¬ InShape a.shape ix) :
    a.set ix v = .error (.panic .index) := by
  unfold set; rw [if_neg h]

lemma set_ok {a : NdArray D A} {ix : Fin D → ℕ} {v : A} (h : InShape a.shape ix) :
    ∃ b, a.set ix v = .ok b := by
  unfold set; rw [if_pos h]; exact ⟨_, rfl⟩

lemma set_shape {a b : NdArray D A} {ix : Fin D → ℕ} {v : A} (h : a.set ix v = .ok b) :
    b.shape = a.shape ∧ InShape a.shape ix := by
  unfold set at h
  split_ifs at h with h1
  cases h; exact ⟨rfl, h1⟩

lemma get_set_self {a b : NdArray D A} {ix : Fin D → ℕ} {v : A} (h : a.set ix v = .ok b) :
    b.get ix = .ok v := by
  unfold set at h
  split_ifs at h with h1
  cases h
  unfold get
  rw [dif_pos h1]
  simp

lemma get_set_ne {a b : NdArray D A} {ix iy : Fin D → ℕ} {v : A} (h : a.set ix v = .ok b)
    (hne : iy ≠ ix) : b.get iy = a.get iy := by
  unfold set at h
  split_ifs at h with h1
  cases h
  unfold get
  by_cases h2 : InShape a.shape iy
  · rw [dif_pos h2, dif_pos h2]
    have : flatIndex a.shape ix ≠ flatIndex a.shape iy := fun he => hne (flatIndex_inj h1 h2 he).symm
    simp [List.getElem_set_ne this]
  · rw [dif_neg h2, dif_neg h2]

/-- Arrays with the same shape and the same elements are equal. -/
lemma ext' {a b : NdArray D A} (hs : a.shape = b.shape) (hd : a.data = b.data) : a = b := by
  obtain ⟨s, d, l, v⟩ := a
  obtain ⟨s', d', l', v'⟩ := b
  simp only at hs hd
  subst hs hd
  rfl

lemma tabList_get {s ix : Fin D → ℕ} {g : (Fin D → ℕ) → A} (h : InShape s ix)
    (h' : flatIndex s ix < (tabList s g).length) : (tabList s g)[flatIndex s ix] = g ix := by
  induction D with
  | zero =>
    simp only [tabList, flatIndex, List.getElem_cons_zero]
    congr 1; funext i; exact i.elim0
  | succ D ih =>
    have hx' : InShape (fun i : Fin D => s i.succ) (fun i => ix i.succ) := fun i => h i.succ
    have key : ∀ (n k : ℕ) (G : ℕ → (Fin D → ℕ) → A), k < n →
        ∀ h'', ((List.range n).flatMap fun k => tabList (fun i => s i.succ) (G k))[k *
          shapeProd (fun i => s i.succ) + flatIndex (fun i => s i.succ) (fun i => ix i.succ)]'h''
          = G k fun i => ix i.succ := by
      intro n
      induction n with
      | zero => intro k G hk; omega
      | succ n ihn =>
        intro k G hk h''
        have hlt := flatIndex_lt hx'
        cases k with
        | zero =>
          simp only [List.range_succ_eq_map, List.flatMap_cons, Nat.zero_mul, Nat.zero_add]
          rw [List.getElem_append_left (by rw [tabList_length]; exact hlt)]
          exact ih hx' _
        | succ k =>
          have hk' : k < n := by omega
          simp only [List.range_succ_eq_map, List.flatMap_cons, List.flatMap_map]
          rw [List.getElem_append_right (by rw [tabList_length, Nat.succ_mul]; omega)]
          simp only [tabList_length]
          have he : (k + 1) * shapeProd (fun i => s i.succ)
              + flatIndex (fun i => s i.succ) (fun i => ix i.succ) - shapeProd (fun i => s i.succ)
              = k * shapeProd (fun i => s i.succ)
                + flatIndex (fun i => s i.succ) (fun i => ix i.succ) := by
            rw [Nat.succ_mul]; omega
          simp only [he]
          exact ihn k (fun k => G (k + 1)) hk' _
    have hc : ix = Fin.cons (ix 0) fun i => ix i.succ := (Fin.cons_self_tail ix).symm
    have := key (s 0) (ix 0) (fun k iy => g (Fin.cons k iy)) (h 0) (by
      have := h'
      simpa only [tabList, flatIndex] using this)
    refine Eq.trans ?_ (this.trans (congrArg g hc.symm))
    rfl

lemma get_tab {s ix : Fin D → ℕ} {hs} {g : (Fin D → ℕ) → A} (h : InShape s ix) :
    (tab s hs g).get ix = .ok (g ix) := by
  unfold get
  rw [dif_pos (show InShape (tab s hs g).shape ix from h)]
  congr 1
  exact tabList_get h _

/-- Every position of the flat list belongs to an index. -/
lemma flatIndex_surj {D : ℕ} (s : Fin D → ℕ) (n : ℕ) (hn : n < shapeProd s) :
    ∃ ix, InShape s ix ∧ flatIndex s ix = n := by
  induction D generalizing n with
  | zero =>
    refine ⟨Fin.elim0, fun i => i.elim0, ?_⟩
    simp [shapeProd] at hn
    simp [flatIndex, hn]
  | succ D ih =>
    simp only [shapeProd] at hn
    have hP : 0 < shapeProd (fun i => s i.succ) := by
      rcases Nat.eq_zero_or_pos (shapeProd (fun i => s i.succ)) with h0 | h0
      · rw [h0] at hn; simp at hn
      · exact h0
    obtain ⟨ix, h1, h2⟩ := ih (fun i => s i.succ) (n % shapeProd (fun i => s i.succ))
      (Nat.mod_lt _ hP)
    refine ⟨Fin.cons (n / shapeProd (fun i => s i.succ)) ix, ?_, ?_⟩
    · intro i
      refine Fin.cases ?_ (fun j => ?_) i
      · simp only [Fin.cons_zero]
        exact Nat.div_lt_of_lt_mul (by rwa [Nat.mul_comm])
      · simp only [Fin.cons_succ]; exact h1 j
    · simp only [flatIndex, Fin.cons_zero, Fin.cons_succ, h2]
      rw [Nat.mul_comm]; exact Nat.div_add_mod _ _

/-- The array is determined by its shape and what `get` returns. -/
lemma ext_get {a b : NdArray D A} (hs : a.shape = b.shape)
    (h : ∀ ix, InShape a.shape ix → a.get ix = b.get ix) : a = b := by
  apply ext' hs
  apply List.ext_getElem
  · rw [a.len, b.len, hs]
  · intro n h1 h2
    rw [a.len] at h1
    obtain ⟨ix, h3, rfl⟩ := flatIndex_surj a.shape n h1
    have := h ix h3
    unfold get at this
    rw [dif_pos h3, dif_pos (hs ▸ h3)] at this
    injection this with this
    rw [this]
    simp only [hs]

lemma get_fromShapeVec {shape ix : Fin D → ℕ} {n : ℕ} {v : A} {a : NdArray D A}
    (h : fromShapeVec shape (List.replicate n v) = .ok a) :
    a.shape = shape ∧ (InShape shape ix → a.get ix = .ok v) := by
  unfold fromShapeVec at h
  split_ifs at h with h1 h2
  cases h
  refine ⟨rfl, fun hi => ?_⟩
  unfold get
  rw [dif_pos hi]
  simp

/-! ## Slices -/

lemma sliceAxis_ok {len : ℕ} {a b : ℤ} (ha : 0 ≤ a) (hab : a ≤ b) (hb : b ≤ len) :
    sliceAxis len a b = .ok (a.toNat, b.toNat) := by
  have h1 : absIndex len a = a.toNat := by
    unfold absIndex
    rw [if_neg (by omega)]
    unfold usizeOfIsize
    rw [if_pos ha]
  have h2 : absIndex len b = b.toNat := by
    unfold absIndex
    rw [if_neg (by omega)]
    unfold usizeOfIsize
    rw [if_pos (by omega)]
  unfold sliceAxis
  simp only [h1, h2]
  rw [if_neg (by omega : ¬ b.toNat < a.toNat), if_pos (by omega)]

/-- Copying a block of `src` into a block of `dst` of the same size. -/
lemma sliceAssign_block {dst src : NdArray D A} {a1 b1 a2 b2 : Fin D → ℤ}
    (h0 : ∀ i, 0 ≤ a1 i) (h1 : ∀ i, a1 i ≤ b1 i) (h2 : ∀ i, b1 i ≤ dst.shape i)
    (k0 : ∀ i, 0 ≤ a2 i) (k1 : ∀ i, b2 i - a2 i = b1 i - a1 i) (k2 : ∀ i, b2 i ≤ src.shape i) :
    ∃ r, dst.sliceAssign a1 b1 src a2 b2 = .ok r ∧
      r.shape = dst.shape ∧
      (∀ ix, InShape dst.shape ix →
        r.get ix = if ∀ i, a1 i ≤ ix i ∧ (ix i : ℤ) < b1 i then
          src.get (fun i => (a2 i).toNat + (ix i - (a1 i).toNat)) else dst.get ix) := by
  have e1 : seqFin (fun i => sliceAxis (dst.shape i) (a1 i) (b1 i))
      = .ok fun i => ((a1 i).toNat, (b1 i).toNat) := by
    rw [seqFin_ok]; intro i
    exact sliceAxis_ok (h0 i) (h1 i) (h2 i)
  have e2 : seqFin (fun i => sliceAxis (src.shape i) (a2 i) (b2 i))
      = .ok fun i => ((a2 i).toNat, (b2 i).toNat) := by
    rw [seqFin_ok]; intro i
    exact sliceAxis_ok (k0 i) (by have := h1 i; have := k1 i; omega) (k2 i)
  have hl : ∀ i, (b2 i).toNat - (a2 i).toNat = (b1 i).toNat - (a1 i).toNat := by
    intro i; have := h0 i; have := h1 i; have := k0 i; have := k1 i; omega
  unfold sliceAssign
  rw [e1]
  simp only [M.bind_ok]
  rw [e2]
  simp only [M.bind_ok]
  rw [if_pos (fun i => .inl (hl i))]
  simp only [hl, if_true]
  refine ⟨_, rfl, ?_, ?_⟩
  · split <;> rfl
  · intro ix hix
    have hpos : 0 < dst.data.length := by
      rw [dst.len]; exact lt_of_le_of_lt (Nat.zero_le _) (flatIndex_lt hix)
    cases hd : dst.data.head? with
    | none => rw [List.head?_eq_none_iff] at hd; rw [hd] at hpos; simp at hpos
    | some d =>
      simp only
      rw [get_tab hix]
      by_cases hin : ∀ i, a1 i ≤ ix i ∧ (ix i : ℤ) < b1 i
      · have hin' : ∀ i, (a1 i).toNat ≤ ix i ∧ ix i < (b1 i).toNat := by
          intro i; have := hin i; have := h0 i; have := h1 i; omega
        rw [if_pos hin, if_pos hin']
        have hs : InShape src.shape fun i => (a2 i).toNat + (ix i - (a1 i).toNat) := by
          intro i
          have := hin i; have := h0 i; have := h1 i; have := k0 i; have := k1 i; have := k2 i
          change (a2 i).toNat + (ix i - (a1 i).toNat) < src.shape i
          omega
        have hlt : flatIndex src.shape (fun i => (a2 i).toNat + (ix i - (a1 i).toNat)) < src.data.length := by
          rw [src.len]; exact flatIndex_lt hs
        unfold get
        rw [dif_pos hs]
        rw [List.getElem?_eq_getElem hlt]
        rfl
      · have hin' : ¬ ∀ i, (a1 i).toNat ≤ ix i ∧ ix i < (b1 i).toNat := by
          intro hc; apply hin
          intro i; have := hc i; have := h0 i; have := h1 i; omega
        rw [if_neg hin, if_neg hin']
        have hlt : flatIndex dst.shape ix < dst.data.length := by
          rw [dst.len]; exact flatIndex_lt hix
        unfold get
        rw [dif_pos hix, List.getElem?_eq_getElem hlt]
        rfl

/-- Copying a block of `src` into `dst` at an offset. -/
lemma sliceAssign_ok {dst src : NdArray D A} {off size : Fin D → ℤ}
    (h0 : ∀ i, 0 ≤ off i) (h1 : ∀ i, 0 ≤ size i) (h2 : ∀ i, size i + off i ≤ dst.shape i)
    (h3 : ∀ i, size i ≤ src.shape i) :
    ∃ r, dst.sliceAssign off (fun i => size i + off i) src (fun _ => 0) size = .ok r ∧
      r.shape = dst.shape ∧
      (∀ ix, InShape dst.shape ix →
        r.get ix = if ∀ i, off i ≤ ix i ∧ (ix i : ℤ) < size i + off i then
          src.get (fun i => ix i - (off i).toNat) else dst.get ix) := by
  have := sliceAssign_block (dst := dst) (src := src) (a1 := off) (b1 := fun i => size i + off i)
    (a2 := fun _ => 0) (b2 := size) h0 (fun i => by have := h1 i; omega) h2 (fun _ => le_rfl)
    (fun i => by omega) h3
  simpa using this

/-! ## Elements -/

/-- The elements of the list are the values at the indices. -/
lemma mem_data_iff {a : NdArray D A} {v : A} : v ∈ a.data ↔ ∃ ix, a.get ix = .ok v := by
  constructor
  · intro h
    obtain ⟨n, hn, rfl⟩ := List.getElem_of_mem h
    obtain ⟨ix, h1, h2⟩ := flatIndex_surj a.shape n (by rw [← a.len]; exact hn)
    refine ⟨ix, ?_⟩
    unfold get
    rw [dif_pos h1]
    simp only [h2]
  · rintro ⟨ix, h⟩
    unfold get at h
    split_ifs at h with h1
    injection h with h
    rw [← h]; exact List.getElem_mem _

lemma mem_tabList {D : ℕ} {s : Fin D → ℕ} {g : (Fin D → ℕ) → A} {v : A} (h : v ∈ tabList s g) :
    ∃ ix, v = g ix := by
  induction D with
  | zero =>
    simp only [tabList, List.mem_singleton] at h
    exact ⟨_, h⟩
  | succ D ih =>
    simp only [tabList, List.mem_flatMap] at h
    obtain ⟨k, -, hk⟩ := h
    obtain ⟨ix, hix⟩ := ih hk
    exact ⟨_, hix⟩

/-- Copying a slice brings no values but those of the two arrays. -/
lemma mem_sliceAssign {dst src a : NdArray D A} {a1 b1 a2 b2 : Fin D → ℤ} {v : A}
    (h : dst.sliceAssign a1 b1 src a2 b2 = .ok a) (hv : v ∈ a.data) :
    v ∈ dst.data ∨ v ∈ src.data := by
  unfold sliceAssign at h
  rw [M.bind_eq_ok] at h
  obtain ⟨st, -, h⟩ := h
  rw [M.bind_eq_ok] at h
  obtain ⟨sf, -, h⟩ := h
  dsimp only at h
  split_ifs at h
  injection h with h
  cases hd : dst.data.head? with
  | none => rw [hd] at h; subst h; exact .inl hv
  | some d =>
    rw [hd] at h
    subst h
    obtain ⟨ix, hix⟩ := mem_tabList hv
    have hdm : d ∈ dst.data := List.mem_of_mem_head? (by rw [hd]; rfl)
    rw [hix]
    split_ifs with hc
    · cases hs : src.data[flatIndex src.shape fun i =>
          (sf i).1 + (if (sf i).2 - (sf i).1 = (st i).2 - (st i).1 then ix i - (st i).1 else 0)]? with
      | some y => right; simpa using List.mem_of_getElem? hs
      | none =>
        left
        cases ho : dst.data[flatIndex dst.shape ix]? with
        | some y => simpa [ho] using List.mem_of_getElem? ho
        | none => simpa [ho] using hdm
    · left
      cases ho : dst.data[flatIndex dst.shape ix]? with
      | some y => simpa [ho] using List.mem_of_getElem? ho
      | none => simpa [ho] using hdm

lemma mem_set {a a' : NdArray D A} {ix : Fin D → ℕ} {v w : A} (h : a.set ix v = .ok a')
    (hw : w ∈ a'.data) : w = v ∨ w ∈ a.data := by
  unfold set at h
  split_ifs at h
  injection h with h
  subst h
  exact (List.mem_or_eq_of_mem_set hw).symm

end NdArray
end Verif
