import Verif.Spec.Text
import Verif.Props.Parse

/-!
# C77: OXTS files as bytes
-/

namespace Verif.Props
open Spec Kitti

lemma char_cases (c : Char) : c.toNat < 0xD800 ∨ 0xDFFF < c.toNat ∧ c.toNat < 0x110000 := by
  rcases c.valid with h | h
  · exact .inl h
  · exact .inr h

lemma toNat_ofNat {n : ℕ} (h : n < 0xD800 ∨ 0xDFFF < n ∧ n < 0x110000) : (Char.ofNat n).toNat = n := by
  have h' : n.isValidChar := h
  unfold Char.ofNat
  rw [dif_pos h']
  rfl

lemma byte_eq {b : BitVec 8} {n : ℕ} (h : b.toNat = n) : b = .ofNat 8 n := by
  subst h; simp

lemma fromUtf8_char (c : Char) (r : List (BitVec 8)) :
    fromUtf8 (utf8Char c ++ r) = (fromUtf8 r).map (c :: ·) := by
  have hc := char_cases c
  have key : ∀ n, n = c.toNat → Char.ofNat n = c := by
    rintro n rfl; exact Char.ofNat_toNat c
  unfold utf8Char
  simp only
  split_ifs with h1 h2 h3
  · rw [List.singleton_append, fromUtf8.eq_def]
    simp only [BitVec.toNat_ofNat]
    rw [if_pos (by omega), key _ (by omega)]
  · rw [List.cons_append, List.singleton_append, fromUtf8.eq_def]
    simp only [BitVec.toNat_ofNat, isCont]
    rw [if_neg (by omega), if_pos (by omega), if_pos (by simp; omega), key _ (by omega)]
  · rw [List.cons_append, List.cons_append, List.singleton_append, fromUtf8.eq_def]
    simp only [BitVec.toNat_ofNat, isCont]
    rw [if_neg (by omega), if_neg (by omega), if_pos, if_pos (by simp; omega), key _ (by omega)]
    simp only [okAfter3, isCont, BitVec.toNat_ofNat, Bool.or_eq_true, Bool.and_eq_true, beq_iff_eq,
      decide_eq_true_eq, ← BitVec.toNat_inj]
    simp
    omega
  · rw [List.cons_append, List.cons_append, List.cons_append, List.singleton_append, fromUtf8.eq_def]
    simp only [BitVec.toNat_ofNat]
    rw [if_neg (by omega), if_neg (by omega), if_neg, if_pos, key _ (by omega)]
    · simp only [okAfter4, isCont, BitVec.toNat_ofNat, Bool.or_eq_true, Bool.and_eq_true, beq_iff_eq,
        decide_eq_true_eq, ← BitVec.toNat_inj]
      simp
      omega
    · simp only [okAfter3, isCont, BitVec.toNat_ofNat, Bool.or_eq_true, Bool.and_eq_true, beq_iff_eq,
        decide_eq_true_eq, ← BitVec.toNat_inj]
      simp
      omega

lemma fromUtf8_sound (bytes : List (BitVec 8)) (text : List Char) (h : fromUtf8 bytes = some text) :
    bytes = utf8 text := by
  have cons : ∀ (c : Char) (t : List Char), utf8 (c :: t) = utf8Char c ++ utf8 t := fun _ _ => rfl
  fun_induction fromUtf8 bytes generalizing text with
  | case1 => cases h; rfl
  | case2 b0 r h1 ih =>
    obtain ⟨t, h2, rfl⟩ := Option.map_eq_some_iff.mp h
    rw [ih t h2, cons]
    unfold utf8Char
    simp only
    rw [toNat_ofNat (by omega), if_pos h1, ← byte_eq rfl]
    rfl
  | case3 => cases h
  | case4 b0 h1 b1 r h2 h3 ih =>
    obtain ⟨t, h4, rfl⟩ := Option.map_eq_some_iff.mp h
    simp only [isCont, Bool.and_eq_true, decide_eq_true_eq] at h3
    rw [ih t h4, cons]
    unfold utf8Char
    simp only
    rw [toNat_ofNat (by omega), if_neg (by omega), if_pos (by omega)]
    rw [← byte_eq (b := b0) (by omega), ← byte_eq (b := b1) (by omega)]
    rfl
  | case5 => cases h
  | case6 => cases h
  | case7 b0 h1 b1 h2 b2 r h3 h4 ih =>
    obtain ⟨t, h5, rfl⟩ := Option.map_eq_some_iff.mp h
    have := b0.isLt
    have := b1.isLt
    simp only [okAfter3, isCont, BitVec.toNat_ofNat, Bool.or_eq_true, Bool.and_eq_true, beq_iff_eq,
      decide_eq_true_eq, ← BitVec.toNat_inj] at h3 h4
    simp at h3
    rw [ih t h5, cons]
    unfold utf8Char
    simp only
    rw [toNat_ofNat (by omega), if_neg (by omega), if_neg (by omega), if_pos (by omega)]
    rw [← byte_eq (b := b0) (by omega), ← byte_eq (b := b1) (by omega), ← byte_eq (b := b2) (by omega)]
    rfl
  | case8 => cases h
  | case9 => cases h
  | case10 b0 h1 b1 h2 b2 h3 b3 r h4 ih =>
    obtain ⟨t, h5, rfl⟩ := Option.map_eq_some_iff.mp h
    have := b0.isLt
    have := b1.isLt
    simp only [okAfter4, isCont, BitVec.toNat_ofNat, Bool.or_eq_true, Bool.and_eq_true, beq_iff_eq,
      decide_eq_true_eq, ← BitVec.toNat_inj] at h4
    simp at h4
    rw [ih t h5, cons]
    unfold utf8Char
    simp only
    rw [toNat_ofNat (by omega), if_neg (by omega), if_neg (by omega), if_neg (by omega)]
    rw [← byte_eq (b := b0) (by omega), ← byte_eq (b := b1) (by omega), ← byte_eq (b := b2) (by omega),
      ← byte_eq (b := b3) (by omega)]
    rfl
  | case11 => cases h

/-- C77: bytes are accepted as a text exactly if they are its UTF-8 encoding. -/
theorem C77_utf8 (bytes : List (BitVec 8)) (text : List Char) :
    fromUtf8 bytes = some text ↔ bytes = utf8 text := by
  constructor
  · exact fromUtf8_sound bytes text
  · rintro rfl
    induction text with
    | nil => rfl
    | cons c t ih =>
      change fromUtf8 (utf8Char c ++ utf8 t) = _
      rw [fromUtf8_char, ih]
      rfl

/-- C77: seven-bit bytes are a text of as many characters. -/
theorem C77_ascii (bytes : List (BitVec 8)) (h : ∀ b ∈ bytes, b.toNat < 128) :
    readToString (.ok bytes) = .ok (bytes.map fun b => Char.ofNat b.toNat) := by
  have h1 : fromUtf8 bytes = some (bytes.map fun b => Char.ofNat b.toNat) := by
    induction bytes with
    | nil => rfl
    | cons b r ih =>
      rw [fromUtf8.eq_def]
      simp only
      rw [if_pos (h b List.mem_cons_self), ih fun x hx => h x (List.mem_cons_of_mem _ hx)]
      rfl
  unfold readToString
  simp only [h1]

section Read
variable {G F R : Type} [Scalar G] [Scalar F] {env : OxtEnv G F R}

/-- C77: a file that is not UTF-8 anywhere, even in fields that are not used, is invalid. -/
theorem C77_not_utf8 {bytes : List (BitVec 8)} (h : ∀ text, bytes ≠ utf8 text) (o : Option (Gps G)) :
    readOxt env (readToString (.ok bytes)) o = .error .invalidData := by
  have h1 : fromUtf8 bytes = none := by
    cases h2 : fromUtf8 bytes with
    | none => rfl
    | some t => exact absurd ((C77_utf8 bytes t).mp h2) (h t)
  unfold readToString
  simp only [h1, readOxt]

/-- C77: a UTF-8 file is read as its text. -/
theorem C77_text (text : List Char) (o : Option (Gps G)) :
    readOxt env (readToString (.ok (utf8 text))) o = readOxt env (.ok text) o := by
  unfold readToString
  simp only [(C77_utf8 _ text).mpr rfl]

end Read

lemma space_mem_utf8Char {c : Char} (h : (0x20 : BitVec 8) ∈ utf8Char c) : c = ' ' := by
  have hc := char_cases c
  have key : c.toNat = 32 → c = ' ' := fun h => by
    rw [← Char.ofNat_toNat c, h]
  apply key
  have h20 : (0x20 : BitVec 8).toNat = 32 := rfl
  unfold utf8Char at h
  simp only at h
  split_ifs at h with h1 h2 h3 <;>
    simp only [List.mem_cons, List.not_mem_nil, or_false, ← BitVec.toNat_inj, BitVec.toNat_ofNat, h20] at h <;>
    omega

lemma utf8_append (a b : List Char) : utf8 (a ++ b) = utf8 a ++ utf8 b := by
  unfold utf8; exact List.flatMap_append

lemma utf8_intercalate : ∀ fs : List (List Char),
    utf8 ([' '].intercalate fs) = [0x20].intercalate (fs.map utf8)
  | [] => rfl
  | [a] => by simp [List.intercalate]
  | a :: b :: r => by
    have ih := utf8_intercalate (b :: r)
    have h1 : ∀ {α : Type} (x : α) (a b : List α) (r : List (List α)),
        [x].intercalate (a :: b :: r) = a ++ x :: [x].intercalate (b :: r) := by
      intro α x a b r; simp [List.intercalate, List.intersperse]
    rw [h1, utf8_append, List.map_cons, List.map_cons, h1, ← List.map_cons, ← ih]
    rfl

/-- C77: the fields of the text are the fields of the bytes between bytes 0x20. -/
theorem C77_fields {text : List Char} {fs : List (List Char)} (h : Fields text fs) :
    ByteFields (utf8 text) (fs.map utf8) := by
  obtain ⟨h1, h2, rfl⟩ := h
  refine ⟨by simpa using h1, fun f hf hmem => ?_, (utf8_intercalate fs).symm⟩
  obtain ⟨g, hg, rfl⟩ := List.mem_map.mp hf
  obtain ⟨c, hc, hm⟩ := List.mem_flatMap.mp hmem
  exact h2 g hg (space_mem_utf8Char hm ▸ hc)

/-- C77: at the level of bytes, a record is read exactly if the whole file is UTF-8 and each of the first six pieces
between bytes 0x20 is a decimal number or a special word. -/
theorem C77_read_iff {R : Type} {cos : F64 → F64} {radPerDeg : F64} {cast : F64 → F32} {euler : F32 → F32 → F32 → R}
    (bytes : List (BitVec 8)) (o : Option (Gps F64)) :
    (∃ r, readOxt (parsingEnv cos radPerDeg cast euler) (readToString (.ok bytes)) o = .ok r) ↔
      (∃ text, bytes = utf8 text) ∧
      ∃ fs, ByteFields bytes fs ∧ 6 ≤ fs.length ∧
        ∀ s ∈ fs.take 6, ∃ t, s = utf8 t ∧ ((∃ q, decimal t = some q) ∨ Special t) := by
  have inj : ∀ {a b : List Char}, utf8 a = utf8 b → a = b := fun {a b} h => by
    have h1 := (C77_utf8 _ b).mpr h
    rw [(C77_utf8 _ a).mpr rfl] at h1
    exact Option.some.inj h1
  have uniq : ∀ {a b : List (List (BitVec 8))}, ByteFields bytes a → ByteFields bytes b → a = b :=
    fun {a b} ha hb => by
      have h1 := List.splitOn_intercalate (0x20 : BitVec 8) (fun l hl => ha.2.1 l hl) ha.1
      rw [ha.2.2, ← hb.2.2, List.splitOn_intercalate (0x20 : BitVec 8) (fun l hl => hb.2.1 l hl) hb.1] at h1
      exact h1.symm
  constructor
  · rintro ⟨r, hr⟩
    by_cases hu : ∃ text, bytes = utf8 text
    · refine ⟨hu, ?_⟩
      obtain ⟨text, rfl⟩ := hu
      rw [C77_text] at hr
      obtain ⟨fs, h1, h2, h3⟩ := (C76_read_iff text o).mp ⟨r, hr⟩
      refine ⟨_, C77_fields h1, by simpa using h2, fun s hs => ?_⟩
      rw [← List.map_take] at hs
      obtain ⟨t, ht, rfl⟩ := List.mem_map.mp hs
      exact ⟨t, rfl, h3 t ht⟩
    · rw [C77_not_utf8 fun t h => hu ⟨t, h⟩] at hr
      cases hr
  · rintro ⟨⟨text, rfl⟩, fs, h1, h2, h3⟩
    rw [C77_text, C76_read_iff]
    obtain ⟨gs, h4, -⟩ := C50_fields text
    obtain rfl := uniq h1 (C77_fields h4)
    refine ⟨gs, h4, by simpa using h2, fun s hs => ?_⟩
    obtain ⟨t, ht, h5⟩ := h3 (utf8 s) (by rw [← List.map_take]; exact List.mem_map_of_mem hs)
    rw [inj ht]
    exact h5

/-- Characters of one, two, three and four bytes; an overlong slash, a surrogate and a stray byte are no UTF-8. -/
example : fromUtf8 (utf8 "aé€😀".toList) = some "aé€😀".toList ∧ (utf8 "aé€😀".toList).length = 10 ∧
    fromUtf8 [0xC0, 0xAF] = none ∧ fromUtf8 [0xED, 0xA0, 0x80] = none ∧ fromUtf8 [0x31, 0xFF] = none ∧
    fromUtf8 [0xF4, 0x90, 0x80, 0x80] = none := by
  decide +kernel

/-- Six good fields and a seventh that is not UTF-8. -/
example : ∀ text, utf8 "1 2 3 4 5 6 ".toList ++ [0xFF] ≠ utf8 text := fun text h => by
  have h1 := (C77_utf8 _ text).mpr h
  have h2 : fromUtf8 (utf8 "1 2 3 4 5 6 ".toList ++ [0xFF]) = none := by decide +kernel
  rw [h2] at h1
  cases h1

example : Fields "1 é".toList ["1".toList, "é".toList] := fields_iff.mpr (by decide)
example : ∀ b ∈ utf8 "49.0 8.4".toList, b.toNat < 128 := by decide +kernel

end Verif.Props
