import Verif.Model.Parse
import Verif.Props.Gps
import Verif.Lemmas.NonFinite
import Mathlib.Data.List.TakeWhile
import Mathlib.Tactic.IntervalCases

/-!
# C76: the numbers in an OXTS text
-/

namespace Verif.Props
open Spec Kitti

lemma scanDigits_eq (acc n : ℕ) (s : List Char) :
    scanDigits acc n s = ((s.takeWhile Char.isDigit).foldl (fun n c => 10 * n + (c.toNat - '0'.toNat)) acc,
      n + (s.takeWhile Char.isDigit).length, s.dropWhile Char.isDigit) := by
  induction s generalizing acc n with
  | nil => rfl
  | cons c r ih =>
    unfold scanDigits
    by_cases h : c.isDigit = true
    · rw [if_pos h, ih, List.takeWhile_cons_of_pos h, List.dropWhile_cons_of_pos h]
      simp only [List.foldl_cons, List.length_cons, Prod.mk.injEq, and_true, true_and]
      omega
    · rw [if_neg h, List.takeWhile_cons_of_neg h, List.dropWhile_cons_of_neg h]
      rfl

lemma scanSign_eq (s : List Char) : signed s = (if (scanSign s).1 then -1 else 1, (scanSign s).2) := by
  unfold signed scanSign
  split <;> simp_all

/-- No digit is a letter. -/
lemma isDigit_notE {c : Char} (h : c.isDigit = true) : c ≠ 'e' ∧ c ≠ 'E' ∧ c ≠ '.' := by
  refine ⟨?_, ?_, ?_⟩ <;> (rintro rfl; revert h; decide)

/-- What ends the mantissa. -/
def notE (c : Char) : Bool := c != 'e' && c != 'E'

lemma notE_digit {c : Char} (h : c.isDigit = true) : notE c = true := by
  obtain ⟨h1, h2, -⟩ := isDigit_notE h
  simp [notE, h1, h2]

lemma notE_false {c : Char} : notE c = false ↔ c = 'e' ∨ c = 'E' := by
  simp [notE, imp_iff_not_or]

lemma scanExponent_eq (s : List Char) : scanExponent s = exponent s := by
  unfold exponent scanExponent
  rw [scanSign_eq]
  obtain ⟨neg, r⟩ := scanSign s
  simp only [scanDigits_eq]
  have h1 : (0 + (r.takeWhile Char.isDigit).length = 0 ∨ r.dropWhile Char.isDigit ≠ []) ↔
      ¬ (r.all Char.isDigit = true ∧ r ≠ []) := by
    rw [ne_eq, List.dropWhile_eq_nil_iff, List.all_eq_true, not_and', imp_iff_not_or, not_not, zero_add,
      List.length_eq_zero_iff]
    constructor
    · rintro (h | h)
      · by_cases hr : r = []
        · exact .inl hr
        · right
          intro hall
          rw [List.takeWhile_eq_self_iff.mpr hall] at h
          exact hr h
      · exact .inr h
    · rintro (rfl | h)
      · exact .inl rfl
      · exact .inr h
  by_cases hr : r.all Char.isDigit = true ∧ r ≠ []
  · have h2 : r.takeWhile Char.isDigit = r := List.takeWhile_eq_self_iff.mpr (List.all_eq_true.mp hr.1)
    rw [if_pos hr, if_neg (mt h1.mp (not_not.mpr hr)), h2]
    cases neg
    · simp [digitsNat]
      norm_num
    · simp [digitsNat]
  · rw [if_neg hr, if_pos (h1.mpr hr)]

lemma scanTail_zero {m k l : ℕ} {r : List Char} (h : k + l = 0) : scanTail m k l r = none := by
  unfold scanTail; rw [if_pos h]

lemma scanTail_nil {m k l : ℕ} (h : k + l ≠ 0) : scanTail m k l [] = some ((m : ℚ) / 10 ^ l) := by
  unfold scanTail; rw [if_neg h]; simp [div_eq_mul_inv]

lemma scanTail_e {m k l : ℕ} {c : Char} {ex : List Char} (h : k + l ≠ 0) (hc : c = 'e' ∨ c = 'E') :
    scanTail m k l (c :: ex) = (exponent ex).map fun x => (m : ℚ) / 10 ^ l * 10 ^ x := by
  unfold scanTail
  rw [if_neg h]
  dsimp only
  rw [if_pos hc, scanExponent_eq]
  congr 1
  funext x
  rw [zpow_sub₀ (by norm_num), zpow_natCast]
  ring

lemma scanTail_bad {m k l : ℕ} {c : Char} {r : List Char} (hc : ¬ (c = 'e' ∨ c = 'E')) :
    scanTail m k l (c :: r) = none := by
  unfold scanTail
  dsimp only
  rw [if_neg hc, ite_self]

/-- The scanner computes the number of the grammar. -/
lemma scanNumber_eq (s : List Char) : scanNumber s =
    (unsignedDecimal (s.takeWhile notE)).bind fun mant =>
      match s.dropWhile notE with
      | [] => some mant
      | _ :: ex => (exponent ex).map fun x => mant * 10 ^ x := by
  have hdig : ∀ {w : List Char}, (∀ c ∈ w, c.isDigit = true) → ∀ t : List Char,
      (w ++ t).takeWhile notE = w ++ t.takeWhile notE ∧ (w ++ t).dropWhile notE = t.dropWhile notE := by
    intro w hw t
    induction w with
    | nil => simp
    | cons c w ih =>
      have h1 := notE_digit (hw c List.mem_cons_self)
      obtain ⟨h2, h3⟩ := ih fun c hc => hw c (List.mem_cons_of_mem _ hc)
      rw [List.cons_append, List.takeWhile_cons_of_pos h1, List.dropWhile_cons_of_pos h1, h2, h3]
      exact ⟨rfl, rfl⟩
  have hdd : ∀ {w : List Char}, (∀ c ∈ w, c.isDigit = true) → ∀ t : List Char,
      (∀ c, t.head? = some c → c.isDigit = false) →
      (w ++ t).takeWhile Char.isDigit = w ∧ (w ++ t).dropWhile Char.isDigit = t := by
    intro w hw t ht
    induction w with
    | nil =>
      cases t with
      | nil => simp
      | cons c t =>
        have := ht c rfl
        rw [List.nil_append, List.takeWhile_cons_of_neg (by simp [this]), List.dropWhile_cons_of_neg (by simp [this])]
        exact ⟨rfl, rfl⟩
    | cons c w ih =>
      have h1 := hw c List.mem_cons_self
      obtain ⟨h2, h3⟩ := ih fun c hc => hw c (List.mem_cons_of_mem _ hc)
      rw [List.cons_append, List.takeWhile_cons_of_pos h1, List.dropWhile_cons_of_pos h1, h2, h3]
      exact ⟨rfl, rfl⟩
  have hsplit : ∀ s : List Char, ∃ w t, s = w ++ t ∧ (∀ c ∈ w, c.isDigit = true) ∧
      ∀ c, t.head? = some c → c.isDigit = false := by
    intro s
    refine ⟨s.takeWhile Char.isDigit, s.dropWhile Char.isDigit, List.takeWhile_append_dropWhile.symm,
      fun c hc => List.mem_takeWhile_imp hc, fun c hc => ?_⟩
    have := List.head?_dropWhile_not Char.isDigit s
    rw [hc] at this
    simpa using this
  have hhead : ∀ {t : List Char}, (∀ c, t.head? = some c → c.isDigit = false) →
      ∀ c, (t.takeWhile notE).head? = some c → c.isDigit = false := by
    intro t ht c hc
    cases t with
    | nil => simp at hc
    | cons a t =>
      by_cases ha : notE a = true
      · rw [List.takeWhile_cons_of_pos ha] at hc
        exact ht c hc
      · rw [List.takeWhile_cons_of_neg ha] at hc
        simp at hc
  obtain ⟨w, t, rfl, hw, ht⟩ := hsplit s
  obtain ⟨e1, e2⟩ := hdig hw t
  obtain ⟨d1, d2⟩ := hdd hw t ht
  obtain ⟨u1, u2⟩ := hdd hw (t.takeWhile notE) (hhead ht)
  rw [e1, e2]
  have hU : unsignedDecimal (w ++ t.takeWhile notE) = match t.takeWhile notE with
      | [] => if w = [] then none else some (digitsNat w : ℚ)
      | '.' :: frac =>
        if frac.all Char.isDigit ∧ w ++ frac ≠ [] then some (digitsNat (w ++ frac) / 10 ^ frac.length : ℚ)
        else none
      | _ => none := by
    unfold unsignedDecimal
    rw [u1, u2]
    rfl
  rw [hU]
  unfold scanNumber
  simp only [scanDigits_eq 0 0, d1, d2, zero_add]
  rw [show w.foldl (fun n c => 10 * n + (c.toNat - '0'.toNat)) 0 = digitsNat w from rfl]
  cases t with
  | nil =>
    by_cases h : w = []
    · subst h; rfl
    · simp only [scanFraction]
      rw [scanTail_nil (by simpa using h)]
      simp [h]
  | cons c r =>
    have hc := ht c rfl
    by_cases hdot : c = '.'
    · subst hdot
      obtain ⟨w2, t2, rfl, hw2, ht2⟩ := hsplit r
      obtain ⟨e3, e4⟩ := hdig hw2 t2
      obtain ⟨d3, d4⟩ := hdd hw2 t2 ht2
      have hn : notE '.' = true := by decide
      rw [List.takeWhile_cons_of_pos hn, List.dropWhile_cons_of_pos hn, e3, e4]
      simp only [scanFraction, scanDigits_eq, d3, d4, zero_add]
      have hfold : w2.foldl (fun n c => 10 * n + (c.toNat - '0'.toNat)) (digitsNat w) = digitsNat (w ++ w2) := by
        unfold digitsNat; rw [List.foldl_append]
      rw [hfold]
      have hlen : w.length + w2.length = 0 ↔ w ++ w2 = [] := by
        rw [List.append_eq_nil_iff, ← List.length_eq_zero_iff, ← List.length_eq_zero_iff]; omega
      by_cases h : w ++ w2 = []
      · rw [scanTail_zero (hlen.mpr h), if_neg]
        · rfl
        · obtain ⟨rfl, rfl⟩ := List.append_eq_nil_iff.mp h
          rintro ⟨h1, h2⟩
          cases t2 with
          | nil => simp at h2
          | cons a t2 =>
            by_cases ha : notE a = true
            · rw [List.takeWhile_cons_of_pos ha] at h1
              have := List.all_eq_true.mp h1 a (by simp)
              rw [ht2 a rfl] at this
              cases this
            · rw [List.takeWhile_cons_of_neg ha] at h2
              simp at h2
      · cases t2 with
        | nil =>
          rw [scanTail_nil (mt hlen.mp h)]
          simp only [List.takeWhile_nil, List.append_nil, List.dropWhile_nil]
          rw [if_pos ⟨List.all_eq_true.mpr hw2, h⟩]
          rfl
        | cons c2 ex =>
          by_cases he : c2 = 'e' ∨ c2 = 'E'
          · have hnf := notE_false.mpr he
            rw [scanTail_e (mt hlen.mp h) he, List.takeWhile_cons_of_neg (by simp [hnf]),
              List.dropWhile_cons_of_neg (by simp [hnf]), List.append_nil, if_pos ⟨List.all_eq_true.mpr hw2, h⟩]
            rfl
          · have hnt : notE c2 = true := by
              cases hq : notE c2 with
              | true => rfl
              | false => exact absurd (notE_false.mp hq) he
            have hc2 := ht2 c2 rfl
            rw [scanTail_bad he, List.takeWhile_cons_of_pos hnt, if_neg]
            · rfl
            · rintro ⟨hall, -⟩
              have := List.all_eq_true.mp hall c2 (by simp)
              rw [hc2] at this
              cases this
    · have hsf : ∀ m, scanFraction m (c :: r) = (m, 0, c :: r) := by
        intro m
        unfold scanFraction
        split
        · rename_i h; exact absurd (List.cons.inj h).1 hdot
        · rfl
      simp only [hsf]
      by_cases he : c = 'e' ∨ c = 'E'
      · have hnf := notE_false.mpr he
        rw [List.takeWhile_cons_of_neg (by simp [hnf]), List.dropWhile_cons_of_neg (by simp [hnf])]
        by_cases h : w = []
        · subst h; rfl
        · rw [scanTail_e (by simpa using h) he]
          simp [h]
      · have hnt : notE c = true := by
          cases hq : notE c with
          | true => rfl
          | false => exact absurd (notE_false.mp hq) he
        rw [List.takeWhile_cons_of_pos hnt, scanTail_bad he]
        split
        · rename_i h; cases h
        · rename_i h; exact absurd (List.cons.inj h).1 hdot
        · rfl

lemma decimal_eq (s : List Char) :
    decimal s = (scanNumber (scanSign s).2).map fun q => if (scanSign s).1 then -q else q := by
  unfold decimal
  rw [scanSign_eq, scanNumber_eq]
  obtain ⟨neg, r⟩ := scanSign s
  dsimp only
  change (unsignedDecimal (r.takeWhile notE)).bind _ = _
  cases unsignedDecimal (r.takeWhile notE) with
  | none => rfl
  | some mant =>
    simp only [Option.bind_some]
    change (match r.dropWhile notE with | [] => _ | _ :: ex => _) = _
    cases r.dropWhile notE with
    | nil => cases neg <;> simp
    | cons c ex =>
      dsimp only
      cases exponent ex with
      | none => rfl
      | some x => cases neg <;> simp

/-- C76: a decimal text is read as its value, correctly rounded; where that is zero, the sign in front makes the sign
of the zero. -/
theorem C76_decimal {f : Fmt} {s : List Char} {q : ℚ} (h : decimal s = some q) :
    parseFloat s = some (Fp.ofRat (f := f) (decide (s.head? = some '-')) q) := by
  rw [decimal_eq, Option.map_eq_some_iff] at h
  obtain ⟨r, h1, rfl⟩ := h
  unfold parseFloat
  have h2 : (scanSign s).1 = decide (s.head? = some '-') := by
    unfold scanSign
    split
    · rfl
    · rfl
    · rename_i h3 h4
      cases s with
      | nil => rfl
      | cons c r =>
        by_cases hc : c = '-'
        · exact absurd (by rw [hc]) (h3 r)
        · simp [hc]
  rw [← h2]
  simp only [h1]

/-- C76: so the parser has the property asked for in C73. -/
theorem C76_reads_decimals {f : Fmt} : ReadsDecimals (parseFloat (f := f)) :=
  fun _ _ h => ⟨_, C76_decimal h⟩

lemma toLower_digit {c : Char} (h : c.isDigit = true) : c.toLower = c := by
  unfold Char.toLower
  rw [dif_neg]
  simp only [Char.isDigit, Bool.and_eq_true, decide_eq_true_eq, ge_iff_le, UInt32.le_iff_toNat_le] at h
  simp only [ge_iff_le, UInt32.le_iff_toNat_le]
  have : '9'.val.toNat = 57 := rfl
  have : 'A'.val.toNat = 65 := rfl
  omega

lemma word_head {c a : Char} (h : c.toLower = a) (ha : a = 'i' ∨ a = 'n') :
    c.isDigit = false ∧ c ≠ '.' ∧ c ≠ '+' ∧ c ≠ '-' := by
  refine ⟨?_, ?_, ?_, ?_⟩
  · by_contra hd
    rw [Bool.not_eq_false] at hd
    rw [toLower_digit hd] at h
    subst h
    rcases ha with rfl | rfl <;> revert hd <;> decide
  all_goals
    rintro rfl
    rcases ha with rfl | rfl <;> revert h <;> decide

lemma scanNumber_word {c : Char} {r : List Char} (h : c.isDigit = false ∧ c ≠ '.' ∧ c ≠ '+' ∧ c ≠ '-') :
    scanNumber (c :: r) = none := by
  unfold scanNumber
  have h1 : scanDigits 0 0 (c :: r) = (0, 0, c :: r) := by
    unfold scanDigits; rw [if_neg (by simp [h.1])]
  have h2 : scanFraction 0 (c :: r) = (0, 0, c :: r) := by
    unfold scanFraction
    split
    · rename_i h3; exact absurd (List.cons.inj h3).1 h.2.1
    · rfl
  simp only [h1, h2]
  exact scanTail_zero rfl

/-- C76: the words for infinity and NaN. -/
theorem C76_words {f : Fmt} {s w : List Char} {neg : Bool} (hs : s = w ∧ neg = false ∨ s = '+' :: w ∧ neg = false ∨
      s = '-' :: w ∧ neg = true) :
    (w.map Char.toLower = "inf".toList ∨ w.map Char.toLower = "infinity".toList →
      parseFloat s = some (Fp.inf (f := f) neg)) ∧
    (w.map Char.toLower = "nan".toList → parseFloat s = some (Fp.nan (f := f))) := by
  have key : ∀ a l, (a = 'i' ∨ a = 'n') → w.map Char.toLower = a :: l →
      parseFloat (f := f) s = if w.map Char.toLower = ['i', 'n', 'f'] ∨
        w.map Char.toLower = ['i', 'n', 'f', 'i', 'n', 'i', 't', 'y'] then some (.inf neg)
        else if w.map Char.toLower = ['n', 'a', 'n'] then some .nan else none := by
    intro a l ha hw
    cases w with
    | nil => cases hw
    | cons c r =>
      have hc := word_head (List.cons.inj hw).1 ha
      have hsign : scanSign s = (neg, c :: r) := by
        rcases hs with ⟨rfl, rfl⟩ | ⟨rfl, rfl⟩ | ⟨rfl, rfl⟩
        · unfold scanSign
          split
          · rename_i h3; exact absurd (List.cons.inj h3).1 hc.2.2.2
          · rename_i h3; exact absurd (List.cons.inj h3).1 hc.2.2.1
          · rfl
        · rfl
        · rfl
      unfold parseFloat
      rw [hsign]
      simp only [scanNumber_word hc]
  constructor
  · rintro (h | h)
    · rw [key 'i' _ (.inl rfl) h, if_pos (.inl h)]
    · rw [key 'i' _ (.inl rfl) h, if_pos (.inr h)]
  · intro h
    rw [key 'n' _ (.inr rfl) h, if_neg]
    · exact if_pos h
    rw [h]
    decide

/-- C76: nothing else is accepted. -/
theorem C76_rejects {f : Fmt} (s : List Char) :
    parseFloat (f := f) s = none ↔ decimal s = none ∧ ¬ Special s := by
  rw [decimal_eq, Option.map_eq_none_iff]
  unfold parseFloat Special
  rw [scanSign_eq]
  obtain ⟨neg, r⟩ := scanSign s
  dsimp only
  cases scanNumber r with
  | some q => simp
  | none =>
    simp only [true_and, List.mem_cons, List.not_mem_nil, or_false]
    change _ ↔ ¬ (r.map Char.toLower = ['i', 'n', 'f'] ∨ r.map Char.toLower = ['i', 'n', 'f', 'i', 'n', 'i', 't', 'y'] ∨
      r.map Char.toLower = ['n', 'a', 'n'])
    split_ifs with h1 h2
    · simp; tauto
    · simp; tauto
    · simp; tauto

/-- The characters of a decimal text. -/
lemma decimal_chars {s : List Char} {q : ℚ} (h : decimal s = some q) : ∀ c ∈ s, c ∈ floatChars := by
  have hd : ∀ {c : Char}, c.isDigit = true → c ∈ floatChars := by
    intro c hc
    simp only [Char.isDigit, Bool.and_eq_true, decide_eq_true_eq, ge_iff_le, UInt32.le_iff_toNat_le] at hc
    have h1 : c = Char.ofNat c.toNat := (Char.ofNat_toNat c).symm
    have h2 : c.toNat = c.val.toNat := rfl
    have h48 : '0'.val.toNat = 48 := rfl
    have h57 : '9'.val.toNat = 57 := rfl
    rw [h1]
    have h3 : 48 ≤ c.toNat ∧ c.toNat ≤ 57 := by omega
    generalize c.toNat = n at h3
    obtain ⟨h3, h4⟩ := h3
    interval_cases n <;> decide
  have hall : ∀ {l : List Char}, l.all Char.isDigit = true → ∀ c ∈ l, c ∈ floatChars :=
    fun hl c hc => hd (List.all_eq_true.mp hl c hc)
  have hsg : ∀ {t : List Char}, (∀ c ∈ (signed t).2, c ∈ floatChars) → ∀ c ∈ t, c ∈ floatChars := by
    intro t ht
    unfold signed at ht
    split at ht
    · intro c hc
      rcases List.mem_cons.mp hc with rfl | hc
      · decide
      · exact ht c hc
    · intro c hc
      rcases List.mem_cons.mp hc with rfl | hc
      · decide
      · exact ht c hc
    · exact ht
  have hud : ∀ {t : List Char} {q : ℚ}, unsignedDecimal t = some q → ∀ c ∈ t, c ∈ floatChars := by
    intro t q ht
    unfold unsignedDecimal at ht
    have hsp : t = t.takeWhile Char.isDigit ++ t.dropWhile Char.isDigit := List.takeWhile_append_dropWhile.symm
    have hw : ∀ c ∈ t.takeWhile Char.isDigit, c ∈ floatChars := fun c hc => hd (List.mem_takeWhile_imp hc)
    rw [hsp]
    intro c hc
    rcases List.mem_append.mp hc with hc | hc
    · exact hw c hc
    · dsimp only at ht
      split at ht
      · rename_i h1; rw [h1] at hc; cases hc
      · rename_i frac h1
        rw [h1] at hc
        split_ifs at ht with h2
        rcases List.mem_cons.mp hc with rfl | hc
        · decide
        · exact hall h2.1 c hc
      · cases ht
  refine hsg ?_
  unfold decimal at h
  generalize signed s = p at h
  obtain ⟨sg, r⟩ := p
  dsimp only at h ⊢
  cases hm : unsignedDecimal (r.takeWhile fun c => c != 'e' && c != 'E') with
  | none => rw [hm] at h; cases h
  | some mant =>
    rw [hm] at h
    have h' : (match r.dropWhile fun c => c != 'e' && c != 'E' with
      | [] => some (sg * mant)
      | _ :: ex => (exponent ex).bind fun x => some (sg * mant * 10 ^ x)) = some q := h
    have hsp : r = (r.takeWhile fun c => c != 'e' && c != 'E') ++ r.dropWhile fun c => c != 'e' && c != 'E' :=
      List.takeWhile_append_dropWhile.symm
    intro c hc
    rw [hsp] at hc
    rcases List.mem_append.mp hc with hc | hc
    · exact hud hm c hc
    · have hne := List.head?_dropWhile_not (fun c => c != 'e' && c != 'E') r
      cases hdw : r.dropWhile fun c => c != 'e' && c != 'E' with
      | nil => rw [hdw] at hc; cases hc
      | cons a ex =>
        rw [hdw] at h' hc hne
        have ha : a = 'e' ∨ a = 'E' := notE_false.mp (by simpa [notE] using hne)
        rcases List.mem_cons.mp hc with rfl | hc
        · rcases ha with rfl | rfl <;> decide
        · cases hx : exponent ex with
          | none => dsimp only at h'; rw [hx] at h'; cases h'
          | some x =>
            refine hsg (t := ex) ?_ c hc
            unfold exponent at hx
            generalize signed ex = p at hx
            obtain ⟨sg', r'⟩ := p
            dsimp only at hx ⊢
            split_ifs at hx with h2 h3
            · exact hall h2.1
            · exact hall h2.1

/-- The characters of a text that is read. -/
lemma parseFloat_chars {f : Fmt} {s : List Char} {v : Fp f} (h : parseFloat s = some v) : ∀ c ∈ s, c ∈ floatChars := by
  by_cases hd : ∃ q, decimal s = some q
  · obtain ⟨q, hq⟩ := hd
    exact decimal_chars hq
  · have hnone : decimal s = none := by
      cases hq : decimal s with
      | none => rfl
      | some q => exact absurd ⟨q, hq⟩ hd
    have hs : Special s := by
      by_contra hs
      have := (C76_rejects (f := f) s).mpr ⟨hnone, hs⟩
      rw [h] at this
      cases this
    have hlow : ∀ {c d : Char}, c.toLower = d → d ∈ "inftya".toList → c ∈ floatChars := by
      intro c d h1 h2
      unfold Char.toLower at h1
      split_ifs at h1 with h3
      · have h4 : c.toNat + 32 = d.toNat := by
          rw [← h1]
          simp only [ge_iff_le, UInt32.le_iff_toNat_le] at h3
          have h5 : 'A'.val.toNat = 65 := rfl
          have h6 : 'Z'.val.toNat = 90 := rfl
          change c.val.toNat + 32 = (c.val + ('a'.val - 'A'.val)).toNat
          rw [UInt32.toNat_add, show ('a'.val - 'A'.val).toNat = 32 from rfl]
          omega
        rw [← Char.ofNat_toNat c, show c.toNat = d.toNat - 32 by omega]
        have h7 : ∀ d ∈ "inftya".toList, Char.ofNat (d.toNat - 32) ∈ floatChars := by decide
        exact h7 d h2
      · subst h1
        have h7 : ∀ d ∈ "inftya".toList, d ∈ floatChars := by decide
        exact h7 c h2
    have hmem : ∀ c ∈ (signed s).2, c ∈ floatChars := by
      intro c hc
      have h1 : c.toLower ∈ (signed s).2.map Char.toLower := List.mem_map_of_mem hc
      refine hlow rfl ?_
      unfold Special at hs
      simp only [List.mem_cons, List.not_mem_nil, or_false] at hs
      rcases hs with hs | hs | hs <;> rw [hs] at h1 <;> revert h1 <;> generalize c.toLower = d <;> revert d <;> decide
    intro c hc
    unfold signed at hmem
    split at hmem
    · rcases List.mem_cons.mp hc with rfl | hc
      · decide
      · exact hmem c hc
    · rcases List.mem_cons.mp hc with rfl | hc
      · decide
      · exact hmem c hc
    · exact hmem c hc

section Reader
variable {R : Type} {cos : F64 → F64} {radPerDeg : F64} {cast : F64 → F32} {euler : F32 → F32 → F32 → R}

/-- C76: with this parser a record is read exactly if its first six fields are decimal numbers or special words. -/
theorem C76_read_iff (text : List Char) (o : Option (Gps F64)) :
    (∃ r, readOxt (parsingEnv cos radPerDeg cast euler) (.ok text) o = .ok r) ↔
      ∃ fs, Fields text fs ∧ 6 ≤ fs.length ∧ ∀ s ∈ fs.take 6, (∃ q, decimal s = some q) ∨ Special s := by
  have hiff : ∀ {f : Fmt} (s : List Char), (∃ v, parseFloat (f := f) s = some v) ↔
      (∃ q, decimal s = some q) ∨ Special s := by
    intro f s
    have h1 := not_congr (C76_rejects (f := f) s)
    rw [not_and_or, not_not] at h1
    simpa only [← ne_eq, Option.ne_none_iff_exists'] using h1
  rw [C50_success_iff]
  constructor
  · rintro ⟨fix, rot, a, b, c, d, e, g, rest, roll, pitch, yaw, hf, h1, h2, h3, h4, h5, h6, -⟩
    refine ⟨_, hf, by simp, fun s hs => ?_⟩
    simp only [List.take_succ_cons, List.take_zero, List.mem_cons, List.not_mem_nil, or_false] at hs
    rcases hs with rfl | rfl | rfl | rfl | rfl | rfl
    · exact (hiff s).mp ⟨_, h1⟩
    · exact (hiff s).mp ⟨_, h2⟩
    · exact (hiff s).mp ⟨_, h3⟩
    · exact (hiff s).mp ⟨_, h4⟩
    · exact (hiff s).mp ⟨_, h5⟩
    · exact (hiff s).mp ⟨_, h6⟩
  · rintro ⟨fs, hf, hlen, h⟩
    match fs, hlen with
    | a :: b :: c :: d :: e :: g :: rest, _ =>
      simp only [List.take_succ_cons, List.take_zero, List.mem_cons, List.not_mem_nil, or_false, forall_eq_or_imp,
        forall_eq] at h
      obtain ⟨h1, h2, h3, h4, h5, h6⟩ := h
      obtain ⟨lat, h1⟩ := (hiff (f := b64) a).mpr h1
      obtain ⟨lon, h2⟩ := (hiff (f := b64) b).mpr h2
      obtain ⟨alt, h3⟩ := (hiff (f := b64) c).mpr h3
      obtain ⟨roll, h4⟩ := (hiff (f := b32) d).mpr h4
      obtain ⟨pitch, h5⟩ := (hiff (f := b32) e).mpr h5
      obtain ⟨yaw, h6⟩ := (hiff (f := b32) g).mpr h6
      exact ⟨⟨lat, lon, alt⟩, _, a, b, c, d, e, g, rest, roll, pitch, yaw, hf, h1, h2, h3, h4, h5, h6, rfl⟩

/-- C76: a stray character in one of the first six fields, such as a tab or a line end, makes the record invalid; so
a record of exactly six fields must not end in a line end. -/
theorem C76_stray {text s : List Char} {fs : List (List Char)} {c : Char} (hf : Fields text fs) (hs : s ∈ fs.take 6)
    (hc : c ∈ s) (hno : c ∉ floatChars) (o : Option (Gps F64)) :
    readOxt (parsingEnv cos radPerDeg cast euler) (.ok text) o = .error .invalidData := by
  apply C50_invalid
  rintro ⟨fix, rot, a, b, c', d, e, g, rest, roll, pitch, yaw, hf', h1, h2, h3, h4, h5, h6, -⟩
  obtain rfl := (C50_fields text).unique hf hf'
  simp only [List.take_succ_cons, List.take_zero, List.mem_cons, List.not_mem_nil, or_false] at hs
  apply hno
  rcases hs with rfl | rfl | rfl | rfl | rfl | rfl
  · exact parseFloat_chars h1 c hc
  · exact parseFloat_chars h2 c hc
  · exact parseFloat_chars h3 c hc
  · exact parseFloat_chars h4 c hc
  · exact parseFloat_chars h5 c hc
  · exact parseFloat_chars h6 c hc

/-- C76: with an accurate cosine and the IEEE conversion, the reader with this parser is as C73 asks. -/
theorem C76_accurate
    (hcos : ∀ (x : F64) (q : ℚ), x.Is q → |q| ≤ 4 → ∃ c : ℚ, (cos x).Is c ∧ |(c : ℝ) - Real.cos q| ≤ 1 / 2 ^ 50)
    (hrad : ∃ c : ℚ, radPerDeg.Is c ∧ |(c : ℝ) - Real.pi / 180| ≤ 1 / 2 ^ 57)
    (hcast : ∀ (x : F64) (q : ℚ), x.Is q → ∃ zs, cast x = Fp.ofRat zs q) :
    AccurateEnv (parsingEnv cos radPerDeg cast euler) :=
  ⟨C76_reads_decimals, C76_reads_decimals, hcos, hrad, hcast⟩

/-- C76: `nan` is accepted. If the latitude of the first file is written so, all files are still read, and the second
coordinate of every position but the first is NaN. -/
theorem C76_nan_spreads {P : Type} [LinearOrder P] {s paths : List P} {contents : P → Io (List Char)}
    {fixes : List (Gps F64 × R)} {p : P} {text lat : List Char} {rest : List (List Char)} (hs : SortedListing s paths)
    (h : Recorded (parsingEnv cos radPerDeg cast euler) contents s fixes) (hp : s.head? = some p)
    (ht : contents p = .ok text) (hf : Fields text (lat :: rest)) (hlat : lat.map Char.toLower = "nan".toList)
    (hcast : cast .nan = .nan) :
    ∃ poses, readOxtDir (parsingEnv cos radPerDeg cast euler) (.ok (paths.map .ok)) contents = .ok poses ∧
      poses.length = paths.length ∧
      ∀ (k : ℕ) pose, 0 < k → poses[k]? = some pose → pose.translation 1 = .nan := by
  obtain ⟨poses, e1, e2, -, -, e5⟩ := C51_poses hs h
  refine ⟨poses, e1, e2, fun k pose hk hpose => ?_⟩
  have hlen := h.length_eq
  have hl2 := hs.1.length_eq
  cases h with
  | nil => cases hp
  | @cons p' f s fixes h3 h4 =>
    cases hp
    obtain ⟨text', h5, a, b, c, d, e, g, rest', roll, pitch, yaw, hf', h6, -⟩ := h3
    rw [ht] at h5
    cases h5
    obtain ⟨rfl, -⟩ := List.cons.inj ((C50_fields text).unique hf hf')
    have h7 : f.1.lat = .nan := by
      have : parseFloat (f := b64) lat = some .nan := (C76_words (s := lat) (w := lat) (neg := false)
        (.inl ⟨rfl, rfl⟩)).2 hlat
      rw [show parseFloat (f := b64) lat = some f.1.lat from h6] at this
      exact Option.some.inj this
    have hk' : k < (f :: fixes).length := by
      obtain ⟨h8, -⟩ := List.getElem?_eq_some_iff.mp hpose
      simp only [List.length_cons] at hlen hl2 ⊢
      omega
    rw [e5 k pose _ f hk hpose (List.getElem?_eq_getElem hk') rfl]
    change cast (Scalar.div (Scalar.mul (Scalar.sub _ f.1.lat) _) _) = _
    rw [h7]
    change cast (Fp.div (Fp.mul (Fp.sub _ .nan) _) _) = _
    rw [Fp.sub_nan]
    exact hcast

end Reader

/-- Texts and their numbers: the hypotheses of the theorems above, and the parser at work. -/
example : decimal "-0.0".toList = some 0 ∧ parseFloat (f := b32) "-0.0".toList = some (Fp.ofRat true 0) ∧
    decimal "1.5e-3".toList = some (3 / 2000) ∧ parseFloat (f := b32) "1.5e-3".toList = some (Fp.lit (3 / 2000)) ∧
    parseFloat (f := b32) "1e39".toList = some (.inf false) ∧ parseFloat (f := b32) ".".toList = none ∧
    parseFloat (f := b32) "-Infinity".toList = some (.inf true) ∧ parseFloat (f := b32) "".toList = none ∧
    "NaN".toList.map Char.toLower = "nan".toList ∧ parseFloat (f := b32) "1e".toList = none := by
  decide +kernel

/-- A record of six fields with a line end after the last. -/
example : ∃ fs, Fields "1 2 3 4 5 6\n".toList fs ∧ ['6', '\n'] ∈ fs.take 6 ∧ '\n' ∉ floatChars :=
  ⟨[['1'], ['2'], ['3'], ['4'], ['5'], ['6', '\n']], fields_iff.mpr (by decide), by decide, by decide⟩

/-- Two files, the first with latitude `NaN`. -/
example : ∃ (contents : ℕ → Io (List Char)) (fixes : List (Gps F64 × List F32)),
    SortedListing [1, 2] [2, 1] ∧
    Recorded (parsingEnv id (Fp.lit 1) (fun _ => .nan) fun a b c => [a, b, c]) contents [1, 2] fixes ∧
    contents 1 = .ok "NaN 2 3 4 5 6".toList ∧ Fields "NaN 2 3 4 5 6".toList
      ("NaN".toList :: [['2'], ['3'], ['4'], ['5'], ['6']]) := by
  refine ⟨fun n => .ok (if n = 1 then "NaN 2 3 4 5 6".toList else "1 2 3 4 5 6".toList),
    [(⟨.nan, Fp.lit 2, Fp.lit 3⟩, [Fp.lit 4, Fp.lit 5, Fp.lit 6]),
      (⟨Fp.lit 1, Fp.lit 2, Fp.lit 3⟩, [Fp.lit 4, Fp.lit 5, Fp.lit 6])], ⟨by decide, by decide⟩,
    .cons ⟨_, rfl, "NaN".toList, ['2'], ['3'], ['4'], ['5'], ['6'], [], Fp.lit 4, Fp.lit 5, Fp.lit 6,
        fields_iff.mpr (by decide), by decide +kernel, by decide +kernel, by decide +kernel, by decide +kernel,
        by decide +kernel, by decide +kernel, rfl⟩
      (.cons ⟨_, rfl, ['1'], ['2'], ['3'], ['4'], ['5'], ['6'], [], Fp.lit 4, Fp.lit 5, Fp.lit 6,
        fields_iff.mpr (by decide), by decide +kernel, by decide +kernel, by decide +kernel, by decide +kernel,
        by decide +kernel, by decide +kernel, rfl⟩ .nil), rfl, fields_iff.mpr (by decide)⟩

end Verif.Props
