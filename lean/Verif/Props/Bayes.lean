import Verif.Props.OccMap
import Verif.Props.Math
import Verif.Spec.Bayes

/-!
# C70: the map is the Bayesian estimate
-/

namespace Verif.Props
open Spec

/-! ## Log-odds -/

lemma logOdds_lt {p q : ℝ} (h0 : 0 < p) (h : p < q) (h1 : q < 1) : logOdds p < logOdds q := by
  unfold logOdds
  apply Real.log_lt_log (div_pos h0 (by linarith))
  rw [div_lt_div_iff₀ (by linarith) (by linarith)]
  nlinarith

lemma logOdds_le {p q : ℝ} (h0 : 0 < p) (h : p ≤ q) (h1 : q < 1) : logOdds p ≤ logOdds q := by
  rcases h.lt_or_eq with h | rfl
  · exact (logOdds_lt h0 h h1).le
  · exact le_rfl

lemma logOdds_min {p q : ℝ} (hp : 0 < p ∧ p < 1) (hq : 0 < q ∧ q < 1) :
    logOdds (min p q) = min (logOdds p) (logOdds q) := by
  rcases le_total p q with h | h
  · rw [min_eq_left h, min_eq_left (logOdds_le hp.1 h hq.2)]
  · rw [min_eq_right h, min_eq_right (logOdds_le hq.1 h hp.2)]

lemma logOdds_max {p q : ℝ} (hp : 0 < p ∧ p < 1) (hq : 0 < q ∧ q < 1) :
    logOdds (max p q) = max (logOdds p) (logOdds q) := by
  rcases le_total p q with h | h
  · rw [max_eq_right h, max_eq_right (logOdds_le hp.1 h hq.2)]
  · rw [max_eq_left h, max_eq_left (logOdds_le hq.1 h hp.2)]

/-- The posterior is a probability, and its log-odds are those of the prior plus the log-odds of what the
observation suggests alone. -/
lemma logOdds_posterior {p a b : ℝ} (hp : 0 < p ∧ p < 1) (ha : 0 < a) (hb : 0 < b) :
    (0 < posterior p a b ∧ posterior p a b < 1) ∧
      logOdds (posterior p a b) = logOdds p + logOdds (a / (a + b)) := by
  have h1 : 0 < p * a := mul_pos hp.1 ha
  have h2 : 0 < (1 - p) * b := mul_pos (by linarith [hp.2]) hb
  have h3 : 0 < 1 - p := by linarith [hp.2]
  refine ⟨⟨div_pos h1 (by linarith), ?_⟩, ?_⟩
  · unfold posterior
    rw [div_lt_one (by linarith)]
    linarith
  · have e1 : posterior p a b / (1 - posterior p a b) = p / (1 - p) * (a / b) := by
      unfold posterior
      have : p * a + (1 - p) * b ≠ 0 := by linarith
      field_simp
      ring
    have e2 : a / (a + b) / (1 - a / (a + b)) = a / b := by
      have : a + b ≠ 0 := by linarith
      field_simp
      rw [add_sub_cancel_left, div_self hb.ne']
    unfold logOdds
    rw [e1, e2, Real.log_mul (div_pos hp.1 h3).ne' (div_pos ha hb).ne']

/-- For parameters `q` that are themselves probabilities. -/
lemma logOdds_update {p q : ℝ} (hp : 0 < p ∧ p < 1) (hq : 0 < q ∧ q < 1) :
    (0 < posterior p q (1 - q) ∧ posterior p q (1 - q) < 1) ∧
      logOdds (posterior p q (1 - q)) = logOdds p + logOdds q := by
  have := logOdds_posterior hp hq.1 (b := 1 - q) (by linarith [hq.2])
  rwa [show q / (q + (1 - q)) = q by rw [add_sub_cancel, div_one]] at this

lemma _root_.Verif.Spec.Sensor.Proper.update {s : Sensor} (hs : s.Proper) {p : ℝ} (hp : 0 < p ∧ p < 1) (x : Seen) :
    0 < s.update p x ∧ s.update p x < 1 := by
  cases x with
  | hit =>
    have := (logOdds_update hp hs.hit).1
    exact ⟨lt_min this.1 hs.max.1, min_lt_of_left_lt this.2⟩
  | miss =>
    have := (logOdds_update hp hs.miss).1
    exact ⟨lt_max_of_lt_left this.1, max_lt this.2 hs.min.2⟩
  | nothing => exact hp

/-! ## Exact arithmetic -/

lemma probability_logOdds {p : ℝ} (hp : 0 < p ∧ p < 1) : probabilityFromLogodds (XR.fin (logOdds p)) = XR.fin p := by
  have := C46_exact_inverse.1 p hp.1 hp.2
  rwa [logodds_exact] at this

/-- C70, exact arithmetic: for a noise model made by `new` from probabilities strictly between 0 and 1, a hit
and a miss applied to the log-odds of a probability `p` give the log-odds of the probability after Bayes' rule,
limited to the given maximum and minimum; and a cell is above the threshold exactly if its probability is. -/
theorem C70_exact {s : Sensor} (hs : s.Proper) {range : XR} {nm : LidarNoiseModel XR}
    (h : LidarNoiseModel.new (XR.fin s.hit) (XR.fin s.miss) (XR.fin s.min) (XR.fin s.max) (XR.fin s.threshold)
      range = .ok nm) {p : ℝ} (hp : 0 < p ∧ p < 1) :
    probabilityFromLogodds (nm.hitValue (logoddsFromProbability (XR.fin p))) = XR.fin (s.update p .hit) ∧
    probabilityFromLogodds (nm.missValue (logoddsFromProbability (XR.fin p))) = XR.fin (s.update p .miss) ∧
    probabilityFromLogodds (nm.defaultCellValue) = XR.fin (1 / 2) ∧
    (Scalar.lt nm.threshold (logoddsFromProbability (XR.fin p)) = true ↔ s.threshold < p) := by
  unfold LidarNoiseModel.new at h
  split_ifs at h with hok
  injection h with h
  subst h
  have hadd : ∀ {q : ℝ}, 0 < q ∧ q < 1 →
      Scalar.add (logoddsFromProbability (XR.fin p)) (logoddsFromProbability (XR.fin q)) =
        XR.fin (logOdds (posterior p q (1 - q))) := fun {q} hq => by
    rw [logodds_exact, logodds_exact, (logOdds_update hp hq).2]; rfl
  refine ⟨?_, ?_, ?_, ?_⟩
  · have h1 := (logOdds_update hp hs.hit).1
    change probabilityFromLogodds (Scalar.fmin (Scalar.add _ (logoddsFromProbability (XR.fin s.hit)))
      (logoddsFromProbability (XR.fin s.max))) = _
    rw [hadd hs.hit, logodds_exact]
    change probabilityFromLogodds (XR.fin (min (logOdds _) (logOdds _))) = _
    rw [← logOdds_min h1 hs.max]
    exact probability_logOdds (hs.update hp .hit)
  · have h1 := (logOdds_update hp hs.miss).1
    change probabilityFromLogodds (Scalar.fmax (Scalar.add _ (logoddsFromProbability (XR.fin s.miss)))
      (logoddsFromProbability (XR.fin s.min))) = _
    rw [hadd hs.miss, logodds_exact]
    change probabilityFromLogodds (XR.fin (max (logOdds _) (logOdds _))) = _
    rw [← logOdds_max h1 hs.min]
    exact probability_logOdds (hs.update hp .miss)
  · change probabilityFromLogodds (XR.fin ((0 : ℚ) : ℝ)) = _
    rw [probability_exact]
    norm_num
  · change Scalar.lt (logoddsFromProbability (XR.fin s.threshold)) _ = true ↔ _
    rw [logodds_exact, logodds_exact]
    change decide (logOdds s.threshold < logOdds p) = true ↔ _
    rw [decide_eq_true_iff]
    constructor
    · intro h
      by_contra hc
      exact absurd h (not_lt.mpr (logOdds_le hp.1 (not_lt.mp hc) hs.threshold.2))
    · exact fun h => logOdds_lt hs.threshold.1 h hp.2

/-! ## f32 -/

lemma is_min {x y : F32} {q r : ℚ} (hx : x.Is q) (hy : y.Is r) : (x.min y).Is (min q r) := by
  refine Fp.is_of_key (Fp.min_notNaN (Fp.notNaN_is hx) (Fp.notNaN_is hy)) ?_
  rw [Fp.min_key (Fp.notNaN_is hx) (Fp.notNaN_is hy), Fp.key_is hx, Fp.key_is hy]
  norm_cast

lemma is_max {x y : F32} {q r : ℚ} (hx : x.Is q) (hy : y.Is r) : (x.max y).Is (max q r) := by
  refine Fp.is_of_key (Fp.max_notNaN (Fp.notNaN_is hx) (Fp.notNaN_is hy)) ?_
  rw [Fp.max_key (Fp.notNaN_is hx) (Fp.notNaN_is hy), Fp.key_is hx, Fp.key_is hy]
  norm_cast

lemma abs_min_sub {a b c d : ℝ} {e : ℝ} (h1 : |a - c| ≤ e) (h2 : |b - d| ≤ e) : |min a b - min c d| ≤ e :=
  (abs_min_sub_min_le_max a b c d).trans (max_le h1 h2)

lemma abs_max_sub {a b c d : ℝ} {e : ℝ} (h1 : |a - c| ≤ e) (h2 : |b - d| ≤ e) : |max a b - max c d| ≤ e :=
  (abs_max_sub_max_le_max a b c d).trans (max_le h1 h2)

variable {nm : LidarNoiseModel F32} {s : Sensor} {η : ℝ} {B : ℚ}

lemma round_sum {a b : ℚ} (ha : |a| ≤ B) (hb : |b| ≤ B) (h1 : 1 ≤ B) (h2 : B ≤ 2 ^ 100) :
    |b32.rnd (a + b)| < 2 ^ b32.emax ∧ |b32.rnd (a + b) - (a + b)| ≤ B / 2 ^ 22 := by
  have h3 := abs_add_le a b
  constructor
  · refine F32.noOvf ?_
    norm_num at h2 ⊢
    linarith
  · have := F32.err (a + b)
    norm_num at this ⊢
    linarith

/-- One observation. -/
lemma near_update (hs : s.Proper) (hn : NearSensor nm s η B) (h1 : 1 ≤ B) (h2 : B ≤ 2 ^ 100)
    {v : F32} {q : ℚ} (hq : v.Is q) (hqB : |q| ≤ B) {p : ℝ} (hp : 0 < p ∧ p < 1) {δ : ℝ} (h0 : 0 ≤ δ)
    (hδ : |(q : ℝ) - logOdds p| ≤ δ) (x : Seen) :
    ∃ q', (Seen.apply nm v x).Is q' ∧
      |(q' : ℝ) - logOdds (s.update p x)| ≤ δ + (if x.tells then 1 else 0) * (η + B / 2 ^ 22) := by
  have hBr : (0 : ℝ) ≤ (B : ℝ) / 2 ^ 22 := by
    have : (0 : ℝ) ≤ B := by exact_mod_cast (zero_le_one.trans h1)
    positivity
  cases x with
  | nothing => exact ⟨q, hq, by simpa [Seen.tells, Sensor.update] using hδ⟩
  | hit =>
    obtain ⟨a, a1, a2, a3⟩ := hn.hit
    obtain ⟨b, b1, b2, -⟩ := hn.max
    obtain ⟨r1, r2⟩ := round_sum hqB a3 h1 h2
    refine ⟨_, is_min (hq.add a1 r1) b1, ?_⟩
    have hup : logOdds (s.update p .hit) = min (logOdds p + logOdds s.hit) (logOdds s.max) := by
      change logOdds (min _ _) = _
      rw [logOdds_min (logOdds_update hp hs.hit).1 hs.max, (logOdds_update hp hs.hit).2]
    rw [hup, if_pos (show Seen.tells .hit = true from rfl), one_mul, Rat.cast_min]
    refine abs_min_sub ?_ ?_
    · have r3 : |((b32.rnd (q + a) : ℚ) : ℝ) - (q + a)| ≤ B / 2 ^ 22 := by exact_mod_cast r2
      rw [abs_le] at r3 hδ a2 ⊢
      constructor <;> linarith [r3.1, r3.2, hδ.1, hδ.2, a2.1, a2.2]
    · linarith
  | miss =>
    obtain ⟨a, a1, a2, a3⟩ := hn.miss
    obtain ⟨b, b1, b2, -⟩ := hn.min
    obtain ⟨r1, r2⟩ := round_sum hqB a3 h1 h2
    refine ⟨_, is_max (hq.add a1 r1) b1, ?_⟩
    have hup : logOdds (s.update p .miss) = max (logOdds p + logOdds s.miss) (logOdds s.min) := by
      change logOdds (max _ _) = _
      rw [logOdds_max (logOdds_update hp hs.miss).1 hs.min, (logOdds_update hp hs.miss).2]
    rw [hup, if_pos (show Seen.tells .miss = true from rfl), one_mul, Rat.cast_max]
    refine abs_max_sub ?_ ?_
    · have r3 : |((b32.rnd (q + a) : ℚ) : ℝ) - (q + a)| ≤ B / 2 ^ 22 := by exact_mod_cast r2
      rw [abs_le] at r3 hδ a2 ⊢
      constructor <;> linarith [r3.1, r3.2, hδ.1, hδ.2, a2.1, a2.2]
    · linarith

/-- C70, f32: the value of a cell after any observations is within `η + B / 2^22` per informative observation
of the log-odds of the Bayesian estimate. -/
theorem C70_observations (hs : s.Proper) (hn : NearSensor nm s η B) (h1 : 1 ≤ B) (h2 : B ≤ 2 ^ 100)
    (hh : FLe (Fp.lit 0) nm.hit) (hm : FLe nm.miss (Fp.lit 0)) (obs : List Seen) {v : F32} (hv : InLimits nm v)
    {q : ℚ} (hq : v.Is q) {p : ℝ} (hp : 0 < p ∧ p < 1) :
    ∃ q', (obs.foldl (Seen.apply nm) v).Is q' ∧
      |(q' : ℝ) - logOdds (obs.foldl s.update p)| ≤
        |(q : ℝ) - logOdds p| + (obs.filter Seen.tells).length * (η + B / 2 ^ 22) := by
  have hη : 0 ≤ η := by
    obtain ⟨_, _, h, _⟩ := hn.hit
    exact (abs_nonneg _).trans h
  have hBr : (0 : ℝ) ≤ η + (B : ℝ) / 2 ^ 22 := by
    have : (0 : ℝ) ≤ B := by exact_mod_cast (zero_le_one.trans h1)
    positivity
  induction obs generalizing v q p with
  | nil => exact ⟨q, hq, by simp⟩
  | cons x obs ih =>
    have hqB : |q| ≤ B := by
      obtain ⟨a, a1, -, a3⟩ := hn.min
      obtain ⟨b, b1, -, b3⟩ := hn.max
      have l1 := (Fp.FLe_is a1 hq).mp hv.1
      have l2 := (Fp.FLe_is hq b1).mp hv.2
      rw [abs_le] at a3 b3 ⊢
      exact ⟨a3.1.trans l1, l2.trans b3.2⟩
    obtain ⟨q1, hq1, e1⟩ := near_update hs hn h1 h2 hq hqB hp (abs_nonneg _) le_rfl x
    obtain ⟨q2, hq2, e2⟩ := ih (C37_update hh hm hv x) hq1 (hs.update hp x)
    refine ⟨q2, hq2, e2.trans ?_⟩
    rw [List.filter_cons]
    split_ifs with ht
    · rw [if_pos ht] at e1
      rw [List.length_cons]
      push_cast
      linarith
    · rw [if_neg ht] at e1
      linarith

/-- C70, f32, for the map: an occupancy map from `new`, after any calls of its `integrate_point_cloud` with
in-range clouds that all returned. The value of a world cell of the map is within `η + B / 2^22` per informative
observation of the log-odds of the Bayesian estimate of its occupancy, starting from one half; and `occupied`
is the test of that estimate against the threshold, unless the two are as close as the error. -/
theorem C70_map {D : ℕ} {ρ : ℚ} {o o' : OccupancyGridMap D F32} (hs : s.Proper) (hn : NearSensor nm s η B)
    (h1 : 1 ≤ B) (h2 : B ≤ 2 ^ 100) (hh : FLe (Fp.lit 0) nm.hit) (hm : FLe nm.miss (Fp.lit 0))
    (h0 : InLimits nm (Fp.lit 0)) (hD0 : 0 < D) (hD : D ≤ 3) {r : F32} {t : ℕ} (hr : Res r ρ)
    (ht : 1 ≤ t) (ht' : t ≤ 2 ^ 17) (ho : OccupancyGridMap.new nm r t = .ok o) {hist}
    (hc : ∀ s ∈ hist, CloudInRange s.2.2 ρ) (h : OccRuns o hist o') :
    ∃ cb, Placed o'.gridMap cb ρ ∧ ∀ w, InCells w cb → ∀ obs, obs = observations nm hist w →
      ∃ v q p ε, o'.get (fun i => w i - cb.min i) = .ok v ∧ v.Is q ∧ p = obs.foldl s.update (1 / 2) ∧
        ε = (obs.filter Seen.tells).length * (η + B / 2 ^ 22) ∧ 0 < p ∧ p < 1 ∧
        |(q : ℝ) - logOdds p| ≤ ε ∧
        (logOdds s.threshold + η + ε < logOdds p → o'.occupied (fun i => w i - cb.min i) = .ok true) ∧
        (logOdds p + ε + η ≤ logOdds s.threshold → o'.occupied (fun i => w i - cb.min i) = .ok false) := by
  obtain ⟨-, cb, hP, hv, -⟩ := C41_occupancy_map hD0 hD hr ht ht' ho hc h
  refine ⟨cb, hP, fun w hw obs hobs => ?_⟩
  obtain ⟨g1, g2⟩ := hv w hw
  have hfold : occFold nm hist w (Fp.lit 0) = obs.foldl (Seen.apply nm) (Fp.lit 0) := by
    rw [hobs]
    unfold occFold observations
    rw [List.foldl_map]
  have hhalf : (0 : ℝ) < 1 / 2 ∧ (1 : ℝ) / 2 < 1 := by norm_num
  obtain ⟨q, hq, e⟩ := C70_observations hs hn h1 h2 hh hm obs h0 F32.zero_is hhalf
  have hz : |((0 : ℚ) : ℝ) - logOdds (1 / 2)| = 0 := by
    unfold logOdds; norm_num
  rw [hz, zero_add] at e
  have hp : ∀ (obs : List Seen) (p : ℝ), 0 < p ∧ p < 1 → 0 < obs.foldl s.update p ∧ obs.foldl s.update p < 1 := by
    intro obs
    induction obs with
    | nil => exact fun p hp => hp
    | cons x obs ih => exact fun p hp => ih _ (hs.update hp x)
  obtain ⟨c, c1, c2, -⟩ := hn.threshold
  rw [hfold] at g1 g2
  have hlt := Fp.Is.lt c1 hq
  rw [abs_le] at c2
  have e' := abs_le.mp e
  refine ⟨_, q, _, _, g1, hq, rfl, rfl, (hp obs _ hhalf).1, (hp obs _ hhalf).2, e, fun hb => ?_, fun hb => ?_⟩
  · rw [g2, hlt]
    congr 1
    rw [decide_eq_true_iff]
    have : (c : ℝ) < q := by linarith [c2.2, e'.1]
    exact_mod_cast this
  · rw [g2, hlt]
    congr 1
    rw [decide_eq_false_iff_not, not_lt]
    have : (q : ℝ) ≤ c := by linarith [c2.1, e'.2]
    exact_mod_cast this

/-! ## The default model -/

/-- Bounds for a logarithm, from the series of the exponential function at a quarter. -/
lemma log_between {x a b : ℝ} (hx : 0 < x) (n : ℕ) (hn : 0 < n) (ha : |a / 4| ≤ 1) (hb : |b / 4| ≤ 1)
    (h1 : (∑ m ∈ Finset.range n, (a / 4) ^ m / (m.factorial : ℝ) + |a / 4| ^ n * (n.succ / (n.factorial * n))) ^ 4 ≤ x)
    (h3 : 0 ≤ ∑ m ∈ Finset.range n, (b / 4) ^ m / (m.factorial : ℝ) - |b / 4| ^ n * (n.succ / (n.factorial * n)))
    (h2 : x ≤ (∑ m ∈ Finset.range n, (b / 4) ^ m / (m.factorial : ℝ) - |b / 4| ^ n * (n.succ / (n.factorial * n))) ^ 4) :
    a ≤ Real.log x ∧ Real.log x ≤ b := by
  have e1 := abs_le.mp (Real.exp_bound ha hn)
  have e2 := abs_le.mp (Real.exp_bound hb hn)
  have p4 : ∀ y : ℝ, Real.exp y = Real.exp (y / 4) ^ 4 := fun y => by
    rw [← Real.exp_nat_mul]; congr 1; push_cast; ring
  constructor
  · rw [Real.le_log_iff_exp_le hx, p4]
    refine le_trans ?_ h1
    exact pow_le_pow_left₀ (Real.exp_pos _).le (by linarith [e1.2]) 4
  · rw [Real.log_le_iff_le_exp hx, p4]
    refine h2.trans ?_
    exact pow_le_pow_left₀ h3 (by linarith [e2.1]) 4

lemma near_of_between {x : F32} {p a b : ℝ} {η : ℝ} {B : ℚ} (hx : x.isFin = true)
    (h1 : a ≤ (x.val : ℝ) ∧ (x.val : ℝ) ≤ b) (h2 : a ≤ logOdds p ∧ logOdds p ≤ b) (h3 : b - a ≤ η)
    (hB : |x.val| ≤ B) : NearOdds x p η B :=
  ⟨_, Fp.isFin_is hx, by rw [abs_le]; constructor <;> linarith [h1.1, h1.2, h2.1, h2.2], hB⟩

/-- The default sensor is proper. -/
lemma defaultSensor_proper : defaultSensor.Proper := by
  constructor <;> unfold defaultSensor <;> norm_num

/-- C70: the log-odds of the default model (as the crate's tests have them) are within 10^-6 of the exact
log-odds of the probabilities 0.7, 0.4, 0.1192, 0.971 and 0.5. -/
theorem C70_default_near : NearSensor defaultNM defaultSensor (1 / 10 ^ 6) 4 := by
  have hval : ∀ {x : F32} {l u : ℚ}, (l ≤ x.val ∧ x.val ≤ u) → ((l : ℝ) ≤ (x.val : ℝ) ∧ (x.val : ℝ) ≤ (u : ℝ)) :=
    fun h => ⟨by exact_mod_cast h.1, by exact_mod_cast h.2⟩
  refine ⟨?_, ?_, ?_, ?_, ?_⟩
  · refine near_of_between (a := ((847297 / 10 ^ 6 : ℚ) : ℝ)) (b := ((847298 / 10 ^ 6 : ℚ) : ℝ)) (by decide +kernel)
      (hval (by decide +kernel)) ?_ (by norm_num) (by decide +kernel)
    unfold logOdds defaultSensor
    apply log_between (n := 10) <;> norm_num [Finset.sum_range_succ, Nat.factorial, abs_of_pos, abs_of_neg]
  · refine near_of_between (a := ((-405466 / 10 ^ 6 : ℚ) : ℝ)) (b := ((-405465 / 10 ^ 6 : ℚ) : ℝ)) (by decide +kernel)
      (hval (by decide +kernel)) ?_ (by norm_num) (by decide +kernel)
    unfold logOdds defaultSensor
    apply log_between (n := 10) <;> norm_num [Finset.sum_range_succ, Nat.factorial, abs_of_pos, abs_of_neg]
  · refine near_of_between (a := ((-2000028 / 10 ^ 6 : ℚ) : ℝ)) (b := ((-2000027 / 10 ^ 6 : ℚ) : ℝ)) (by decide +kernel)
      (hval (by decide +kernel)) ?_ (by norm_num) (by decide +kernel)
    unfold logOdds defaultSensor
    apply log_between (n := 12) <;> norm_num [Finset.sum_range_succ, Nat.factorial, abs_of_pos, abs_of_neg]
  · refine near_of_between (a := ((35110305 / 10 ^ 7 : ℚ) : ℝ)) (b := ((35110315 / 10 ^ 7 : ℚ) : ℝ)) (by decide +kernel)
      (hval (by decide +kernel)) ?_ (by norm_num) (by decide +kernel)
    unfold logOdds defaultSensor
    apply log_between (n := 14) <;> norm_num [Finset.sum_range_succ, Nat.factorial, abs_of_pos, abs_of_neg]
  · refine ⟨0, F32.zero_is, ?_, by norm_num⟩
    unfold logOdds defaultSensor
    norm_num

/-- C70 for the default occupancy map: after any calls of its `integrate_point_cloud` with in-range clouds that
all returned, the value of a world cell of the map is within `n` times 2 / 10^6 of the log-odds of the Bayesian
estimate with the documented probabilities, where `n` is the number of scans that told something about the cell;
so the cell is reported occupied if that estimate exceeds one half by more than the error, and not if it is as
much below one half. -/
theorem C70_default [Libm F32] (hl : TestedLn) {D : ℕ} {o o' : OccupancyGridMap D F32} (hD0 : 0 < D) (hD : D ≤ 3)
    (ho : OccupancyGridMap.default_ = .ok o) {hist}
    (hc : ∀ s ∈ hist, CloudInRange s.2.2 (Fp.lit 0.1 : F32).val) (h : OccRuns o hist o') :
    ∃ cb, Placed o'.gridMap cb (Fp.lit 0.1 : F32).val ∧ ∀ w, InCells w cb →
      ∃ v q p n, o'.get (fun i => w i - cb.min i) = .ok v ∧ v.Is q ∧
        p = (observations defaultNM hist w).foldl defaultSensor.update (1 / 2) ∧
        n = ((observations defaultNM hist w).filter Seen.tells).length ∧ 0 < p ∧ p < 1 ∧
        |(q : ℝ) - logOdds p| ≤ n * (2 / 10 ^ 6) ∧
        ((n + 1) * (2 / 10 ^ 6) < logOdds p → o'.occupied (fun i => w i - cb.min i) = .ok true) ∧
        (logOdds p < -((n + 1) * (2 / 10 ^ 6)) → o'.occupied (fun i => w i - cb.min i) = .ok false) := by
  have ho' := ((C42_default_model hl).2.1 o).mp ho
  have hr : Res (Fp.lit 0.1 : F32) (Fp.lit 0.1 : F32).val := by
    refine ⟨by decide +kernel, ?_, ?_⟩ <;> decide +kernel
  obtain ⟨cb, hP, hv⟩ := C70_map defaultSensor_proper C70_default_near (by norm_num) (by norm_num)
    (by decide +kernel) (by decide +kernel) (by unfold InLimits; decide +kernel) hD0 hD hr (t := 100)
    (by norm_num) (by norm_num) ho' hc h
  refine ⟨cb, hP, fun w hw => ?_⟩
  obtain ⟨v, q, p, ε, g1, g2, g3, g4, g5, g6, g7, g8, g9⟩ := hv w hw _ rfl
  have hthr : logOdds defaultSensor.threshold = 0 := by unfold logOdds defaultSensor; norm_num
  have hn : (0 : ℝ) ≤ (((observations defaultNM hist w).filter Seen.tells).length : ℝ) := by positivity
  have hε : ε ≤ (((observations defaultNM hist w).filter Seen.tells).length : ℝ) * (2 / 10 ^ 6) := by
    rw [g4]
    refine mul_le_mul_of_nonneg_left ?_ hn
    norm_num
  rw [hthr] at g8 g9
  refine ⟨v, q, p, _, g1, g2, g3, rfl, g5, g6, g7.trans hε, fun hb => g8 ?_, fun hb => g9 ?_⟩ <;> linarith

/-! ## Examples -/

/-- Bayes' rule at work: two hits in a row take one half to 49 / 58 (odds 7/3 times 7/3), a miss then to
49 / 62.5; ten hits reach the maximum. -/
example : [Seen.hit, .nothing, .hit].foldl defaultSensor.update (1 / 2) = 49 / 58 ∧
    [Seen.hit, .hit, .miss].foldl defaultSensor.update (1 / 2) = 98 / 125 ∧
    (List.replicate 10 Seen.hit).foldl defaultSensor.update (1 / 2) = 971 / 1000 := by
  refine ⟨?_, ?_, ?_⟩ <;> norm_num [Sensor.update, posterior, defaultSensor, List.replicate]

/-- In exact arithmetic the default parameters are accepted. -/
example : ∃ nm, LidarNoiseModel.new (XR.fin defaultSensor.hit) (XR.fin defaultSensor.miss)
    (XR.fin defaultSensor.min) (XR.fin defaultSensor.max) (XR.fin defaultSensor.threshold) (XR.fin 60) = .ok nm := by
  unfold LidarNoiseModel.new
  rw [if_pos]
  · exact ⟨_, rfl⟩
  · simp only [LidarNoiseModel.probOk, Scalar.le, Scalar.lit, defaultSensor, Bool.and_eq_true, decide_eq_true_eq]
    norm_num

/-- In-range clouds for the default resolution. -/
example : CloudInRange (PointCloud.fromPoints [![Fp.lit 2, Fp.lit 1], ![Fp.lit 1, Fp.lit (-2)]] : PointCloud 2 F32)
    (Fp.lit 0.1 : F32).val := by
  intro p hp i
  refine ⟨(p i).val, Fp.isFin_is ?_, ?_⟩ <;> revert i <;> revert p <;> decide +kernel

end Verif.Props
