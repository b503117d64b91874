import Verif.Spec.Obstacle
import Verif.Spec.Names
import Verif.Spec.Text

/-!
# Specification vocabulary: a measured scan of a true scene
-/

namespace Verif.Spec

/-- The measured sensor position and points are those of the true scene, in the same order, each coordinate up to `η`. -/
def NoisyScan (η : ℝ) (X : Fin 3 → ℝ) (pts : List (Fin 3 → ℝ)) (trueX : Fin 3 → ℝ) (truePts : List (Fin 3 → ℝ)) : Prop :=
  (∀ n, |X n - trueX n| ≤ η) ∧ List.Forall₂ (fun Y Z => ∀ n, |Y n - Z n| ≤ η) pts truePts

/-- The bytes of a recording folder, whatever its decimals, angles and file names, are a measurement of the scene: the
sensor is at `X i` and sees the points `pts i` at index `i` of `idx`. What the numbers give is within `η`, and `ε` adds to
`η` what the program may lose on numbers of this size. -/
def Measures (idx : List ℕ) (po pv : List (List (Fin 256))) (oxtBytes cloudBytes : List (Fin 256) → List (BitVec 8)) (ε : ℝ)
    (X : ℕ → Fin 3 → ℝ) (pts : ℕ → List (Fin 3 → ℝ)) : Prop :=
  ∃ (w₁ w₂ : ℕ) (ext ext' : List (Fin 256)) (place : ℕ → Place) (roll pitch yaw : ℕ → ℚ) (L S η : ℝ) (i0 : ℕ),
    IndexFolder w₁ ext idx po ∧ IndexFolder w₂ ext' idx pv ∧ idx[0]? = some i0 ∧
    (∀ i ∈ idx, (∃ text, oxtBytes (indexName w₁ ext i) = utf8 text ∧ (place i).Ok ∧
      Says text (place i) (roll i) (pitch i) (yaw i)) ∧ |roll i| ≤ 4 ∧ |pitch i| ≤ 4 ∧ |yaw i| ≤ 4 ∧
      (∀ n, |(place i).offset (place i0) n| ≤ S) ∧ 16 ∣ (cloudBytes (indexName w₂ ext' i)).length ∧
      (∀ j < (cloudBytes (indexName w₂ ext' i)).length / 16, ∀ n : Fin 3,
        (Viz.f32OfBits (wordAt (cloudBytes (indexName w₂ ext' i)) (16 * j + 4 * n.val))).isFin = true ∧
        |((Viz.f32OfBits (wordAt (cloudBytes (indexName w₂ ext' i)) (16 * j + 4 * n.val))).val : ℝ)| ≤ L) ∧
      NoisyScan η ((place i).offset (place i0)) (movedPoints (roll i) (pitch i) (yaw i) ((place i).offset (place i0))
        (cloudBytes (indexName w₂ ext' i))) (X i) (pts i)) ∧
    1 ≤ L ∧ L ≤ 2 ^ 100 ∧ ε = (1130 * L + 2 * S) / 2 ^ 24 + 1 / 2 ^ 18 + η

end Verif.Spec
