import Verif.Model.Geom

/-!
# Specification vocabulary: the working range of resolutions
-/

namespace Verif.Spec

/-- `r` is a finite f32 with the value `ρ`, a resolution between 2^-100 and 2^100. -/
def Res (r : F32) (ρ : ℚ) : Prop := r.Is ρ ∧ 1 / 2 ^ 100 ≤ ρ ∧ ρ ≤ 2 ^ 100

lemma Res.pos {r : F32} {ρ : ℚ} (h : Res r ρ) : 0 < ρ := lt_of_lt_of_le (by norm_num) h.2.1

end Verif.Spec
