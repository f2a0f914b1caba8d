import Verif.Model.Rounded
import Verif.Model.Eta

/-!
# Specification: the elementary functions of the scalar type
-/
namespace Verif.Fp

/-- The elementary functions of the scalar type with accuracy `a`: relative for `sqrt` (of arguments from 100, the only ones used) and `cosh`, relative to `cosh` for `sinh`, absolute for `cos` and `sin`; the conversion to `int` rounds towards zero. -/
structure ElemFl {fl : ℝ → ℝ} (a : ℝ) (F : Eta.Elem (Fl fl)) : Prop where
  a0 : 0 ≤ a
  sqrt : ∀ x : Fl fl, 100 ≤ x.val → |(F.sqrt x).val - Real.sqrt x.val| ≤ a * Real.sqrt x.val
  cosh : ∀ x : Fl fl, |(F.cosh x).val - Real.cosh x.val| ≤ a * Real.cosh x.val
  sinh : ∀ x : Fl fl, |(F.sinh x).val - Real.sinh x.val| ≤ a * Real.cosh x.val
  cos : ∀ x : Fl fl, |(F.cos x).val - Real.cos x.val| ≤ a
  sin : ∀ x : Fl fl, |(F.sin x).val - Real.sin x.val| ≤ a
  absInt : ∀ x : Fl fl, |x.val| < 100 → F.absInt x = ⌊|x.val|⌋₊

end Verif.Fp
