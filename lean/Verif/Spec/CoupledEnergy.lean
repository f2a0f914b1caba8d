import Verif.Spec.Coupled

/-!
# Specification: the energy derivative of a block of solutions of a coupled system
-/
namespace Verif
open Verif.MFormulas

/-- `z`, with derivative `dz`, solves the coupled equation differentiated with respect to the energy: `z'' = (V - E) z - y` on `[a, b]`. -/
structure MEnergyOn {n r : ℕ} (V : ℝ → Mat n ℝ) (E a b : ℝ) (y z dz : ℝ → Matrix (Fin n) (Fin r) ℝ) : Prop where
  d1 : ∀ x ∈ Set.Icc a b, ∀ i j, HasDerivWithinAt (fun x => z x i j) (dz x i j) (Set.Icc a b) x
  d2 : ∀ x ∈ Set.Icc a b, ∀ i j, HasDerivWithinAt (fun x => dz x i j) (((V x - E • (1 : Mat n ℝ)) * z x - y x : Matrix (Fin n) (Fin r) ℝ) i j) (Set.Icc a b) x

/-- The same on every sector of a mesh. -/
def MEnergyMesh {n r : ℕ} (W : Mesh.Sec ℝ → ℝ → Mat n ℝ) (E : ℝ) (secs : List (Mesh.Sec ℝ)) (y z dz : ℝ → Matrix (Fin n) (Fin r) ℝ) : Prop :=
  ∀ s ∈ secs, MEnergyOn (W s) E s.min s.max y z dz

end Verif
