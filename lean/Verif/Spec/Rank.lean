import Verif.Basic
import Mathlib.LinearAlgebra.Matrix.Rank
import Mathlib.Data.ZMod.Basic
import Mathlib.Algebra.Field.ZMod
/-
The bit matrix a vector of words stands for.
-/
namespace Dh.Spec

/-- Column `j` of a row is bit `j % 32` (least significant first) of its word `j / 32`. -/
def bitMatrix (mtx : List (List UInt)) (m n : Nat) : Matrix (Fin m) (Fin n) (ZMod 2) :=
  fun i j => if (((mtx.getD i []).getD (j / 32) 0).getLsbD (j % 32)) then 1 else 0

end Dh.Spec
