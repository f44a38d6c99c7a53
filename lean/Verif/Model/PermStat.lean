import Verif.Model.Perms
import Verif.Model.Vtest
/-
Model of the end of rgb_permutations.c: the chi-square vector.
-/
namespace Dh

/-- `rgb_permutations`, rgb_permutations.c:39-152, up to the p-value: the vector created and filled in 59-64 and counted in 101-137 is
evaluated in 147. -/
def rgbPermutationsStat (ntuple : Nat) (sortIndex : List UInt → List Nat) (lookup : Nat → List (List Nat)) (src : Src)
    (tsamples : Nat) : Res Vtest := do
  let k := if ntuple < 2 then 5 else ntuple
  let x ← rgbPermutations ntuple sortIndex lookup src tsamples
  vtestEval { vtestCreate k.factorial with
    cutoff := 5
    x := x.map (fun c : Nat => (c : ℚ))
    y := List.replicate k.factorial ((tsamples : ℚ) / k.factorial) }

end Dh
