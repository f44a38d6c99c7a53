import Mathlib.Data.Rat.Defs
import Mathlib.Algebra.Order.Ring.Rat
import Mathlib.Algebra.BigOperators.Group.List.Basic
/-
Specification of Pearson's chi-square with pooling: cells are pairs (observed, expected).
-/
namespace Dh

/-- One cell's contribution. -/
def pearson (c : ℚ × ℚ) : ℚ := (c.1 - c.2) ^ 2 / c.2

/-- The cells that make the cutoff, and the rest. -/
def bigCells (cutoff : ℚ) (cs : List (ℚ × ℚ)) : List (ℚ × ℚ) := cs.filter fun c => cutoff ≤ c.2
def smallCells (cutoff : ℚ) (cs : List (ℚ × ℚ)) : List (ℚ × ℚ) := cs.filter fun c => ¬ cutoff ≤ c.2

/-- The pooled cell: total observed and total expected. -/
def pooled (cs : List (ℚ × ℚ)) : ℚ × ℚ := ((cs.map Prod.fst).sum, (cs.map Prod.snd).sum)

/-- The cells that enter the statistic: the large ones, and the pooled rest when there is a rest
and it makes the cutoff. -/
def usedCells (cutoff : ℚ) (cs : List (ℚ × ℚ)) : List (ℚ × ℚ) :=
  bigCells cutoff cs ++
    (if smallCells cutoff cs ≠ [] ∧ cutoff ≤ (pooled (smallCells cutoff cs)).2 then [pooled (smallCells cutoff cs)] else [])

end Dh
