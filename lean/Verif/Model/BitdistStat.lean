import Verif.Model.WordTests
import Verif.Model.GetBitsUint
import Verif.Model.Vtest
import Mathlib.Data.Nat.Choose.Basic
/-
rgb_bitdist.c: the statistic.
-/
namespace Dh

/-- The expectations `vtest[i].y`, rgb_bitdist.c:193-220, the same for every `i`: `tsamples` times `gsl_ran_binomial_pdf(b,ntuple_prob,64)` with
`ntuple_prob = 1/2^nb` (136). -/
def bitdistExpect (nb tsamples : Nat) : List ℚ :=
  (List.range 65).map fun b => (tsamples : ℚ) * ((Nat.choose 64 b : ℚ) * (1 / 2 ^ nb) ^ b * (1 - 1 / 2 ^ nb) ^ (64 - b))

/-- `rgb_bitdist` up to the p-value, rgb_bitdist.c:84-320: what `Vtest_eval` makes of `vtest[ri]` (297), where `ri` is the value of
`gsl_rng_uniform_int(rng,value_max)` (286); the other rows are evaluated without effect.  The `64 tsamples` calls of `get_rand_bits_uint`
(241, with the mask of 161) are written as one history of requests; nothing else draws from the generator before line 286.  The
buffer of `get_rand_bits_uint` is empty at the start. -/
def bitdistStat (r : Nat) (src : Src) (nb tsamples ri : Nat) : Res Vtest :=
  if nb = 0 then .exit
  else if nb < 32 then do
    let (vals, _) ← getRandBitsUints r src (List.replicate (64 * tsamples) (nb, (1#32 <<< nb) - 1#32)) GBState.init
    let rows ← bitdist nb (fun j => vals.getD j 0) tsamples
    let row ← rd rows ri
    vtestEval { vtestCreate 65 with cutoff := 20, x := row.map (Int.cast : Int → ℚ), y := bitdistExpect nb tsamples }
  else .ub

end Dh
