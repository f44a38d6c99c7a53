import Verif.Model.GetBitsUint
/-
Reseeding before each test (-s 1) and the bit buffers of static_get_bits.c.
-/
namespace Dh

/-- `execute_test`, run_test.c:56-71, for several runs of the tests that share one copy of static_get_bits.c (the twelve runs of
rgb_bitdist under -a), with a nonzero strategy and the same seed each time: `gsl_rng_set` starts the stream `src` again; the bit
buffer is not touched.  Each run is given by its requests for bits. -/
def reseedRuns (r : Nat) (src : Src) : List (List (Nat × UInt)) → GBState → Res (List (List UInt))
  | [], _ => .ok []
  | reqs :: rest, s => do
    let (xs, s) ← getRandBitsUints r src reqs { s with pos := 0 }
    let ys ← reseedRuns r src rest s
    .ok (xs :: ys)

/-- What rgb_bitdist takes from the generator, one element of `draws` for each of the `psamples` calls: 64 requests for each of the
`tsamples` samples, rgb_bitdist.c:226-248 (the mask: line 161), then the `d` values that `gsl_rng_uniform_int` draws to choose a p-value
(line 288; `d` depends on the values, so it is a parameter; a value drawn directly is a request for all `r` bits, which passes the buffer). -/
def bitdistReqs (r nb tsamples : Nat) (draws : List Nat) : List (Nat × UInt) :=
  draws.flatMap fun d => List.replicate (tsamples * 64) (nb, BitVec.ofNat 32 (2 ^ nb - 1)) ++ List.replicate d (r, BitVec.ofNat 32 (2 ^ r - 1))

end Dh
