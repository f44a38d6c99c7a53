import Verif.Model.Birthdays
import Verif.Model.Chisq
/-
diehard_birthdays.c and dab_birthdays1.c as a whole: lambda, the number of cells and the p-value.
-/
namespace Dh

/-- `while((binfreq = test[0]->tsamples*gsl_ran_poisson_pdf(kmax,lambda)) > 5) kmax++;`, diehard_birthdays.c:102-104, dab_birthdays1.c:104-107. -/
noncomputable def birthKmax (tsamples : Nat) (lambda : ℝ) : (fuel kmax : Nat) → Res Nat
  | 0, _ => .loop
  | fuel + 1, kmax => if tsamples * poissonPdf kmax lambda > 5 then birthKmax tsamples lambda fuel (kmax + 1) else .ok kmax

/-- `lambda = (double)nms*nms*nms/pow(2.0,(double)nbits+2.0);`, diehard_birthdays.c:87, dab_birthdays1.c:88. -/
noncomputable def birthLambda (nms nbits : Nat) : ℝ := nms * nms * nms / 2 ^ (nbits + 2)

/-- What the two tests have in common: diehard_birthdays.c:87-248, dab_birthdays1.c:88-231.  `src` are the numbers of `nbits` bits, `e0 k` is the vector of
`k` doubles that `chisq_poisson` allocates. -/
noncomputable def birthTest (gammaQ : ℝ → ℝ → ℝ) (e0 : Nat → List ℝ) (fuel nms nbits : Nat) (src : Src) (tsamples : Nat) : Res ℝ := do
  let lambda := birthLambda nms nbits
  let kmax ← birthKmax tsamples lambda fuel 1
  let kmax := kmax + 1
  let js ← birthdays src nms tsamples 0 (List.replicate kmax 0)
  chisqPoisson gammaQ (e0 kmax) js lambda kmax tsamples

/-- `diehard_birthdays`, diehard_birthdays.c:50-258; `rmaxBits` is the width of the generator. -/
noncomputable def diehardBirthdays (gammaQ : ℝ → ℝ → ℝ) (e0 : Nat → List ℝ) (fuel rmaxBits : Nat) (src : Src) (tsamples : Nat) : Res ℝ :=
  let nbits := 24
  let nbits := if nbits > rmaxBits then rmaxBits else nbits
  birthTest gammaQ e0 fuel 512 nbits src tsamples

/-- `dab_birthdays1`, dab_birthdays1.c:55-241. -/
noncomputable def dabBirthdays1 (gammaQ : ℝ → ℝ → ℝ) (e0 : Nat → List ℝ) (fuel rmaxBits : Nat) (ntuple : UInt) (src : Src) (tsamples : Nat) : Res ℝ :=
  let nms := if ntuple = 0 then 1700 else ntuple.toNat
  let nms := if nms > 4096 then 4096 else nms
  birthTest gammaQ e0 fuel nms rmaxBits src tsamples

end Dh
