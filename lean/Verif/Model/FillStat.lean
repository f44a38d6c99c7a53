import Verif.Model.FillTree
import Verif.Model.Chisq
/-
The tables and the chi-square tests of dab_filltree.c and dab_filltree2.c.  Doubles are rationals up to the statistic, which is real.
-/
namespace Dh

/-- The table `targetData`, dab_filltree2.c:60-93; `(m, e)` stands for `m * 10^(-e)`. -/
def ft2Digits : List (Nat × Nat) :=
  [(0, 0), (0, 0), (0, 0), (0, 0), (0, 0), (0, 0), (476837158203125, 21), (286102294921875, 20), (985432416200638, 20),
   (255650229519233, 19), (554892931177164, 19), (106380728425393, 18), (186047948883328, 18), (30311244166753, 17),
   (466749839810675, 18), (686429646575251, 18), (971661742344283, 18), (133175306183679, 17), (177557452024558, 17),
   (231133638265425, 17), (294636954701581, 17), (368691038033341, 17), (453788756811422, 17), (550271070203945, 17),
   (658306187040692, 17), (777869319248569, 17), (908723493764983, 17), (105040204946228, 16), (120219359149386, 16),
   (136313029599996, 16), (153198054448571, 16), (170724691056809, 16), (188717051355292, 16), (206974268550898, 16),
   (225272476458152, 16), (243367662285437, 16), (260999426084925, 16), (277895645547568, 16), (293778004147126, 16),
   (308368295109554, 16), (321395365179289, 16), (332602513106519, 16), (341755111120263, 16), (348648176685728, 16),
   (353113590065781, 16), (355026634060874, 16), (354311528899465, 16), (35094565005384, 15), (344962151263554, 16),
   (336450769511817, 16), (325556661902256, 16), (31247721351896, 15), (297456856036487, 16), (280780043276814, 16),
   (262762635190492, 16), (243742038353947, 16), (224066531487575, 16), (204084261828087, 16), (184132426894747, 16),
   (164527152702953, 16), (145554542687502, 16), (127463303124921, 16), (110459255065655, 16), (947019265623616, 17),
   (803032911044744, 17), (673285885868451, 17), (557990440062551, 17), (456961957621112, 17), (369674675854223, 17),
   (29532570905934, 16), (232903101043375, 17), (181253806897198, 17), (139147961934567, 17), (105336473071676, 17),
   (78599787487321, 17), (577865708395529, 18), (41841881087046, 17), (298251837753283, 18), (209191678462234, 18),
   (144307562906168, 18), (978595402557837, 19), (6520247003055, 17), (426618834333199, 19), (273961611501714, 19),
   (17256844789337, 18), (106559535882152, 19), (644626192690798, 20), (381786954553569, 20), (22122334819058, 19),
   (125320523087539, 20), (69352747611892, 20), (374634041706112, 21), (197372359804204, 21), (101324484479249, 21),
   (506387688071287, 22), (24612770858879, 21), (116222051625842, 22), (532575018016149, 23), (236548132737708, 23),
   (101707372778487, 23), (422755189488443, 24), (169627368106376, 24), (655983218678784, 25), (244087465306515, 25),
   (872288816181913, 26), (298796462656132, 26), (978930546827611, 27), (306028628289706, 27), (910492627063714, 28),
   (257067414678584, 28), (686573813128305, 29), (172840983639153, 29), (408488586235289, 30), (902205965579907, 31),
   (185248682021962, 31), (35148157083845, 31), (611888831372621, 33), (969194996799213, 34), (138262127072485, 34),
   (175429503989084, 35), (194858024047957, 36), (185585143679842, 37), (147329706646149, 38), (935788996513105, 40),
   (445783630198697, 41), (141554277734465, 42), (224689329737247, 44), (0, 0)]

/-- The number of a table entry. -/
def digitsValue (d : Nat × Nat) : ℚ := (d.1 : ℚ) / 10 ^ d.2

/-- The table of dab_filltree2.c. -/
def ft2Table : List ℚ := ft2Digits.map digitsValue

/-- The loop `Calculate expected counts` with `start++`, dab_filltree.c:62-69, dab_filltree2.c:121-128.  The result is `expected`, `start` and
`end`. -/
def ftRange (table : List ℚ) (tsamples : Nat) : (todo i : Nat) → (expected : List ℚ) → (start fin : Nat) → Res (List ℚ × Nat × Nat)
  | 0, _, expected, start, fin => .ok (expected, wadd start 1, fin)
  | todo + 1, i, expected, start, fin => do
    let t ← rd table i
    let expected ← wr expected i (t * tsamples)
    if t * tsamples < 4 then ftRange table tsamples todo (i + 1) expected (if fin = 0 then i else start) fin
    else if 4 < t * tsamples then ftRange table tsamples todo (i + 1) expected start i
    else ftRange table tsamples todo (i + 1) expected start fin

/-- The two p-values of `dab_filltree2`, dab_filltree2.c:160-165, from the tables of a run.  `end - start` is computed in `unsigned int`. -/
noncomputable def fillTree2Pvalues (gammaQ : ℝ → ℝ → ℝ) (size tsamples : Nat) (range : List ℚ × Nat × Nat) :
    Option (List Nat × List Nat) → Res (Option (ℝ × ℝ))
  | none => .ok none
  | some (counts, position) => do
    let p ← chisqPearson gammaQ ((counts.map (Nat.cast : Nat → ℝ)).drop range.2.1) ((range.1.map (Rat.cast : ℚ → ℝ)).drop range.2.1)
      (wsub range.2.2 range.2.1)
    let p2 ← chisqGtest gammaQ position tsamples (size / 2)
    .ok (some (p, p2))

/-- `dab_filltree2`, dab_filltree2.c:97-173, with its p-values (`none` if the function gave up). -/
noncomputable def fillTree2Test (gammaQ : ℝ → ℝ → ℝ) (r : Nat) (src : Src) (ntuple tsamples : Nat) : Res (Option (ℝ × ℝ)) := do
  let range ← ftRange ft2Table tsamples 128 0 (List.replicate 128 0) 0 0
  let t ← fillTree2 r src ntuple tsamples
  fillTree2Pvalues gammaQ (if ntuple = 0 then 128 else ntuple) tsamples range t

/-! ### dab_filltree.c -/

/-- The digits of `targetData`, dab_filltree.c:33-35, in units of 1e-8. -/
def ft1Digits : List Nat :=
  [0, 0, 0, 0, 13333333, 20000000, 20634921, 17857143, 13007085, 8183633, 4338395, 1851828, 617270, 151193, 23520, 1680, 0, 0, 0, 0]

/-- `targetData`, dab_filltree.c:33-35. -/
def ft1Table : List ℚ := ft1Digits.map fun d : Nat => (d : ℚ) / 10 ^ 8

/-- The two p-values of `dab_filltree`, dab_filltree.c:93-96, from the tables of a run.  Of `expected` in the second call only the members
written in line 95 are given, which are the ones that the call reads; `tsamples/(size/2)` is a division of integers. -/
noncomputable def fillTreePvalues (gammaQ : ℝ → ℝ → ℝ) (size tsamples : Nat) (range : List ℚ × Nat × Nat) :
    Option (List Nat × List Nat) → Res (Option (ℝ × ℝ))
  | none => .ok none
  | some (counts, position) => do
    let p ← chisqPearson gammaQ ((counts.map (Nat.cast : Nat → ℝ)).drop range.2.1) ((range.1.map (Rat.cast : ℚ → ℝ)).drop range.2.1)
      (wsub range.2.2 range.2.1)
    let p2 ← chisqPearson gammaQ (position.map (Nat.cast : Nat → ℝ)) (List.replicate (size / 2) ((tsamples / (size / 2) : ℕ) : ℝ)) (size / 2)
    .ok (some (p, p2))

/-- After the first tree `j % (tsamples/CYCLES)` is computed, dab_filltree.c:90, which has no value if `tsamples/4` is 0; the
model has this after the loop, which makes no difference unless a later tree gives up. -/
def fillTreeCycle (tsamples : Nat) : Option (List Nat × List Nat) → Res (Option (List Nat × List Nat))
  | none => .ok none
  | some t => if tsamples ≠ 0 ∧ tsamples / 4 = 0 then .ub else .ok (some t)

/-- `dab_filltree`, dab_filltree.c:39-105, for `size >= 2`, with its p-values (`none` if the function gave up).  `key` are the rotated draws,
as in `fillTree`. -/
noncomputable def fillTreeTest (gammaQ : ℝ → ℝ → ℝ) (key : Nat → Nat) (ntuple tsamples : Nat) : Res (Option (ℝ × ℝ)) := do
  let range ← ftRange ft1Table tsamples 20 0 (List.replicate 20 0) 0 0
  let t ← fillTree key ntuple tsamples
  let t ← fillTreeCycle tsamples t
  fillTreePvalues gammaQ (if ntuple = 0 then 32 else ntuple) tsamples range t

end Dh
