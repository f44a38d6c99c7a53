import Verif.Proof.Operm5Sums

/-! The sums of table entries over all arrangements of 6, 7, 8 and 9 values. -/

namespace Dh

set_option maxRecDepth 100000 in
theorem lagFast_1 : lagFast 1 (arrangements 5) = 830600491629836866860 := by decide +kernel

set_option maxRecDepth 100000 in
theorem lagFast_2 : lagFast 2 (arrangements 5) = 5809960136663845112900 := by decide +kernel

set_option maxRecDepth 100000 in
theorem lagFast_3 : lagFast 3 (arrangements 5) = 46474387658595422943711 := by decide +kernel

set_option maxRecDepth 100000 in
theorem lagFast_4 : lagFast 4 (arrangements 5) = 418264657618260138250835 := by decide +kernel

end Dh
