import Verif.BitPackLemmas

/-! Evaluation of the symbolic check on all 126 tables (the finite part of C11) -/

namespace Verif.BitPack

set_option maxRecDepth 100000 in
theorem packOk_all : ∀ n < 63, packOk (n + 1) = true := by decide +kernel

set_option maxRecDepth 100000 in
theorem unpackOk_all : ∀ n < 63, unpackOk (n + 1) = true := by decide +kernel

end Verif.BitPack
