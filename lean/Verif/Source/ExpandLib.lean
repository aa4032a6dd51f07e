import Verif.Source.ExpandTypes

/-!
# The items of `lib.rs`
-/

namespace Verif.Source

set_option maxRecDepth 100000
set_option Elab.async false

theorem expand_lib : expandFile macros lib_rs = some libItems := by decide +kernel

end Verif.Source
