import Verif.Source.ExpandBase

/-!
# The items of `types.rs`
-/

namespace Verif.Source

set_option maxRecDepth 100000
set_option Elab.async false

theorem expand_types : expandFile macros types_rs = some typesItems := by decide +kernel

end Verif.Source
