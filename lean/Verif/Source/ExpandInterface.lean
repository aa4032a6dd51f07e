import Verif.Source.ExpandBase

/-!
# The items of `interface.rs`
-/

namespace Verif.Source

set_option maxRecDepth 100000
set_option Elab.async false

theorem expand_interface : expandFile macros interface_rs = some interfaceItems := by decide +kernel

end Verif.Source
