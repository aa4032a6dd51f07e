import Verif.Source.ExpandInterface

/-!
# The items of the other files
-/

namespace Verif.Source

set_option maxRecDepth 100000
set_option Elab.async false

theorem expand_argument : expandFile macros argument_rs = some argumentItems := by decide +kernel
theorem expand_attribute : expandFile macros attribute_rs = some attributeItems := by decide +kernel
theorem expand_common : expandFile macros common_rs = some commonItems := by decide +kernel
theorem expand_dictionary : expandFile macros dictionary_rs = some dictionaryItems := by decide +kernel
theorem expand_literal : expandFile macros literal_rs = some literalItems := by decide +kernel
theorem expand_mixin : expandFile macros mixin_rs = some mixinItems := by decide +kernel
theorem expand_namespace : expandFile macros namespace_rs = some namespaceItems := by decide +kernel
theorem expand_term : expandFile macros term_rs = some termItems := by decide +kernel
theorem expand_whitespace : expandFile macros whitespace_rs = some whitespaceItems := by decide +kernel

end Verif.Source
