import Verif.Source.Read
import Verif.Source.Text
import Verif.Source.Decls

/-!
# The declarations are those in the text
-/

namespace Verif.Source

set_option maxRecDepth 100000

/-- The rules of the macro `term!`, `/repo/src/term.rs:314-571` -/
def terms : Terms := [
  ([.id c!"OpenParen"], c!"OpenParen"),
  ([.id c!"CloseParen"], c!"CloseParen"),
  ([.id c!"OpenBracket"], c!"OpenBracket"),
  ([.id c!"CloseBracket"], c!"CloseBracket"),
  ([.id c!"OpenBrace"], c!"OpenBrace"),
  ([.id c!"CloseBrace"], c!"CloseBrace"),
  ([.p ','], c!"Comma"),
  ([.p '-'], c!"Minus"),
  ([.p '.'], c!"Dot"),
  ([.p '.', .p '.', .p '.'], c!"Ellipsis"),
  ([.p ':'], c!"Colon"),
  ([.p ';'], c!"SemiColon"),
  ([.p '<'], c!"LessThan"),
  ([.p '='], c!"Assign"),
  ([.p '>'], c!"GreaterThan"),
  ([.p '?'], c!"QMark"),
  ([.p '*'], c!"Asterisk"),
  ([.id c!"or"], c!"Or"),
  ([.id c!"optional"], c!"Optional"),
  ([.id c!"async"], c!"Async"),
  ([.id c!"attribute"], c!"Attribute"),
  ([.id c!"callback"], c!"Callback"),
  ([.id c!"const"], c!"Const"),
  ([.id c!"deleter"], c!"Deleter"),
  ([.id c!"dictionary"], c!"Dictionary"),
  ([.id c!"enum"], c!"Enum"),
  ([.id c!"getter"], c!"Getter"),
  ([.id c!"includes"], c!"Includes"),
  ([.id c!"inherit"], c!"Inherit"),
  ([.id c!"interface"], c!"Interface"),
  ([.id c!"iterable"], c!"Iterable"),
  ([.id c!"maplike"], c!"Maplike"),
  ([.id c!"namespace"], c!"Namespace"),
  ([.id c!"partial"], c!"Partial"),
  ([.id c!"required"], c!"Required"),
  ([.id c!"setlike"], c!"Setlike"),
  ([.id c!"setter"], c!"Setter"),
  ([.id c!"static"], c!"Static"),
  ([.id c!"stringifier"], c!"Stringifier"),
  ([.id c!"typedef"], c!"Typedef"),
  ([.id c!"unrestricted"], c!"Unrestricted"),
  ([.id c!"symbol"], c!"Symbol"),
  ([.p '-', .id c!"Infinity"], c!"NegInfinity"),
  ([.id c!"ByteString"], c!"ByteString"),
  ([.id c!"DOMString"], c!"DOMString"),
  ([.id c!"FrozenArray"], c!"FrozenArray"),
  ([.id c!"Infinity"], c!"Infinity"),
  ([.id c!"NaN"], c!"NaN"),
  ([.id c!"USVString"], c!"USVString"),
  ([.id c!"any"], c!"Any"),
  ([.id c!"boolean"], c!"Boolean"),
  ([.id c!"byte"], c!"Byte"),
  ([.id c!"double"], c!"Double"),
  ([.id c!"false"], c!"False"),
  ([.id c!"float"], c!"Float"),
  ([.id c!"long"], c!"Long"),
  ([.id c!"null"], c!"Null"),
  ([.id c!"object"], c!"Object"),
  ([.id c!"octet"], c!"Octet"),
  ([.id c!"sequence"], c!"Sequence"),
  ([.id c!"short"], c!"Short"),
  ([.id c!"true"], c!"True"),
  ([.id c!"unsigned"], c!"Unsigned"),
  ([.id c!"undefined"], c!"Undefined"),
  ([.id c!"record"], c!"Record"),
  ([.id c!"ArrayBuffer"], c!"ArrayBuffer"),
  ([.id c!"DataView"], c!"DataView"),
  ([.id c!"Int8Array"], c!"Int8Array"),
  ([.id c!"Int16Array"], c!"Int16Array"),
  ([.id c!"Int32Array"], c!"Int32Array"),
  ([.id c!"Uint8Array"], c!"Uint8Array"),
  ([.id c!"Uint16Array"], c!"Uint16Array"),
  ([.id c!"Uint32Array"], c!"Uint32Array"),
  ([.id c!"Uint8ClampedArray"], c!"Uint8ClampedArray"),
  ([.id c!"Float32Array"], c!"Float32Array"),
  ([.id c!"Float64Array"], c!"Float64Array"),
  ([.id c!"ArrayBufferView"], c!"ArrayBufferView"),
  ([.id c!"BufferSource"], c!"BufferSource"),
  ([.id c!"Promise"], c!"Promise"),
  ([.id c!"Error"], c!"Error"),
  ([.id c!"readonly"], c!"ReadOnly"),
  ([.id c!"mixin"], c!"Mixin"),
  ([.id c!"implements"], c!"Implements"),
  ([.id c!"legacycaller"], c!"LegacyCaller"),
  ([.id c!"constructor"], c!"Constructor")]

theorem readTerms_eq : readTerms term_rs = some terms := by decide +kernel

theorem read_argument : readFile terms argument_rs = some argumentDecls := by decide +kernel
theorem read_attribute : readFile terms attribute_rs = some attributeDecls := by decide +kernel
theorem read_common : readFile terms common_rs = some commonDecls := by decide +kernel
theorem read_dictionary : readFile terms dictionary_rs = some dictionaryDecls := by decide +kernel
theorem read_interface : readFile terms interface_rs = some interfaceDecls := by decide +kernel
theorem read_lib : readFile terms lib_rs = some libDecls := by decide +kernel
theorem read_literal : readFile terms literal_rs = some literalDecls := by decide +kernel
theorem read_mixin : readFile terms mixin_rs = some mixinDecls := by decide +kernel
theorem read_namespace : readFile terms namespace_rs = some namespaceDecls := by decide +kernel
theorem read_term : readFile terms term_rs = some termDecls := by decide +kernel
theorem read_types : readFile terms types_rs = some typesDecls := by decide +kernel
theorem read_whitespace : readFile terms whitespace_rs = some whitespaceDecls := by decide +kernel

/-- No name is declared twice. -/
theorem names_nodup : (decls.map Decl.name).Nodup := by decide +kernel

end Verif.Source
