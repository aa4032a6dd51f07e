import Verif.Model.Nom

/-!
# Terminals: `whitespace.rs`, `term.rs`, and the `ws!(..)` parsers of
`literal.rs` and `common.rs`
-/

namespace Verif
open Nom

/-! ## `/repo/src/whitespace.rs` -/

/-- `/repo/src/whitespace.rs:11`: the white space characters. -/
def isWs (c : Char) : Bool := c == '\t' || c == '\n' || c == '\r' || c == ' '

/-- `/repo/src/whitespace.rs:8`: `"//" .. "\n"`. -/
def lineComment : P Char Unit :=
  seq (tag c!"//") fun _ => seq (takeUntil c!"\n") fun _ => seq (char '\n') fun _ => ret ()

/-- `/repo/src/whitespace.rs:11`: a run of white space. -/
def whitespace : P Char Unit := map (fun _ => ()) (takeWhile1 isWs)

/-- `/repo/src/whitespace.rs:14`: `"/*" .. "*/"`. -/
def blockComment : P Char Unit :=
  seq (tag c!"/*") fun _ => seq (takeUntil c!"*/") fun _ => seq (tag c!"*/") fun _ => ret ()

/-- `/repo/src/whitespace.rs:3-17` -/
def sp : P Char Str := recognize (many0 (alt [lineComment, whitespace, blockComment]))

/-- `/repo/src/whitespace.rs:20-31`: `ws!(p)` -/
def ws {α : Type} (p : P Char α) : P Char α :=
  seq sp fun _ => seq p fun s => seq sp fun _ => ret s

/-! ## `/repo/src/term.rs`

The types made by `generate_terms!` (lines 55-106). -/

/-- The types made by `generate_terms!` (`/repo/src/term.rs:55-106`). -/
inductive Punct where
  | openParen | closeParen | openBracket | closeBracket | openBrace | closeBrace
  | comma | minus | dot | ellipsis | colon | semiColon | lessThan | assign | greaterThan | qMark | asterisk
  deriving DecidableEq, Repr

/-- `/repo/src/term.rs:55-106`: the text of each symbol terminal. -/
def Punct.text : Punct → Str
  | .openParen => c!"("
  | .closeParen => c!")"
  | .openBracket => c!"["
  | .closeBracket => c!"]"
  | .openBrace => c!"{"
  | .closeBrace => c!"}"
  | .comma => c!","
  | .minus => c!"-"
  | .dot => c!"."
  | .ellipsis => c!"..."
  | .colon => c!":"
  | .semiColon => c!";"
  | .lessThan => c!"<"
  | .assign => c!"="
  | .greaterThan => c!">"
  | .qMark => c!"?"
  | .asterisk => c!"*"

/-- The types made by `generate_terms_for_names!` (`/repo/src/term.rs:108-312`). -/
inductive Kw where
  | or | optional | async | attribute | callback | const | deleter | dictionary | enum
  | getter | includes | inherit | interface | iterable | maplike | namespace | «partial»
  | required | setlike | setter | static | stringifier | typedef | unrestricted | symbol
  | negInfinity | byteString | domString | frozenArray | infinity | nan | usvString | any
  | boolean | byte | double | false | float | long | null | object | octet | sequence
  | short | true | unsigned | undefined | record | arrayBuffer | dataView | int8Array
  | int16Array | int32Array | uint8Array | uint16Array | uint32Array | uint8ClampedArray
  | float32Array | float64Array | arrayBufferView | bufferSource | promise | error
  | readOnly | mixin | implements | legacyCaller | constructor
  deriving DecidableEq, Repr

/-- `/repo/src/term.rs:108-312`: the text of each keyword terminal. -/
def Kw.text : Kw → Str
  | .or => c!"or"
  | .optional => c!"optional"
  | .async => c!"async"
  | .attribute => c!"attribute"
  | .callback => c!"callback"
  | .const => c!"const"
  | .deleter => c!"deleter"
  | .dictionary => c!"dictionary"
  | .enum => c!"enum"
  | .getter => c!"getter"
  | .includes => c!"includes"
  | .inherit => c!"inherit"
  | .interface => c!"interface"
  | .iterable => c!"iterable"
  | .maplike => c!"maplike"
  | .namespace => c!"namespace"
  | .partial => c!"partial"
  | .required => c!"required"
  | .setlike => c!"setlike"
  | .setter => c!"setter"
  | .static => c!"static"
  | .stringifier => c!"stringifier"
  | .typedef => c!"typedef"
  | .unrestricted => c!"unrestricted"
  | .symbol => c!"symbol"
  | .negInfinity => c!"-Infinity"
  | .byteString => c!"ByteString"
  | .domString => c!"DOMString"
  | .frozenArray => c!"FrozenArray"
  | .infinity => c!"Infinity"
  | .nan => c!"NaN"
  | .usvString => c!"USVString"
  | .any => c!"any"
  | .boolean => c!"boolean"
  | .byte => c!"byte"
  | .double => c!"double"
  | .false => c!"false"
  | .float => c!"float"
  | .long => c!"long"
  | .null => c!"null"
  | .object => c!"object"
  | .octet => c!"octet"
  | .sequence => c!"sequence"
  | .short => c!"short"
  | .true => c!"true"
  | .unsigned => c!"unsigned"
  | .undefined => c!"undefined"
  | .record => c!"record"
  | .arrayBuffer => c!"ArrayBuffer"
  | .dataView => c!"DataView"
  | .int8Array => c!"Int8Array"
  | .int16Array => c!"Int16Array"
  | .int32Array => c!"Int32Array"
  | .uint8Array => c!"Uint8Array"
  | .uint16Array => c!"Uint16Array"
  | .uint32Array => c!"Uint32Array"
  | .uint8ClampedArray => c!"Uint8ClampedArray"
  | .float32Array => c!"Float32Array"
  | .float64Array => c!"Float64Array"
  | .arrayBufferView => c!"ArrayBufferView"
  | .bufferSource => c!"BufferSource"
  | .promise => c!"Promise"
  | .error => c!"Error"
  | .readOnly => c!"readonly"
  | .mixin => c!"mixin"
  | .implements => c!"implements"
  | .legacyCaller => c!"legacycaller"
  | .constructor => c!"constructor"

/-- `/repo/src/term.rs:27`: the characters that may not follow a keyword. The Rust
code looks at the first *byte* of the remainder; the bytes tested are ASCII, and
the first byte of a non-ASCII character is never ASCII, so testing the first
character is the same. `nom::character::is_alphanumeric` is ASCII-only, as is
`Char.isAlphanum`. -/
def isIdentByte (c : Char) : Bool := c.isAlphanum || c == '_' || c == '-'

/-- `/repo/src/term.rs:18-36`: `ident_tag!` -/
def identTag (t : Str) : P Char Str := fun i =>
  match tag t i with
  | .ok i1 o =>
    match i1 with
    | c :: _ => if isIdentByte c then .err (.error i .tag) else .ok i1 o
    | [] => .ok i1 o
  | .err e => .err e
  | .diverge => .diverge

/-- `/repo/src/term.rs:8-13` -/
def punctP (p : Punct) : P Char Unit := map (fun _ => ()) (ws (tag p.text))

/-- `/repo/src/term.rs:45-50` -/
def kwP (k : Kw) : P Char Unit := map (fun _ => ()) (ws (identTag k.text))

/-! ## `Identifier` (`/repo/src/common.rs:76-92`) -/

/-- `/repo/src/common.rs:87`. (`Char.isAlphanum`, `Char.isAlpha`, `Char.isDigit`
are ASCII-only, like Rust's `is_ascii_*`.) -/
def isIdentChar (c : Char) : Bool := c.isAlphanum || c == '_' || c == '-'

/-- `/repo/src/common.rs:80-92` -/
def identP : P Char Str :=
  ws (seq (opt (char '_')) fun _ =>
      seq (recognize (seq (takeWhile1 Char.isAlpha) fun _ =>
                      seq (takeWhile isIdentChar) fun _ => ret ())) fun id =>
      ret id)

/-! ## Literals (`/repo/src/literal.rs`) -/

/-- `/repo/src/literal.rs:7-14` -/
def decP : P Char Str :=
  ws (recognize (
    seq (opt (char '-')) fun _ =>
    seq (oneOf c!"123456789") fun _ =>
    seq (takeWhile Char.isDigit) fun _ => ret ()))

/-- `char::is_ascii_hexdigit`, used in `/repo/src/literal.rs:22` -/
def isHexDigit (c : Char) : Bool :=
  c.isDigit || ('a' ≤ c && c ≤ 'f') || ('A' ≤ c && c ≤ 'F')

/-- `/repo/src/literal.rs:17-25` -/
def hexP : P Char Str :=
  ws (recognize (
    seq (opt (char '-')) fun _ =>
    seq (char '0') fun _ =>
    seq (alt [char 'x', char 'X']) fun _ =>
    seq (takeWhile isHexDigit) fun _ => ret ()))

/-- `/repo/src/literal.rs:32` -/
def isOctDigit (c : Char) : Bool := '0' ≤ c && c ≤ '7'

/-- `/repo/src/literal.rs:28-35` -/
def octP : P Char Str :=
  ws (recognize (
    seq (opt (char '-')) fun _ =>
    seq (char '0') fun _ =>
    seq (takeWhile isOctDigit) fun _ => ret ()))

/-- `/repo/src/literal.rs:42-49` -/
def stringP : P Char Str :=
  ws (seq (char '"') fun _ =>
      seq (takeWhile fun c => c != '"') fun s =>
      seq (char '"') fun _ => ret s)

/-- `/repo/src/literal.rs:103-108`: `[0-9]+\.[0-9]*` -/
def floatIntDot : P Char Unit :=
  seq (takeWhile1 Char.isDigit) fun _ =>
  seq (char '.') fun _ =>
  seq (takeWhile Char.isDigit) fun _ => ret ()

/-- `/repo/src/literal.rs:110-115`: `[0-9]*\.[0-9]+` -/
def floatDotInt : P Char Unit :=
  seq (takeWhile Char.isDigit) fun _ =>
  seq (char '.') fun _ =>
  seq (takeWhile1 Char.isDigit) fun _ => ret ()

/-- `/repo/src/literal.rs:119-122` and `130-133`: `[Ee][+-]?[0-9]+` -/
def floatExp : P Char Unit :=
  seq (alt [char 'e', char 'E']) fun _ =>
  seq (opt (alt [char '+', char '-'])) fun _ =>
  seq (takeWhile1 Char.isDigit) fun _ => ret ()

/-- `/repo/src/literal.rs:96-138` -/
def floatP : P Char Str :=
  ws (recognize (
    seq (opt (char '-')) fun _ =>
    seq (alt [
      seq (alt [floatIntDot, floatDotInt]) fun _ =>
        seq (opt floatExp) fun _ => ret (),
      seq (takeWhile1 Char.isDigit) fun _ =>
        seq floatExp fun _ => ret ()]) fun _ => ret ()))

end Verif
