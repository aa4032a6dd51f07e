import Verif.Model.Bytes

/-! # UTF-8 -/

namespace Verif.Spec
open Nom

/-- The UTF-8 encoding of a text (`String.utf8EncodeChar` is in Lean's library). -/
def utf8 (s : Str) : Bytes := s.flatMap String.utf8EncodeChar

/-- A position of an error, as a remainder in bytes. -/
def errUtf8 : Err Char → Err UInt8
  | .incomplete => .incomplete
  | .error p k => .error (utf8 p) k
  | .failure p k => .failure (utf8 p) k

/-- The same result with remainder and positions as bytes. -/
def resUtf8 {α : Type} : Res Char α → Res UInt8 α
  | .ok r a => .ok (utf8 r) a
  | .err e => .err (errUtf8 e)
  | .diverge => .diverge

end Verif.Spec
