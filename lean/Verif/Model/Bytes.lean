import Verif.Model.Parse

/-!
# The terminals on bytes

A Rust `&str` is a slice of bytes that hold UTF-8, and nom cuts it at byte offsets: some of the
cuts are checked (`&s[n..]` panics if `n` is not between two characters), others are not
(`get_unchecked`, undefined behaviour). `Verif/Model/Nom.lean` and `Verif/Model/Lex.lean` look at a `&str`
as a list of characters, where a wrong cut cannot be expressed. This file models the same terminals on
bytes. Property C46 shows that no wrong cut happens and that both models agree.

As `Verif/Model/Nom.lean`, the part on `std` and nom 5 is our reading of their documentation and source, which
are not in the repository.
-/

namespace Verif
open Nom

/-- The bytes of a `&str`, `/repo/src/lib.rs:93`. -/
abbrev Bytes := List UInt8

namespace Byte

/-! ## `std` -/

/-- `0b10xx_xxxx`, a byte that continues a character; `std` at the cuts made under `/repo/src/macros.rs:1-41`. -/
def isCont (b : UInt8) : Bool := 0x80 ≤ b.toNat && b.toNat < 0xC0

/-- `str::is_char_boundary`; `std`, at the cuts made under `/repo/src/macros.rs:1-41`. -/
def isBoundary (i : Bytes) (n : Nat) : Bool :=
  n == 0 ||
    match i[n]? with
    | some b => !isCont b
    | none => n == i.length

/-- `core::str::next_code_point`, the step of `str::chars`, below `/repo/src/macros.rs:7-23,31-41` (bit operations written as arithmetic). Reading
beyond the end is undefined behaviour in Rust, here it is the end. -/
def nextChar : Bytes → Option (Char × Bytes)
  | [] => none
  | x :: r =>
    if x.toNat < 0x80 then some (Char.ofNat x.toNat, r) else
    match r with
    | [] => none
    | y :: r =>
      if x.toNat < 0xE0 then some (Char.ofNat (x.toNat % 32 * 64 + y.toNat % 64), r) else
      match r with
      | [] => none
      | z :: r =>
        if x.toNat < 0xF0 then
          some (Char.ofNat (x.toNat % 32 * 4096 + y.toNat % 64 * 64 + z.toNat % 64), r) else
        match r with
        | [] => none
        | w :: r =>
          some (Char.ofNat (x.toNat % 8 * 262144 + y.toNat % 64 * 4096 + z.toNat % 64 * 64 + w.toNat % 64), r)

/-- The loop of `str::chars`, below `/repo/src/macros.rs:31-41`, with an iteration bound. -/
def charsLoop : Nat → Bytes → Str
  | 0, _ => []
  | n + 1, i =>
    match nextChar i with
    | none => []
    | some (c, r) => c :: charsLoop n r

/-- `str::chars`, below `/repo/src/macros.rs:31-41` -/
def chars (i : Bytes) : Str := charsLoop i.length i

/-- The loop of `str::find` for a predicate, below `/repo/src/macros.rs:7-23`, with an iteration bound: the byte offset of the first character
that satisfies it. -/
def findLoop (f : Char → Bool) : Nat → Bytes → Option Nat
  | 0, _ => none
  | n + 1, i =>
    match nextChar i with
    | none => none
    | some (c, r) =>
      if f c then some 0 else (findLoop f n r).map (· + (i.length - r.length))

/-- `str::find` for a predicate, below `/repo/src/macros.rs:7-23`. -/
def find (f : Char → Bool) (i : Bytes) : Option Nat := findLoop f i.length i

/-- `str::find` for a string, below `/repo/src/macros.rs:25-29`: the first byte offset where the bytes of `t` are found. -/
def findSub (t : Bytes) : Bytes → Option Nat
  | [] => if t.isPrefixOf [] then some 0 else none
  | b :: bs => if t.isPrefixOf (b :: bs) then some 0 else (findSub t bs).map (· + 1)

/-- `char::len_utf8`, below `/repo/src/macros.rs:31-41` -/
def lenUtf8 (c : Char) : Nat :=
  if c.toNat < 0x80 then 1 else if c.toNat < 0x800 then 2 else if c.toNat < 0x10000 then 3 else 4

/-! ## nom -/

/-- `&s[n..]` and `&s[..n]`, below `/repo/src/macros.rs:1-41` and `recognize!` (`/repo/src/common.rs:85`). At an offset that is not between two characters there is a panic (or undefined
behaviour), i.e. the call does not return: `diverge`. -/
def takeSplit (n : Nat) : P UInt8 Bytes := fun i =>
  if isBoundary i n then .ok (i.drop n) (i.take n) else .diverge

/-- `tag!(t)`, `/repo/src/macros.rs:1-5`, the bytes of `t` are given: `Compare`, then `take_split(t.len())` -/
def tag (t : Bytes) : P UInt8 Bytes := fun i =>
  if t.isPrefixOf i then takeSplit t.length i else .err (.error i .tag)

/-- `take_while!(f)`, `/repo/src/macros.rs:7-14`: `split_at_position_complete` -/
def takeWhile (f : Char → Bool) : P UInt8 Bytes := fun i =>
  match find (fun c => !f c) i with
  | some n => takeSplit n i
  | none => takeSplit i.length i

/-- `take_while1!(f)`, `/repo/src/macros.rs:16-23`: `split_at_position1_complete` -/
def takeWhile1 (f : Char → Bool) : P UInt8 Bytes := fun i =>
  match find (fun c => !f c) i with
  | some 0 => .err (.error i .takeWhile1)
  | some n => takeSplit n i
  | none => if i.length = 0 then .err (.error i .takeWhile1) else takeSplit i.length i

/-- `take_until!(t)`, `/repo/src/macros.rs:25-29`: `find_substring`, then `take_split` -/
def takeUntil (t : Bytes) : P UInt8 Bytes := fun i =>
  match findSub t i with
  | some n => takeSplit n i
  | none => .err (.error i .takeUntil)

/-- `char!(c)`, `/repo/src/macros.rs:37-41`: the first of `chars()`, then `slice(c.len()..)` -/
def char (c : Char) : P UInt8 Char := fun i =>
  match nextChar i with
  | some (x, _) => if x = c then seq (takeSplit (lenUtf8 c)) (fun _ => ret c) i else .err (.error i .char)
  | none => .err (.error i .char)

/-- `one_of!(cs)`, `/repo/src/macros.rs:31-35`: the first of `chars()`, then `slice(c.len()..)` -/
def oneOf (cs : Str) : P UInt8 Char := fun i =>
  match nextChar i with
  | some (x, _) => if x ∈ cs then seq (takeSplit (lenUtf8 x)) (fun _ => ret x) i else .err (.error i .oneOf)
  | none => .err (.error i .oneOf)

/-- `recognize!(p)`, `/repo/src/common.rs:85`, `/repo/src/literal.rs:8`: the difference of the positions, then `slice(..index)` -/
def recognize {α : Type} (p : P UInt8 α) : P UInt8 Bytes := fun i =>
  match p i with
  | .ok i1 _ =>
    match takeSplit (i.length - i1.length) i with
    | .ok _ w => .ok i1 w
    | .err e => .err e
    | .diverge => .diverge
  | .err e => .err e
  | .diverge => .diverge

/-! ## `/repo/src/whitespace.rs` -/

/-- The bytes of the string constants of the crate (`/repo/src/term.rs:55-312`, `/repo/src/whitespace.rs:8-14`), which are all ASCII. -/
def ascii (t : Str) : Bytes := t.map fun c => UInt8.ofNat c.toNat

/-- `/repo/src/whitespace.rs:8` -/
def lineComment : P UInt8 Unit :=
  seq (tag (ascii c!"//")) fun _ => seq (takeUntil (ascii c!"\n")) fun _ => seq (char '\n') fun _ => ret ()

/-- `/repo/src/whitespace.rs:11` -/
def whitespace : P UInt8 Unit := map (fun _ => ()) (takeWhile1 isWs)

/-- `/repo/src/whitespace.rs:14` -/
def blockComment : P UInt8 Unit :=
  seq (tag (ascii c!"/*")) fun _ => seq (takeUntil (ascii c!"*/")) fun _ => seq (tag (ascii c!"*/")) fun _ => ret ()

/-- `/repo/src/whitespace.rs:3-17` -/
def sp : P UInt8 Bytes := recognize (many0 (alt [lineComment, whitespace, blockComment]))

/-- `/repo/src/whitespace.rs:20-31`: `ws!(p)` -/
def ws {α : Type} (p : P UInt8 α) : P UInt8 α :=
  seq sp fun _ => seq p fun s => seq sp fun _ => ret s

/-! ## `/repo/src/term.rs` -/

/-- `/repo/src/term.rs:27` (`nom::character::is_alphanumeric` is ASCII-only). -/
def isIdentByte (b : UInt8) : Bool :=
  (0x30 ≤ b.toNat && b.toNat ≤ 0x39) || (0x41 ≤ b.toNat && b.toNat ≤ 0x5A) || (0x61 ≤ b.toNat && b.toNat ≤ 0x7A) ||
    b.toNat == 0x5F || b.toNat == 0x2D

/-- `/repo/src/term.rs:18-36`: `ident_tag!`, looks at the first byte of the remainder -/
def identTag (t : Bytes) : P UInt8 Bytes := fun i =>
  match tag t i with
  | .ok i1 o =>
    match i1 with
    | b :: _ => if isIdentByte b then .err (.error i .tag) else .ok i1 o
    | [] => .ok i1 o
  | .err e => .err e
  | .diverge => .diverge

/-- `/repo/src/term.rs:8-13` -/
def punctP (p : Punct) : P UInt8 Unit := map (fun _ => ()) (ws (tag (ascii p.text)))

/-- `/repo/src/term.rs:45-50` -/
def kwP (k : Kw) : P UInt8 Unit := map (fun _ => ()) (ws (identTag (ascii k.text)))

/-! ## `/repo/src/common.rs`, `/repo/src/literal.rs` -/

/-- `/repo/src/common.rs:80-92` -/
def identP : P UInt8 Bytes :=
  ws (seq (opt (char '_')) fun _ =>
      seq (recognize (seq (takeWhile1 Char.isAlpha) fun _ =>
                      seq (takeWhile isIdentChar) fun _ => ret ())) fun id =>
      ret id)

/-- `/repo/src/literal.rs:7-14` -/
def decP : P UInt8 Bytes :=
  ws (recognize (
    seq (opt (char '-')) fun _ =>
    seq (oneOf c!"123456789") fun _ =>
    seq (takeWhile Char.isDigit) fun _ => ret ()))

/-- `/repo/src/literal.rs:17-25` -/
def hexP : P UInt8 Bytes :=
  ws (recognize (
    seq (opt (char '-')) fun _ =>
    seq (char '0') fun _ =>
    seq (alt [char 'x', char 'X']) fun _ =>
    seq (takeWhile isHexDigit) fun _ => ret ()))

/-- `/repo/src/literal.rs:28-35` -/
def octP : P UInt8 Bytes :=
  ws (recognize (
    seq (opt (char '-')) fun _ =>
    seq (char '0') fun _ =>
    seq (takeWhile isOctDigit) fun _ => ret ()))

/-- `/repo/src/literal.rs:42-49` -/
def stringP : P UInt8 Bytes :=
  ws (seq (char '"') fun _ =>
      seq (takeWhile fun c => c != '"') fun s =>
      seq (char '"') fun _ => ret s)

/-- `/repo/src/literal.rs:103-108` -/
def floatIntDot : P UInt8 Unit :=
  seq (takeWhile1 Char.isDigit) fun _ =>
  seq (char '.') fun _ =>
  seq (takeWhile Char.isDigit) fun _ => ret ()

/-- `/repo/src/literal.rs:110-115` -/
def floatDotInt : P UInt8 Unit :=
  seq (takeWhile Char.isDigit) fun _ =>
  seq (char '.') fun _ =>
  seq (takeWhile1 Char.isDigit) fun _ => ret ()

/-- `/repo/src/literal.rs:119-122` and `130-133` -/
def floatExp : P UInt8 Unit :=
  seq (alt [char 'e', char 'E']) fun _ =>
  seq (opt (alt [char '+', char '-'])) fun _ =>
  seq (takeWhile1 Char.isDigit) fun _ => ret ()

/-- `/repo/src/literal.rs:96-138` -/
def floatP : P UInt8 Bytes :=
  ws (recognize (
    seq (opt (char '-')) fun _ =>
    seq (alt [
      seq (alt [floatIntDot, floatDotInt]) fun _ =>
        seq (opt floatExp) fun _ => ret (),
      seq (takeWhile1 Char.isDigit) fun _ =>
        seq floatExp fun _ => ret ()]) fun _ => ret ()))

/-- The leaf parsers on bytes: `/repo/src/term.rs:8-13,45-50`, `/repo/src/common.rs:80-92`, `/repo/src/literal.rs:7-138`. The `&str` in the results are represented by their characters. -/
def leaf : ∀ α, Leaf α → P UInt8 α
  | _, .punct p => punctP p
  | _, .kw k => kwP k
  | _, .ident => map chars identP
  | _, .dec => map chars decP
  | _, .hex => map chars hexP
  | _, .oct => map chars octP
  | _, .float => map chars floatP
  | _, .string => map chars stringP

end Byte

/-- `T::parse(input)` (`/repo/src/lib.rs:92-94`) on the bytes of the input. -/
def G.parseBytes {α : Type} (g : G α) : P UInt8 α := g.parseWith Byte.leaf

/-- What a call of `weedle::parse` (`/repo/src/lib.rs:83-90`) can do. -/
inductive ByteOutcome where
  | ok (ds : List Definition)
  | err (e : Err UInt8)
  /-- the assertion on the remainder fails -/
  | panic
  /-- does not return otherwise: endless recursion, or a wrong cut of a string -/
  | diverge

/-- `weedle::parse`, `/repo/src/lib.rs:83-90`, on the bytes of the input. -/
def weedleParseBytes (raw : Bytes) : ByteOutcome :=
  match G.definitions.parseBytes raw with
  | .ok remaining parsed => if remaining.isEmpty then .ok parsed else .panic
  | .err e => .err e
  | .diverge => .diverge

end Verif
