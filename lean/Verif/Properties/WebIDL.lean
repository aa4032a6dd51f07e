import Verif.Proof.WebIDLCheck
import Verif.Properties.Rejection

/-!
# C44: documents of Web IDL are accepted

`Derives N ls` (`Verif/Spec/WebIDL.lean`): the nonterminal `N` of the grammar in the Web IDL standard derives the
tokens `ls`. `Lexes s ls` (`Verif/Spec/Lexing.lean`): the text `s` consists of the tokens `ls` and trivia.
-/

namespace Verif.Properties
open Nom Spec Spec.WebIDL

/-- Every text whose tokens the Web IDL grammar derives is accepted. The only exception is a text of trivia alone, which
is rejected (example below). -/
theorem C44_accepted (s : Str) (ls : List Str) (h : Lexes s ls) (hd : Derives .Definitions ls) (hne : ls ≠ []) :
    ∃ ds, ds ≠ [] ∧ weedleParse s = .ok ds := by
  obtain ⟨ds, hds⟩ := WebIDL.derives_definitions hd
  have : ds ≠ [] := by
    rintro rfl
    exact hne hds
  exact ⟨ds, this, document_iff.2 (document_lexes.2 (.inr ⟨this, ls, h, hds⟩))⟩

set_option maxRecDepth 10000 in
/-- A document with every kind of definition and member. -/
def webIDLSample : Str := c!"[Exposed=Window, A=(b,c), D(long x), E=*, F=G(optional any x), H=\"x\"]
interface Foo : Bar {
  constructor(DOMString? x, optional [Clamp] long long y = -1, unsigned long... z);
  const unrestricted double inf = -Infinity;
  readonly attribute FrozenArray<(long or [A] Promise_ or (ArrayBuffer or undefined)?)>? attribute_;
  static attribute bigint required;
  inherit attribute [A] short s;
  stringifier;
  stringifier attribute USVString t;
  getter record<DOMString, any> includes(octet includes);
  static undefined f();
  Promise<undefined> (object interface);
  async iterable<long, [A] BigInt64Array>(any x);
  readonly maplike<long, Error>;
};
callback interface L { undefined f(any e); };
partial interface mixin M { stringifier readonly attribute byte b; };
namespace N { readonly attribute boolean b; float g(); };
partial dictionary D { required unsigned short a; sequence<any> b = []; double c = 1.5e3; };
enum E { \"a\", \"b\", };
callback F = undefined (symbol s);
typedef [A] (Foo or sequence<Foo>) Baz;
Foo includes M;
"

/-- The tokens of `webIDLSample`. -/
def webIDLTokens : List Str :=
  [c!"[", c!"Exposed", c!"=", c!"Window", c!",", c!"A", c!"=", c!"(", c!"b", c!",", c!"c", c!")", c!",", c!"D",
   c!"(", c!"long", c!"x", c!")", c!",", c!"E", c!"=", c!"*", c!",", c!"F", c!"=", c!"G", c!"(", c!"optional",
   c!"any", c!"x", c!")", c!",", c!"H", c!"=", c!"\"x\"", c!"]", c!"interface", c!"Foo", c!":", c!"Bar", c!"{",
   c!"constructor", c!"(", c!"DOMString", c!"?", c!"x", c!",", c!"optional", c!"[", c!"Clamp", c!"]", c!"long",
   c!"long", c!"y", c!"=", c!"-1", c!",", c!"unsigned", c!"long", c!"...", c!"z", c!")", c!";", c!"const",
   c!"unrestricted", c!"double", c!"inf", c!"=", c!"-Infinity", c!";", c!"readonly", c!"attribute", c!"FrozenArray",
   c!"<", c!"(", c!"long", c!"or", c!"[", c!"A", c!"]", c!"Promise_", c!"or", c!"(", c!"ArrayBuffer", c!"or",
   c!"undefined", c!")", c!"?", c!")", c!">", c!"?", c!"attribute_", c!";", c!"static", c!"attribute", c!"bigint",
   c!"required", c!";", c!"inherit", c!"attribute", c!"[", c!"A", c!"]", c!"short", c!"s", c!";", c!"stringifier",
   c!";", c!"stringifier", c!"attribute", c!"USVString", c!"t", c!";", c!"getter", c!"record", c!"<", c!"DOMString",
   c!",", c!"any", c!">", c!"includes", c!"(", c!"octet", c!"includes", c!")", c!";", c!"static", c!"undefined",
   c!"f", c!"(", c!")", c!";", c!"Promise", c!"<", c!"undefined", c!">", c!"(", c!"object", c!"interface", c!")",
   c!";", c!"async", c!"iterable", c!"<", c!"long", c!",", c!"[", c!"A", c!"]", c!"BigInt64Array", c!">", c!"(",
   c!"any", c!"x", c!")", c!";", c!"readonly", c!"maplike", c!"<", c!"long", c!",", c!"Error", c!">", c!";", c!"}",
   c!";", c!"callback", c!"interface", c!"L", c!"{", c!"undefined", c!"f", c!"(", c!"any", c!"e", c!")", c!";",
   c!"}", c!";", c!"partial", c!"interface", c!"mixin", c!"M", c!"{", c!"stringifier", c!"readonly", c!"attribute",
   c!"byte", c!"b", c!";", c!"}", c!";", c!"namespace", c!"N", c!"{", c!"readonly", c!"attribute", c!"boolean",
   c!"b", c!";", c!"float", c!"g", c!"(", c!")", c!";", c!"}", c!";", c!"partial", c!"dictionary", c!"D", c!"{",
   c!"required", c!"unsigned", c!"short", c!"a", c!";", c!"sequence", c!"<", c!"any", c!">", c!"b", c!"=", c!"[",
   c!"]", c!";", c!"double", c!"c", c!"=", c!"1.5e3", c!";", c!"}", c!";", c!"enum", c!"E", c!"{", c!"\"a\"", c!",",
   c!"\"b\"", c!",", c!"}", c!";", c!"callback", c!"F", c!"=", c!"undefined", c!"(", c!"symbol", c!"s", c!")", c!";",
   c!"typedef", c!"[", c!"A", c!"]", c!"(", c!"Foo", c!"or", c!"sequence", c!"<", c!"Foo", c!">", c!")", c!"Baz",
   c!";", c!"Foo", c!"includes", c!"M", c!";"]

set_option maxRecDepth 10000 in
example : ∃ ds, ds ≠ [] ∧ weedleParse webIDLSample = .ok ds :=
  C44_accepted webIDLSample webIDLTokens (lexes_sound (by decide +kernel)) (WebIDL.derives_sound (k := 200) (by decide +kernel))
    (by decide)

/-! Where the grammar in `Verif/Spec/WebIDL.lean` differs from the standard, the parser rejects what the standard allows. -/

example : weedleParse c!"typedef sequence<[A] long> x;" = .panic := by rfl
example : weedleParse c!"typedef FrozenArray<[A] long> x;" = .panic := by rfl
example : weedleParse c!"typedef record<DOMString, [A] long> x;" = .panic := by rfl
example : weedleParse c!"dictionary D { required [A] long x; };" = .panic := by rfl
example : weedleParse c!"interface I { attribute ObservableArray<long> x; };" = .panic := by rfl
example : weedleParse c!"interface I { undefined? f(); };" = .panic := by rfl
example : weedleParse c!"interface -I {};" = .panic := by rfl
example : weedleParse c!"[A=1] interface I {};" = .panic := by rfl
example : weedleParse c!" " = .panic := by rfl

/-- The converse of `C44_accepted` does not hold: the parser accepts `0x` as an integer. -/
theorem C44_converse_fails : ∃ s ls ds, Lexes s ls ∧ weedleParse s = .ok ds ∧ ¬ Derives .Definitions ls := by
  refine ⟨c!"interface I { const long x = 0x; };",
    [c!"interface", c!"I", c!"{", c!"const", c!"long", c!"x", c!"=", c!"0x", c!";", c!"}", c!";"], _,
    lexes_sound (by decide +kernel), rfl, fun h => ?_⟩
  have := WebIDL.derives_tokens h c!"0x" (by decide)
  exact WebIDL.not_token_0x this

end Verif.Properties
