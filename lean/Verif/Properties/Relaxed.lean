import Verif.Proof.RelaxedCheck
import Verif.Properties.WebIDL

/-!
# C53: what is accepted beyond Web IDL

`Verif/Spec/Relaxed.lean` lists the alternatives (`extra`) and the tokens by which the language of the parser is larger than
the grammar of the Web IDL standard. `relaxed` is the grammar with them, `loose` moreover allows every word as an
identifier. `Lexes s ls` (`Verif/Spec/Lexing.lean`): the text `s` consists of the tokens `ls` and trivia.
-/

namespace Verif.Properties
open Nom Spec Spec.WebIDL

/-- Every accepted text consists of tokens that the loose grammar derives: apart from words used as names, the list of
additional alternatives is complete. -/
theorem C53_within (s : Str) (ds : List Definition) (h : weedleParse s = .ok ds) :
    ∃ ls, Lexes s ls ∧ DerivesIn loose .Definitions ls := by
  rcases document_lexes.1 (document_iff.1 h) with ⟨rfl, rfl⟩ | ⟨-, ls, h1, h2⟩
  · exact ⟨[], ⟨[], [], rfl, .nil, .nil⟩, WebIDL.definitions_loose (ds := []) rfl⟩
  · exact ⟨ls, h1, WebIDL.definitions_loose h2⟩

example : ∃ ls, Lexes c!"interface interface { const B? x = null; };" ls ∧ DerivesIn loose .Definitions ls := C53_within _ _ rfl

/-- Every text whose tokens the relaxed grammar derives is accepted, unless there are no tokens. -/
theorem C53_accepted (s : Str) (ls : List Str) (h : Lexes s ls) (hd : DerivesIn relaxed .Definitions ls) (hne : ls ≠ []) :
    ∃ ds, ds ≠ [] ∧ weedleParse s = .ok ds := by
  obtain ⟨ds, hds⟩ := WebIDL.relaxed_definitions hd
  have : ds ≠ [] := by
    rintro rfl
    exact hne hds
  exact ⟨ds, this, document_iff.2 (document_lexes.2 (.inr ⟨this, ls, h, hds⟩))⟩

set_option maxRecDepth 10000 in
example : ∃ ds, ds ≠ [] ∧ weedleParse c!"[] partial interface A { [B=()] constructor([C] [D] (E)? x); const long? y = 0x; };" = .ok ds :=
  C53_accepted _ [c!"[", c!"]", c!"partial", c!"interface", c!"A", c!"{", c!"[", c!"B", c!"=", c!"(", c!")", c!"]",
      c!"constructor", c!"(", c!"[", c!"C", c!"]", c!"[", c!"D", c!"]", c!"(", c!"E", c!")", c!"?", c!"x", c!")", c!";",
      c!"const", c!"long", c!"?", c!"y", c!"=", c!"0x", c!";", c!"}", c!";"]
    (lexes_sound (by decide +kernel)) (WebIDL.finds_sound WebIDL.finds_relaxed (k := 60) (by decide +kernel)) (by decide)

/-- For each additional alternative a document, and its tokens. -/
def extraSamples : List (Str × List Str) := [
  (c!"A implements B;",
    [c!"A", c!"implements", c!"B", c!";"]),
  (c!"callback interface A : B { };",
    [c!"callback", c!"interface", c!"A", c!":", c!"B", c!"{", c!"}", c!";"]),
  (c!"partial interface A { constructor(); };",
    [c!"partial", c!"interface", c!"A", c!"{", c!"constructor", c!"(", c!")", c!";", c!"}", c!";"]),
  (c!"interface A { stringifier getter long f(); };",
    [c!"interface", c!"A", c!"{", c!"stringifier", c!"getter", c!"long", c!"f", c!"(", c!")", c!";", c!"}", c!";"]),
  (c!"interface A { static getter long f(); };",
    [c!"interface", c!"A", c!"{", c!"static", c!"getter", c!"long", c!"f", c!"(", c!")", c!";", c!"}", c!";"]),
  (c!"interface A { inherit readonly attribute long a; };",
    [c!"interface", c!"A", c!"{", c!"inherit", c!"readonly", c!"attribute", c!"long", c!"a", c!";", c!"}", c!";"]),
  (c!"interface A { const long? x = 1; };",
    [c!"interface", c!"A", c!"{", c!"const", c!"long", c!"?", c!"x", c!"=", c!"1", c!";", c!"}", c!";"]),
  (c!"interface A { const B? x = 1; };",
    [c!"interface", c!"A", c!"{", c!"const", c!"B", c!"?", c!"x", c!"=", c!"1", c!";", c!"}", c!";"]),
  (c!"interface A { const B x = null; };",
    [c!"interface", c!"A", c!"{", c!"const", c!"B", c!"x", c!"=", c!"null", c!";", c!"}", c!";"]),
  (c!"callback A = any ([B] [C] long x);",
    [c!"callback", c!"A", c!"=", c!"any", c!"(", c!"[", c!"B", c!"]", c!"[", c!"C", c!"]", c!"long", c!"x", c!")", c!";"]),
  (c!"dictionary A { required long x = 1; };",
    [c!"dictionary", c!"A", c!"{", c!"required", c!"long", c!"x", c!"=", c!"1", c!";", c!"}", c!";"]),
  (c!"typedef () A;",
    [c!"typedef", c!"(", c!")", c!"A", c!";"]),
  (c!"typedef (long) A;",
    [c!"typedef", c!"(", c!"long", c!")", c!"A", c!";"]),
  (c!"typedef (long or Promise<any>) A;",
    [c!"typedef", c!"(", c!"long", c!"or", c!"Promise", c!"<", c!"any", c!">", c!")", c!"A", c!";"]),
  (c!"[] typedef long A;",
    [c!"[", c!"]", c!"typedef", c!"long", c!"A", c!";"]),
  (c!"[A=()] typedef long B;",
    [c!"[", c!"A", c!"=", c!"(", c!")", c!"]", c!"typedef", c!"long", c!"B", c!";"]),
  (c!"typedef record<long, any> A;",
    [c!"typedef", c!"record", c!"<", c!"long", c!",", c!"any", c!">", c!"A", c!";"]),
  (c!"typedef record<B, any> A;",
    [c!"typedef", c!"record", c!"<", c!"B", c!",", c!"any", c!">", c!"A", c!";"]),
  (c!"typedef record<sequence<any>, any> A;",
    [c!"typedef", c!"record", c!"<", c!"sequence", c!"<", c!"any", c!">", c!",", c!"any", c!">", c!"A", c!";"]),
  (c!"typedef record<object, any> A;",
    [c!"typedef", c!"record", c!"<", c!"object", c!",", c!"any", c!">", c!"A", c!";"]),
  (c!"typedef record<symbol, any> A;",
    [c!"typedef", c!"record", c!"<", c!"symbol", c!",", c!"any", c!">", c!"A", c!";"]),
  (c!"typedef record<DataView, any> A;",
    [c!"typedef", c!"record", c!"<", c!"DataView", c!",", c!"any", c!">", c!"A", c!";"]),
  (c!"typedef record<FrozenArray<any>, any> A;",
    [c!"typedef", c!"record", c!"<", c!"FrozenArray", c!"<", c!"any", c!">", c!",", c!"any", c!">", c!"A", c!";"]),
  (c!"typedef record<record<DOMString, any>, any> A;",
    [c!"typedef", c!"record", c!"<", c!"record", c!"<", c!"DOMString", c!",", c!"any", c!">", c!",", c!"any", c!">", c!"A", c!";"]),
  (c!"typedef record<undefined, any> A;",
    [c!"typedef", c!"record", c!"<", c!"undefined", c!",", c!"any", c!">", c!"A", c!";"]),
  (c!"typedef record<Promise<any>, any> A;",
    [c!"typedef", c!"record", c!"<", c!"Promise", c!"<", c!"any", c!">", c!",", c!"any", c!">", c!"A", c!";"])]

def accepted (s : Str) : Bool :=
  match weedleParse s with
  | .ok _ => true
  | _ => false

theorem accepted_ok {s : Str} (h : accepted s = true) : ∃ ds, weedleParse s = .ok ds := by
  unfold accepted at h
  split at h
  · rename_i ds h'
    exact ⟨ds, h'⟩
  · cases h

/-- Without the alternative `p`, the document is accepted but not derived. -/
def sampleOf (p : (NonTerminal × Alt) × (Str × List Str)) : Bool :=
  lexes p.2.1 p.2.2 && accepted p.2.1 && WebIDL.excludes (WebIDL.search (extra.erase p.1) true) 40 .Definitions p.2.2

set_option maxRecDepth 100000 in
theorem samples_ok : (extra.zip extraSamples).all sampleOf = true := by decide +kernel

/-- None of the additional alternatives can be left out: there is an accepted text whose tokens are not derived without it. -/
theorem C53_needed (p : NonTerminal × Alt) (hp : p ∈ extra) : ∃ s ls ds, Lexes s ls ∧ weedleParse s = .ok ds ∧
    ¬ DerivesIn ⟨withExtra (extra.erase p), Identifier, Integral⟩ .Definitions ls := by
  have hl : extra.length = extraSamples.length := by decide +kernel
  obtain ⟨i, hi, rfl⟩ := List.mem_iff_getElem.1 hp
  have hm : (extra[i], extraSamples[i]'(hl ▸ hi)) ∈ extra.zip extraSamples :=
    List.mem_iff_getElem.2 ⟨i, by simpa [← hl] using hi, by simp⟩
  have := List.all_eq_true.1 samples_ok _ hm
  simp only [sampleOf, Bool.and_eq_true] at this
  obtain ⟨⟨h1, h2⟩, h3⟩ := this
  obtain ⟨ds, h2⟩ := accepted_ok h2
  exact ⟨_, _, ds, lexes_sound h1, h2, WebIDL.excludes_sound (WebIDL.covers_extra _) h3⟩

example : ∃ s ls ds, Lexes s ls ∧ weedleParse s = .ok ds ∧
    ¬ DerivesIn ⟨withExtra (extra.erase extra[0]), Identifier, Integral⟩ .Definitions ls := C53_needed _ (List.getElem_mem _)

set_option maxRecDepth 100000 in
/-- Nor can `0x` as an integer. -/
theorem C53_zero_x : ∃ s ls ds, Lexes s ls ∧ weedleParse s = .ok ds ∧
    ¬ DerivesIn ⟨withExtra extra, Identifier, Integer⟩ .Definitions ls :=
  ⟨c!"dictionary A { long x = 0x; };", [c!"dictionary", c!"A", c!"{", c!"long", c!"x", c!"=", c!"0x", c!";", c!"}", c!";"], _,
    lexes_sound (by decide +kernel), rfl, WebIDL.excludes_sound (WebIDL.covers_zx _) (k := 40) (by decide +kernel)⟩

set_option maxRecDepth 100000 in
/-- Nor can terminals as identifiers: accepted texts are derived in the loose grammar, but not all in the relaxed grammar. -/
theorem C53_words : ∃ s ls ds, Lexes s ls ∧ weedleParse s = .ok ds ∧ ¬ DerivesIn relaxed .Definitions ls :=
  ⟨c!"interface interface {};", [c!"interface", c!"interface", c!"{", c!"}", c!";"], _,
    lexes_sound (by decide +kernel), rfl, WebIDL.excludes_sound (WebIDL.covers_extra _) (k := 40) (by decide +kernel)⟩

/-- Not everything that the loose grammar derives is accepted: `long long` is a type and not a `long` called `long`. -/
theorem C53_loose_rejected : ∃ s ls, Lexes s ls ∧ DerivesIn loose .Definitions ls ∧ weedleParse s = .panic := by
  refine ⟨c!"typedef long long;", [c!"typedef", c!"long", c!"long", c!";"], lexes_sound (by decide +kernel), ?_, rfl⟩
  refine WebIDL.D_inv ((WebIDL.std [.n .ExtendedAttributeList, .n .Definition, .n .Definitions]).of
    ⟨[], _, rfl, (WebIDL.eps_le).of rfl, [c!"typedef", c!"long", c!"long", c!";"], [], rfl, ?_, (WebIDL.eps_le).of rfl⟩)
  refine (WebIDL.std [.n .Typedef]).of ((WebIDL.std [.t c!"typedef", .n .TypeWithExtendedAttributes, .identifier, .t c!";"]).of
    ⟨[c!"typedef"], _, rfl, (WebIDL.tok_le _).of rfl, [c!"long"], _, rfl, ?_, [c!"long"], [c!";"], rfl,
      (WebIDL.name_le c!"long").of ⟨WebIDL.word_of (by decide), .inl rfl⟩, (WebIDL.tok_le _).of rfl⟩)
  exact (WebIDL.attributedType_le (.mk none (.single (.nonAny (.integer (.long false) false))))).of
    ⟨[], [c!"long"], rfl, rfl, ⟨[c!"long"], [], rfl, ⟨[], [c!"long"], rfl, rfl, rfl⟩, rfl⟩, by decide⟩

end Verif.Properties
