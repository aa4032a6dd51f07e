# Formal model of rustwasm/weedle in Lean 4

`/repo` is a Web IDL parser written with nom 5 macros. The code has no I/O, no
state and no concurrency: every public entry point is a function from `&str` to
a result. All of its behaviour is therefore expressible as a pure function on
lists of Unicode scalar values, and all listed properties are statements about
that function.

## Layers

| file (lean/Verif/...) | what it is |
|---|---|
| `Model/Nom.lean` | the nom 5 combinators the code calls (`tag`, `take_while`, `opt!`, `many0!`, `alt!`, `separated_list!`, `recognize!`, ...) as functions `List σ → Res` |
| `Model/Lex.lean` | `whitespace.rs`, `term.rs` and the `ws!(..)` parsers of `literal.rs` and `common.rs` (`Identifier`, `DecLit`, ...), on characters |
| `Model/Ast.lean` | the AST types |
| `Model/Grammar.lean` | every `ast_types!` struct / enum as grammar data `G α`, plus `G.run`, the meaning `macros.rs` gives to them |
| `Model/Parse.lean` | the recursive knot and `weedle::parse` |
| `Model/Bytes.lean` | the terminals, `T::parse` and `weedle::parse` on the UTF-8 bytes of the input, with nom's slicing at byte offsets |
| `Model/Count.lean`, `Model/CountParse.lean` | the terminals and the whole parser once more, with a counter of the characters looked at (C67) |
| `Model/Types.lean` | the list of all types implementing `Parse` (`IsType`), used where a property speaks about each of them |
| `Source/*.lean` | the text of `/repo/src/*.rs`, a reader for it, the meaning of what was read, the expansion of its macros, and the proof that this is the model (C48, C50) |
| `Spec/*.lean` | the independent specification (see below); mentions no parser, except `BigStep` and `Repetition`, which say what an execution is |
| `Proof/*.lean` | helper lemmas |
| `Properties/*.lean` | the property theorems (and, beside each, a concrete case meeting its hypotheses) |
| `Conformance.lean` | the crate's own unit tests, evaluated on the model |
| `Documents.lean` | two of the documents of the crate's integration tests, evaluated on the model |

### Modelling decisions
* `&str` is `List Char` (Lean `Char` = Unicode scalar value, exactly the contents
  of a Rust `str`). `Model/Bytes.lean` models the terminals a second time, on bytes, and C46 proves that
  both models agree on all texts, so that all other properties hold of the parsers on bytes, too.
* A parse result is `ok rest value`, `err e` (with nom's three `Err` variants) or
  `diverge`. `diverge` stands for a run that does not return; it is produced only
  when recursion fuel is exhausted, and C01 proves that the fuel used is always
  sufficient. It is not caught by any combinator.
* Rust's mutual recursion (Type / NonAnyType / UnionMemberType / Argument) is cut
  at four recursion points (`NT`), each reached only after a terminal was
  consumed. `G.run` takes the parsers for the recursion points as a parameter.
* Mandatory terminals carry no information and are not stored in the AST;
  `Option<term!(x)>` is a `Bool`; `Parenthesized<T>`, `Punctuated<T,S>`, `Box<T>` etc. are
  represented by their payload; the 22 one-keyword variants of `NonAnyType` are
  one constructor indexed by an enumeration.
* The panic of `assert!` in `weedle::parse` is the explicit outcome `panic`.

## Specification

| file | what it says |
|---|---|
| `Spec/Lexical.lean` | trivia (white space and comments), regular expressions and their matches, longest match, the regular expressions of the literals |
| `Spec/Errors.lean` | beginnings of texts, for C54 |
| `Spec/Documented.lean` | the productions in the comments of the source, for C55 |
| `Spec/Lexing.lean` | `Lexes s ls`: the text `s` consists of the lexical items `ls` with trivia between them; items that would run together must be apart |
| `Spec/Grammar.lean` | for each AST node the set of item lists that spell it: `Spec.document ds ls` |
| `Spec/Print.lean` | a printer |
| `Spec/Kind.lean` | the kind of a definition from its leading keywords; balanced brackets |
| `Spec/Normal.lean` | what of a list of items is essential; counts of members |
| `Spec/Rename.lean`, `Map.lean`, `Collect.lean` | renaming names in items and in results; all strings in a result |
| `Spec/Nesting.lean` | the nesting of brackets of a text |
| `Spec/Alphabet.lean` | the characters of a text that are not in comments and strings |
| `Spec/WebIDL.lean` | the grammar of the Web IDL standard as data, its tokens, and derivations |
| `Spec/Relaxed.lean` | the alternatives and tokens that the parser accepts beyond the standard, and derivations in any such grammar |
| `Spec/Bytes.lean` | UTF-8 encoding of texts and results |
| `Spec/Nested.lean` | the family of texts of the lower bounds of C35 and C42 |
| `Spec/BigStep.lean` | executions without any fuel, with the number of terminals tried |
| `Spec/Repetition.lean` | repetitions of a parser |
| `Spec/Types.lean` | what may follow a part that is parsed by itself, spellings of single alternatives |
| `Spec/Places.lean` | a part of a value and its replacement, for C56 |
| `Spec/Size.lean` | size and depth of values, for C57 |
| `Spec/Recode.lean` | other ways of writing line ends, tabs and characters outside ASCII, for C58 |
| `Spec/Alike.lean` | items of one kind, texts and values that differ only in contents, for C59 |
| `Spec/MemberKind.lean` | kinds of members, types, extended attributes, values and arguments, told from items, for C61 |
| `Spec/Nullable.lean` | nullable types, kinds of the types of constants, told from items, for C61 |
| `Spec/Longest.lean` | prefixes of a text that are spellings, whatever follows, for C62 |
| `Spec/Visits.lean` | executions, with a charge for each attempt at a terminal, for C65 |
| `Spec/Trace.lean` | executions, with the list of terminals tried, for C66 and C67 |

## Trusted base
* Lean 4.33 kernel; axioms used: at most `propext`, `Classical.choice`,
  `Quot.sound` (standard), by every theorem of `Properties/`. No axioms of our own, no `sorry`, no `native_decide`,
  no `bv_decide`, no `implemented_by`, no `unsafe`. `decide +kernel` is used for finite tables only (keywords, symbols)
  for the fixed text of the source (C48, C50) and for concrete examples.
* The reading of nom 5 (not in the sandbox) written in `Model/Nom.lean`: `alt!`, `opt!`, `many0!`,
  `separated_list!`, `separated_nonempty_list!`, `do_parse!`, `cond!`, `map!`, `recognize!`, `tag!`, `char!`, `one_of!`,
  `take_while!`, `take_while1!`, `take_until!` in their complete versions (`CompleteStr` is not used by the crate: input
  is `&str` and nom's `complete` functions are named in `/repo/src/macros.rs`).
* The reading of `str::chars`, `str::find`, `str::is_char_boundary` and of nom's slicing of `&str` written in `Model/Bytes.lean`.
* The reading of `/repo/src` written in `Model/`; every definition cites file and lines. C48 and C50 replace trust in this
  transcription by trust in smaller things:
  - `Source/Text.lean` is the text of `/repo/src/*.rs` (rerun `tools/source.py` and compare);
  - `Source/Tree.lean` is how Rust cuts text into token trees, and matches and transcribes `macro_rules!`. Simplified: there is
    no hygiene (the names that rules introduce, such as `i`, are proved not to clash with names of fields); a fragment
    that was matched is put back as its tokens; the first rule that matches is taken, and a mismatch inside a fragment
    tries the next rule instead of stopping the compiler; only the fragment kinds `tt`, `ident`, `ty`, `expr`, `meta` exist;
  - `Source/Rust.lean` and `Source/Run.lean` are the syntax and the meaning of the Rust that is left: `struct`, `enum`, `type`,
    `impl Parse`, `impl From`, `match`, `let`, `if`, `Ok`, calls, closures `|x| e` and nom's macros. Lifetimes,
    visibilities, attributes other than `derive`, comments and the modules `test` are skipped. nom's own macros are not expanded: an invocation
    such as `alt!(..)` is read as the parser in `Model/Nom.lean`.
  - `Source/Typing.lean` is which values a Rust type has (C51), `Source/Derive.lean` is what deriving `PartialEq` and `Ord` makes,
    which traits the types of the standard library implement, and what deriving needs (C52). `Source/Debug.lean` is what
    deriving `Debug` and `Hash` makes, and how the standard library prints and hashes strings, lists, options and pairs (C60), `Source/Pretty.lean` the same for
    `{:#?}`, `Source/Clone.lean` is what deriving `Clone` and `Default` makes (C64).

  For all types and all texts the parsers obtained this way are those of `Model/`, and so is `weedle::parse`. C48 does the same
  with a reader of declarations (`Source/Read.lean`) and a meaning for them (`Source/Meaning.lean`) in place of macro expansion.

Evidence for the reading (not part of any proof): `Conformance.lean` ports the 159 unit tests that the crate contains
and evaluates the model on them (`by rfl`). The model was also compiled outside `/verif` and run on the six
documents of `/repo/tests/defs`: it returns as many definitions as the crate's own integration tests demand (dom 62,
html 325, mediacapture-streams 37, streams 37, webgpu 201, interface-constructor 1). Two of them, streams and
mediacapture-streams, are in `Documents.lean`, where the kernel runs the model on them.

Modelled: all of `src/*.rs` that is executed by a parser, i.e. `lib.rs`, `argument.rs`, `attribute.rs`, `common.rs`,
`dictionary.rs`, `interface.rs`, `literal.rs`, `macros.rs`, `mixin.rs`,
`namespace.rs`, `term.rs`, `types.rs`, `whitespace.rs`.

Not modelled: lifetimes and pointers (a `&str` is its contents), machine time and machine stack (the number of terminals
tried, the number of looks at characters and the number of nested recursive calls are, C35, C42, C43, C63, C65, C67), `Minus` and `Dot` inside the grammar (they are defined in `term.rs` and used nowhere), the constants' numerical values (literals are
strings in the crate, too).

## Findings: where the code disagrees with its documentation or with Web IDL
Each is a theorem or an `example` of the property named.
* `weedle::parse` never returns `Err`: on every input that it does not accept it panics (C02, C03). Its signature
  and documentation promise an error.
* The error of `Definition::parse`, and of every other enum, is at the beginning of the text whatever is wrong (C54_enum);
  `Vec<Option<T>>` implements `Parse` but fails on every text (C54_vec_empty).
* A document ending in a `//` comment without a line break panics (C05).
* The documented expression for hexadecimal literals demands digits, the parser accepts `0x` (C11_undocumented).
* The comments of six types do not describe what they accept (C55_disagree): `StringifierMember` takes attributes, `Special` takes
  `legacycaller`, the form of `IdentifierOrString` is that of another type, that of `AttributeNamespaceMember` has a typing error,
  the terminal `-Infinity` is called `Infinity`, and hexadecimal literals need no digits. Ten forms are too wide (C55_not_exact).
* Relative to Web IDL the parser rejects: attributes inside `sequence`, `FrozenArray`, `record` and after `required`,
  `ObservableArray`, `undefined?` as a return type, identifiers with a leading `-`, texts of trivia alone. Everything else in the
  Web IDL grammar is accepted (C44).
* Empty unions and unions with one member are accepted; `any` inside a union is read as an identifier (C31).
* `required [A] T x;` in dictionaries and `sequence<[A] T>`, which are Web IDL, are rejected (C30).
* Attributes of arguments are parsed once for each alternative of `Argument`; since they nest, work is exponential in
  the length of the text (C35), though linear for each fixed nesting of brackets (C43, C63, C65, C67). Recursion depth is the nesting of
  brackets (C42), so that a deeply nested document overflows the stack.
* Keywords are identifiers for this parser: `typedef includes x;` is a typedef of the type `includes`; `static foo();` in a mixin or
  namespace is an operation with return type `static`; alternatives are not retried after a keyword was taken as a modifier,
  so that `static ();` is rejected in interfaces (examples beside C32). Hence some texts that lack a mark are accepted with another
  meaning: `interface mixin : A {};` is an interface called `mixin`, without the colon a mixin called `A` (C68 lists them all).

## Approach per property
* C01: a syntactic guardedness judgement `Guarded` on grammar data; generic theorem: a guarded
  grammar run with fuel > input length does not diverge; fuel irrelevance; the fuel-free executions of
  `Spec/BigStep.lean` exist and are unique.
* C02, C03, C04, C34: unfolding of `parse`; every definition consumes something (C06).
* C05: corollary of C20, the text before the comment is parsed and the comment is left over.
* C06, C07: one induction over grammar data, from the corresponding facts on terminals.
* C08, C27: stated for arbitrary parsers on the nom layer, by induction on the loops.
* C09-C14: characterisation of each literal parser against an independent regular expression, with longest match.
* C15, C16: characterisation of `ws!`, `ident_tag!`.
* C17: a relational (two-run) simulation theorem by induction over grammar data.
* C18: corollary of C19, C20 and C36.
* C19: grammar spec `Spec/Grammar.lean` = for each AST node the set of item lists that spell it;
  induction over fuel + grammar data.
* C20: from the items of the specification the leaf parsers succeed or fail as they must (`Proof/CharStep.lean`), then
  induction on the derivation, production by production, with the look-ahead that excludes earlier alternatives.
* C21, C22, C23, C29: corollaries of C19 and C20 (+ printer, + uniqueness of items).
* C24, C25, C33: corollaries of C19.
* C26, C28, C30, C31: corollaries of C19 and C20.
* C32: the kind of each alternative's derivations is read off the specification; C39 by induction on it.
* C35: upper bound: a weight for each grammar expression (`Proof/Weights.lean`); lower bound: executions on `nestedDoc`.
* C36: items have disjoint first characters and are longest matches.
* C37: the table of items that may be adjacent, by a first/last/follow analysis of the specification (`Proof/Adjacent.lean`),
  finite table checked by `decide +kernel`.
* C38: renaming commutes with the specification; then C19 and C20.
* C40, C41: a measure of item lists and of results, equal by induction on the specification.
* C42, C43: a judgement `Tame` on grammar data: recursive calls only inside brackets, and the number of nested repetitions.
* C44: each nonterminal of the Web IDL grammar is interpreted as a set of token lists of the specification, and each production
  is shown to respect the interpretation (`Proof/WebIDL*.lean`); then induction on derivations, C19 and C20.
* C45: every definition and member ends in a semicolon, which separates from anything; items before it are unchanged by what follows;
  then C19, C20, C36.
* C46: a second model on bytes; simulation between the two models by induction over grammar data, from the terminals, these from
  facts on UTF-8 (first bytes and continuation bytes are disjoint, decoding inverts encoding).
* C47: `Part` and `Whole` (Proof/Ending.lean) collect soundness, completeness and the shape of spellings of one
  production; single alternatives inherit completeness from the choice they are in, because the kind of the value
  tells which alternative was taken.
* C48: the text is read by a function whose result is computed by the kernel (`decide +kernel`, `Source/Check.lean`); the
  meaning of each declaration and the model agree up to the number of nested calls, by rules for each combinator
  (`Source/Conv.lean`), applied declaration by declaration, with induction on the length of the text for the
  recursive types (`rec_all`); each value function is injective (`Source/Inj.lean`).
* C49: items and trivia consist of characters of the alphabet, or are comments and strings; induction on the items of an accepted text (C36).
* C50: the text of the files is cut into token trees, the `macro_rules!` definitions among them are applied until no
  invocation is left, and the resulting items are read (`Source/Tree.lean`, `Source/Rust.lean`); the kernel computes the result
  (`Source/Expand*.lean`). That executing the items is the meaning of the declarations (C48) is proved for all
  declarations, by induction on the macro expressions, fields and variants (`run_eq` in `Source/Lower.lean`).
* C51: a type checker for declarations is proved sound, by induction on the number of nested calls and on macro
  expressions (`Source/TypeSound.lean`); the kernel runs it on the declarations of the crate (`Source/TypeCheck.lean`).
* C52: values of a type are written as words of numbers, no word a proper beginning of another, such that the order of
  a dictionary on words is the derived order; induction on `HasType` (`Source/DeriveProof.lean`). Traits: a decision
  procedure, proved sound and run by the kernel.
* C53: `Spec/Relaxed.lean` lists the differences. The two directions are inductions: on spellings for what is derived
  (`Proof/Relaxed*.lean`), on derivations for what is accepted (`Proof/RelaxedSound.lean`, extending the proof of C44).
  That no alternative can be left out: a complete search for derivations, proved to find all of them, shows that the
  sample of the alternative has none without it (`Proof/RelaxedCheck.lean`).
* C54: terminals by unfolding after the trivia (C16); enums, lists and options by induction on the alternatives and on the
  loops of nom; that elements are not empty is C06.
* C55: `Pat` pairs the form as it is written with its lexemes. The forms are found in the text of the source by evaluation;
  the spellings of the values (C47) are included in the form by monotonicity, and the form in the spellings by cases.
* C56: `Place` (Verif/Spec/Places.lean) relates a value, a part of it and the replacement. For each kind of place, a spelling
  of the whole splits into what is before the part, the part, and what is after it (`Sub` in Verif/Proof/Places.lean), by the
  rules for sequences, lists and `avoiding`. Texts are then put together with trivia between the three pieces, and C47 leads
  back to the parsers.
* C57: sizes and depths of Rust values are in Verif/Spec/Size.lean. By induction over the spellings, each AST has at most ten
  values per lexeme (`Heavy`), and its depth is at most 12 times the nesting of the lexemes plus a constant per syntactic
  category (`Deep`). Types with parameters follow by induction on `TypeOf`, using what C28 says about repetitions.
* C58: the ways of writing (`Recoding`) are in Verif/Spec/Recode.lean. By induction over nom's macros, each parser made from
  the declarations commutes with them (`Comm`), since every condition in the source treats all white space characters alike
  and all characters outside ASCII alike (checked by the kernel over the declarations, `good_decls`). Only `sp` looks for a
  line feed; for it the characterisation of trivia (C16) is used.
* C59: kinds of items, texts that are alike and values that are alike are in Verif/Spec/Alike.lean. The two runs of each parser
  are compared step by step (`Link`), by induction over nom's macros and the nesting of calls. Items are compared by the
  characterisation of the leaves (C36). Integers are read only where no floating point number starts, which is so since
  `DefaultValue` and `ConstValue` try the floating point numbers before.
* C60: the derived `Debug` and `Hash` are written for all values in Verif/Source/Debug.lean. Two values of one type have the same
  shape up to variants, options and lengths of lists (`Twins`, by induction over `HasType`). Then the value and the remainder can be
  read off the text or the numbers, by induction. The escapes are a prefix code without unescaped quotes, names are words
  without brackets, UTF-8 has no byte 255. For `{:#?}` (Verif/Source/Pretty.lean) the indentation, a function on the text of an entry,
  is first replaced by a parameter for the depth (`pretty_eq`).
* C61: the classifications are in Verif/Spec/MemberKind.lean. By `interfaceMember_iff` and its like the items of a member are
  in the language of its variant; the classification of the items of that language is computed by cases, with the side conditions of
  the grammar (names are not keywords that an earlier alternative takes) excluding the other kinds. For values and
  arguments the items are those C62 gives, so that nothing is assumed about what follows.
* C62: Verif/Spec/Longest.lean says what it means that a text begins with a spelling, with no condition on what
  follows. For each parser one shows by cases on the value that, on a text beginning with a spelling, it succeeds and leaves no more than that spelling does
  (`part_far`): an earlier alternative either fails, or reads at least as far. With soundness (`Snd`) and uniqueness of values
  (`C47_unambiguous`) this gives both directions.
* C63: the cost of each parser is bounded by k * a * (distance + 1), where a bounds recursive calls one bracket deeper and the
  distance is what was consumed, except when the parser stops before a sign that no continuation accepts (`Lin`); failing alternatives
  are bounded by the distance to the next semicolon, which every later alternative that succeeds must pass (`Mem`), or by the text up
  to a brace which excludes all later alternatives (`Bars`).
* C64: the derived `Clone` and `Default` are written in Verif/Source/Clone.lean. `clone` is the identity by structural
  induction. Two default values of a type are equal since they have the same shape (`Twins`) and nothing in them was chosen
  (`Blank`). That a default exists is checked for each declaration: its fields are terminals, options or parameters.
* C65: Verif/Spec/Visits.lean charges each attempt at a terminal by the place at which it is made. The development of C63
  is repeated for single places: in place of the distance one shows that nothing behind the consumed text is visited, except before a
  sign that no continuation accepts. Repetitions visit a place in at most two neighbouring elements. Costs of any kind are sums over
  the visited places (`places`).
* C66: Verif/Spec/Trace.lean lists the attempts of a run. Numbers are the only terminals for which the order matters: `Neat` says
  of a grammar expression that decimal numbers are tried only where one with a fraction has failed, and so on, and is shown for the
  whole grammar; two terminals that are due at a place end at the same place (`Next.unique`), by the lemmas on lexemes in `Proof/CharStep.lean`.
* C67: Verif/Model/Count.lean repeats the terminals with counters; results are the same (`Same`), and depend only on the
  counted characters (`Local`). The cost of an attempt at a place is at most linear in the distance to the next place but one of
  C66 (`attempt_cost`): trivia without end and strings without end are last places, and the digits that a failing number with a fraction
  reads are read by the next integer, or by the next two if an octal number stops at 8 or 9. Summed along the places of C66, with the
  number of attempts at each place from C65, this is linear. Verif/Model/CountParse.lean repeats the whole parser with a counter;
  it counts the looks of the attempts of the execution (`told_parse`), and its result depends on the counted characters only.
* C68: a nondeterministic automaton reads the items of a document, a group in brackets as one letter (`Proof/Automaton.lean`); by
  induction over the spellings it accepts every document (`acc_definitions`). Two tables list pairs of states: pairs that
  have no word in common, and pairs that are reached by the same items. The kernel checks that both are closed under
  steps (`decide +kernel` over the finite set of states), so that by induction on the runs, with brackets matched by C39, two accepted texts that
  differ in one mark are at a pair of the second table when they come to it (`sync`); there the remaining words are in the first table,
  or begin with the items of an exception.
* C69: the automaton of C68, read with a word `z` that no name of the document is (`Acc z`, `Fr`): a step by a name does not read `z`, so where the
  word is read it is read as a keyword. The pair table then says, by finite checks in the kernel, that after a word is left out
  of one of the two texts the pair of states has no continuation in common, or the items around it are those of an exception
  (`lackWord`, `changeKw`, `lackKw` in `Proof/AutomatonWord.lean`).
* C70: brackets by counting (C39); the rest by the automaton and the pair tables of C68, with finite checks in the kernel for each kind of
  edit (`lackLit`, `changeNumber`, `changeString`, `changeMark`, `changeKwKw` in `Proof/AutomatonItem.lean`).
* C71: the scanner and the division into items commute in both directions (`lexes_relayout`, `lexes_back` in `Proof/Relayout.lean`), then
  C18; `shortest_text` and `shortest_le` by induction on the items.
* C72: as for C24, by induction on the productions, where each lexeme that is passed over has to be in the vocabulary (`Holds`, `Fixed` in
  `Proof/Contents.lean`).
* C73: as for C68, with the two automata two steps apart (`swap_at` in `Proof/AutomatonSwap.lean`). `MaySwap` (`Spec/Swap.lean`) lists the
  places where both orders are accepted; each of them is shown to be real.
* C74: `Spec/Pieces.lean` cuts a list of items by counting brackets. From the grammar, each definition and each member is balanced and has
  its only outer semicolon at its end, so the cut finds exactly these (`Proof/Pieces.lean`). Each piece is then parsed again by itself. `C74_prefix` is the same for `Definitions::parse`, from C34.
* C75: as for C74, with the cuts at commas (`Spec/Lists.lean`). From the grammar, no element has a comma outside of its brackets (`Bare` in
  `Proof/Lists.lean`), so the cut is at the separators and nowhere else. For unions the cut also has to tell
  whether a type has begun, since `or` is a name too.
* C76: each spelling of a definition or member is the attributes followed by something that does not depend on them and does not begin with `[`
  (`Fronted` in `Proof/Attached.lean`); the end of the list is found by the balance of brackets.
* C77: C52 says that the derived comparison is a total order, this says which one. `Before` (`Spec/Order.lean`) is the order of code points; that
  comparing the bytes of UTF-8 is the same is proved from the encoding of one character (`enc_lt` in `Source/OrderProof.lean`).
* C78: from C74 and C75: the pieces spell the elements of the result one by one, and any list of them spells the list of these elements
  (`Proof/Rearrange.lean`). `select` (`Spec/Rearrange.lean`) chooses places in any order.
* C79: `Vec` runs a parser as often as it succeeds (C34, C08); what ends with a semicolon is read alike whatever follows (C45), so the
  runs on a beginning of the text are the first runs on the text (`Proof/Broken.lean`).
* C80: the soundness proof of the type checker (C51) once more, with the places of values (`Source/TracedProof.lean`); more nested calls
  do not change a result, by induction on the macros.
* C81: by C80 each node is a result of the parser of its own type, and of that parser the conditions are known (C19, C21).
  Conversely each value of a type is taken apart by the declaration of the type (`Source/ExactBase.lean`, `Source/ExactItems.lean`), which
  gives an AST with the same value, by induction on the size (`Source/Exact.lean`); that AST can be printed, and the
  parser of its type reads it (C47, `Source/ExactTypes.lean`). Not so for types with parameters: no text gives the two
  values `long`, `long` of `Vec<IntegerType>`, which is read as one `long long`.
* C82: for each type, a definition around any AST of it that can be printed (`Source/Found.lean`), which by C21 is the result of a text;
  with C81 and C51 this covers whatever a parser returns. Tokens and variants: finite tables of definitions and texts, checked by the
  kernel. That the four tokens do not occur: a token in a value of a type is named in a declaration, by induction on typing (C51).
* C83: the outcome is a value of the type, by induction on typing, and meets the conditions of C81, by cases on what stands around the
  place (`Source/ReplaceProof.lean`); C81 gives the text. `Replaced` (`Source/Replace.lean`) replaces one occurrence.
* C84: as C83, with `Rearranged` (`Source/Replace.lean`) for one list at any depth. For several, the conditions but the last
  are kept by each step, and the last is only needed in the end.
* C85: as C83, with `Cleared` (`Source/Replace.lean`) for one `Some` at any depth.
