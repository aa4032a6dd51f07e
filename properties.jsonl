{"id": "C01", "title": "Parsing terminates on every input", "statement": "For every input string, weedle::parse and every T::parse of the crate return or panic after finitely many steps: the mutually recursive type / attribute / argument parsers never recurse without consuming input and no repetition loops for ever; the nesting of recursive calls is bounded linearly by the input length.", "quantifier": "all input strings, all AST types T of the crate", "why_tests_cant": "A test shows termination of one input; left recursion or an empty-match loop appears only on specific unseen inputs.", "anchors": ["src/common.rs: impl Parse for Vec<T>, Punctuated", "src/types.rs: Type, NonAnyType, UnionMemberType, RecordKeyType", "src/attribute.rs: ExtendedAttribute", "src/argument.rs: Argument", "src/lib.rs: parse"]}
{"id": "C02", "title": "weedle::parse never returns Err", "statement": "weedle::parse(s) never yields Err(..): for every string the outcome is either Ok(definitions) or a panic. (The advertised Result is never Err; malformed input is reported by the assert! panic.)", "quantifier": "all input strings", "why_tests_cant": "Tests only exercise inputs that parse; that no string at all reaches the Err arm is a universal claim.", "anchors": ["src/lib.rs: parse", "src/common.rs: impl Parse for Vec<T>"]}
{"id": "C03", "title": "Ok means the whole input was consumed", "statement": "weedle::parse(s) = Ok(ds) exactly when Definitions::parse(s) = Ok((\"\", ds)); it panics exactly when Definitions::parse leaves a non-empty remainder. No trailing text is ever silently dropped.", "quantifier": "all input strings", "why_tests_cant": "Tests check a handful of remainders.", "anchors": ["src/lib.rs: parse, Definitions"]}
{"id": "C04", "title": "Blank documents", "statement": "weedle::parse(\"\") = Ok([]), but every non-empty input consisting only of white space and complete comments makes weedle::parse panic.", "quantifier": "all non-empty strings of white space and complete comments", "why_tests_cant": "Infinitely many blank documents; a unit test can try a few.", "anchors": ["src/lib.rs: parse", "src/whitespace.rs: sp"]}
{"id": "C05", "title": "Unterminated trailing line comment panics", "statement": "Appending '//' and any text without a newline to any non-empty valid document makes weedle::parse panic, although the definitions before it were all recognised.", "quantifier": "all valid documents, all newline-free comment texts", "why_tests_cant": "Quantifies over all documents and comment bodies.", "anchors": ["src/whitespace.rs: sp", "src/lib.rs: parse"]}
{"id": "C06", "title": "The remainder is a suffix of the input", "statement": "Whenever T::parse(s) = Ok((rest, v)), rest is a suffix of s, and for every T other than Option/Vec/Punctuated it is a strictly shorter suffix.", "quantifier": "all input strings, all AST types T", "why_tests_cant": "Must hold for every input; tests look at fixed remainders.", "anchors": ["src/lib.rs: Parse", "src/common.rs", "src/macros.rs: __ast_struct, __ast_enum"]}
{"id": "C07", "title": "Only recoverable errors, positioned inside the input", "statement": "No T::parse ever returns Err::Incomplete or Err::Failure; every error is Err::Error((pos, kind)) and pos is a suffix of the input.", "quantifier": "all input strings, all AST types T", "why_tests_cant": "Universal over all failing inputs.", "anchors": ["src/macros.rs: tag, take_while, take_while1, take_until, one_of, char", "src/term.rs: ident_tag"]}
{"id": "C08", "title": "Generic combinators behave as documented for every element parser", "statement": "For every parser T: Option<T> never fails recoverably and consumes nothing when T fails; Vec<T> returns the maximal sequence of successive T results and stops only where T fails; tuples run their parts left to right on the remainder of the previous one; Box<T> is transparent.", "quantifier": "all parsers T (any Parse implementation whose remainder is a suffix), all inputs", "why_tests_cant": "Quantifies over all implementations of the trait.", "anchors": ["src/common.rs: impl Parse for Option<T>, Box<T>, Vec<T>, (T, U), (T, U, V)"]}
{"id": "C09", "title": "Identifier follows its documented regular expression", "statement": "Identifier::parse(s) succeeds iff, after skipping trivia, s starts with a match of /_?[A-Za-z][0-9A-Z_a-z-]*/; it takes the longest match, returns it without the leading underscore, and skips the trivia after it.", "quantifier": "all input strings", "why_tests_cant": "Infinite set of inputs; longest-match is a universal claim.", "anchors": ["src/common.rs: Identifier"]}
{"id": "C10", "title": "Decimal literals follow their regular expression", "statement": "DecLit::parse(s) succeeds iff after trivia s starts with a match of /-?[1-9][0-9]*/, and returns exactly the longest such match verbatim.", "quantifier": "all input strings", "why_tests_cant": "Infinite set of inputs.", "anchors": ["src/literal.rs: DecLit"]}
{"id": "C11", "title": "Hexadecimal literals", "statement": "HexLit::parse accepts exactly /-?0[Xx][0-9A-Fa-f]*/ (longest match, verbatim). The documented form /-?0[Xx][0-9A-Fa-f]+/ is violated: `0x` with no digit is accepted.", "quantifier": "all input strings", "why_tests_cant": "Infinite set of inputs; the deviation from the documented regex is invisible to the existing tests.", "anchors": ["src/literal.rs: HexLit"]}
{"id": "C12", "title": "Octal literals and integer classification", "statement": "OctLit::parse accepts exactly /-?0[0-7]*/ (longest). IntegerLit::parse classifies each literal as Dec, Hex or Oct in precisely one way, with Hex preferred over Oct for 0x.", "quantifier": "all input strings", "why_tests_cant": "Infinite set of inputs.", "anchors": ["src/literal.rs: OctLit, IntegerLit"]}
{"id": "C13", "title": "Float literals follow their regular expression", "statement": "FloatValueLit::parse succeeds iff after trivia the input starts with a match of /-?(([0-9]+\\.[0-9]*|[0-9]*\\.[0-9]+)([Ee][+-]?[0-9]+)?|[0-9]+[Ee][+-]?[0-9]+)/, and returns the longest match verbatim.", "quantifier": "all input strings", "why_tests_cant": "Ordered choice without backtracking versus a regular language: agreement must hold on all strings.", "anchors": ["src/literal.rs: FloatValueLit"]}
{"id": "C14", "title": "String literals are verbatim", "statement": "StringLit::parse succeeds iff after trivia the input starts with \"body\" with no quote in body, and returns body unchanged: white space, comment markers and newlines inside are preserved.", "quantifier": "all input strings", "why_tests_cant": "Infinite set of bodies.", "anchors": ["src/literal.rs: StringLit"]}
{"id": "C15", "title": "Keywords never match inside longer words", "statement": "A keyword terminal K::parse(s) succeeds iff after trivia s starts with the keyword text and the next character is not [0-9A-Za-z_-]; so `DOMStringMap` is never read as DOMString followed by Map.", "quantifier": "all keyword terminals, all input strings", "why_tests_cant": "Universal over words that extend a keyword.", "anchors": ["src/term.rs: ident_tag, generate_terms_for_names"]}
{"id": "C16", "title": "Trivia skipping is maximal", "statement": "The white-space skipper consumes a prefix made only of white space, complete line comments and complete block comments (ending at the first */), and what remains starts with none of those; after any T::parse that consumed input the remainder starts with no trivia.", "quantifier": "all input strings", "why_tests_cant": "Universal claim about maximality.", "anchors": ["src/whitespace.rs: sp, ws"]}
{"id": "C17", "title": "Leading trivia is irrelevant", "statement": "Prefixing any trivia to the input changes neither the value nor (once something was consumed) the remainder of T::parse; weedle::parse(trivia + s) = weedle::parse(s) whenever s contains at least one recognised definition.", "quantifier": "all trivia strings, all inputs s (valid or not), all AST types T", "why_tests_cant": "Two-run property over all pairs of inputs.", "anchors": ["src/whitespace.rs: ws", "src/lib.rs: parse"]}
{"id": "C18", "title": "Layout insensitivity", "statement": "Two texts with the same sequence of lexical items (words, punctuation, string literals), separated by arbitrary trivia (non-empty between two words), have the same outcome: same definitions or both panic, whether or not they are valid WebIDL.", "quantifier": "all pairs of texts with the same lexical items", "why_tests_cant": "Two-run property over all pairs of inputs.", "anchors": ["src/whitespace.rs", "src/term.rs", "src/lib.rs"]}
{"id": "C19", "title": "Soundness: the AST describes exactly the consumed text", "statement": "If weedle::parse(s) = Ok(ds) then s is, token by token and up to trivia, a spelling of ds according to the WebIDL grammar documented on each AST type: every token of the text is accounted for in ds, in order. Likewise for each T::parse and the text it consumed.", "quantifier": "all input strings that parse", "why_tests_cant": "Universal over all accepted inputs.", "anchors": ["src/lib.rs: Definition", "src/interface.rs", "src/mixin.rs", "src/namespace.rs", "src/dictionary.rs", "src/types.rs", "src/argument.rs", "src/attribute.rs"]}
{"id": "C20", "title": "Completeness: every grammatical document is parsed to its AST", "statement": "For every list of definitions ds and every spelling s of ds according to the grammar (type names not reserved words unless escaped with _, arbitrary trivia between tokens), weedle::parse(s) = Ok(ds): ordered choice never commits to a wrong alternative and never rejects.", "quantifier": "all ASTs, all spellings", "why_tests_cant": "Quantifies over all documents; PEG prefix-capture bugs hide in unseen combinations.", "anchors": ["src/lib.rs: Definition", "src/macros.rs: __ast_enum", "src/types.rs", "src/interface.rs", "src/mixin.rs", "src/namespace.rs", "src/dictionary.rs", "src/argument.rs", "src/attribute.rs"]}
{"id": "C21", "title": "Round trip", "statement": "Printing any well-formed list of definitions and parsing the result gives the same list back.", "quantifier": "all well-formed ASTs", "why_tests_cant": "Infinite, recursive data.", "anchors": ["src/lib.rs: parse"]}
{"id": "C22", "title": "Unambiguity", "statement": "A text has at most one well-formed AST: two different lists of definitions never share a spelling.", "quantifier": "all pairs of ASTs, all texts", "why_tests_cant": "Universal over pairs.", "anchors": ["src/lib.rs: Definition"]}
{"id": "C23", "title": "Documents concatenate", "statement": "If s1 and s2 are documents parsed to ds1 and ds2 then s1 followed by s2 parses to ds1 followed by ds2; the number and order of definitions is preserved.", "quantifier": "all pairs of valid documents", "why_tests_cant": "Two-run property over all pairs.", "anchors": ["src/lib.rs: Definitions", "src/common.rs: impl Parse for Vec<T>"]}
{"id": "C24", "title": "Zero-copy: every string in the AST is a slice of the input", "statement": "Every identifier and literal text stored in the result is a contiguous slice of the input.", "quantifier": "all accepted inputs, all strings stored in the result", "why_tests_cant": "Universal over results.", "anchors": ["src/common.rs: Identifier", "src/literal.rs"]}
{"id": "C25", "title": "Defaults only on optional arguments", "statement": "In every result, at any nesting depth, an argument with a default value has `optional` set; variadic arguments have neither.", "quantifier": "all accepted inputs, all arguments at any depth", "why_tests_cant": "Invariant of all results.", "anchors": ["src/argument.rs: SingleArgument"]}
{"id": "C26", "title": "Enums are non-empty and may have one trailing comma", "statement": "Every parsed enum has at least one value; a single trailing comma after the values does not change the result, and an empty enum or two trailing commas are rejected.", "quantifier": "all inputs", "why_tests_cant": "Universal over enum bodies.", "anchors": ["src/common.rs: PunctuatedNonEmpty", "src/lib.rs: EnumDefinition"]}
{"id": "C27", "title": "Separated lists do not swallow a trailing separator", "statement": "Punctuated<T,S>::parse returns the maximal list t1 S t2 S ... tn; if a separator is not followed by an element it is left unconsumed at the start of the remainder.", "quantifier": "all element and separator parsers, all inputs", "why_tests_cant": "Quantifies over all T and S.", "anchors": ["src/common.rs: Punctuated"]}
{"id": "C28", "title": "Multi-word integer types are read greedily", "statement": "`long long` (with any trivia in between) is always one LongLong type and never Long followed by something named long; `unsigned` binds to the following long/short.", "quantifier": "all inputs starting with these words", "why_tests_cant": "Universal over continuations and trivia.", "anchors": ["src/types.rs: IntegerType"]}
{"id": "C29", "title": "Underscore escaping", "statement": "Writing an identifier with a leading underscore yields the same AST as the bare identifier, and allows reserved words as names; the underscore is not part of the AST.", "quantifier": "all identifiers, all documents", "why_tests_cant": "Two-run property.", "anchors": ["src/common.rs: Identifier"]}
{"id": "C30", "title": "Valid WebIDL that is rejected", "statement": "The current WebIDL productions `required` + attributed type in dictionaries and sequence<attributed type> are not accepted: every such document makes weedle::parse panic.", "quantifier": "all documents containing such a member, for the given templates", "why_tests_cant": "Universal over templates instances.", "anchors": ["src/dictionary.rs: DictionaryMember", "src/types.rs: SequenceType"]}
{"id": "C31", "title": "Over-permissive unions", "statement": "A union type with zero or one member is accepted, and `any` inside a union is accepted as an identifier type, at any position where a type is allowed.", "quantifier": "all positions of a type", "why_tests_cant": "Universal over contexts.", "anchors": ["src/types.rs: UnionType, UnionMemberType"]}
{"id": "C32", "title": "The kind of a definition is determined by its leading keywords", "statement": "If a definition parses as variant V then, after extended attributes, its first tokens are the keywords of V; conversely two definitions with different leading keywords never yield the same variant.", "quantifier": "all accepted inputs", "why_tests_cant": "Invariant of all results.", "anchors": ["src/lib.rs: Definition"]}
{"id": "C33", "title": "A successful definition always ends with a semicolon", "statement": "Each Definition / member parse that succeeds consumed text whose last token is `;`.", "quantifier": "all accepted inputs", "why_tests_cant": "Universal over inputs.", "anchors": ["src/lib.rs: Definition", "src/interface.rs: InterfaceMember", "src/mixin.rs: MixinMember", "src/namespace.rs: NamespaceMember", "src/dictionary.rs: DictionaryMember"]}
{"id": "C34", "title": "Definitions::parse stops only where no definition starts", "statement": "If Definitions::parse(s) = Ok((rest, ds)) then Definition::parse(rest) fails, and ds is exactly the sequence obtained by running Definition::parse repeatedly.", "quantifier": "all inputs", "why_tests_cant": "Universal over inputs.", "anchors": ["src/common.rs: impl Parse for Vec<T>", "src/lib.rs: Definitions"]}
{"id": "C36", "title": "The lexical items of a text are unique", "statement": "Every text can be read as a sequence of lexical items (words, numbers, strings, punctuation) and trivia in at most one way, and every text accepted by weedle::parse has such a reading, which spells the returned definitions.", "quantifier": "all input strings and all item sequences", "why_tests_cant": "the parser is scannerless and tries many alternatives at each position; that none of them ever splits the text differently is a statement about all texts", "anchors": ["/repo/src/whitespace.rs", "/repo/src/term.rs", "/repo/src/literal.rs", "/repo/src/common.rs: Identifier"]}
{"id": "C37", "title": "Stray separators are rejected: the exact table of adjacent punctuation", "statement": "For every ordered pair of punctuation marks, either some accepted text has the two marks next to each other (with only trivia between), or no accepted text has; the table of which pairs are which is given explicitly. In particular a text with two commas in a row, an empty statement, a comma before a closing bracket other than the `}` of an enumeration, or an opening bracket followed by a comma makes weedle::parse panic.", "quantifier": "all input strings and all pairs of punctuation marks", "why_tests_cant": "that no text at all with a given pair of neighbours is accepted is a statement about infinitely many texts", "anchors": ["src/term.rs", "src/common.rs: Punctuated, PunctuatedNonEmpty", "src/lib.rs: parse", "src/lib.rs: EnumDefinition"]}
{"id": "C38", "title": "Names are opaque", "statement": "Consistently renaming identifiers that are not keywords in a text (with or without underscores, with any layout) changes nothing but these identifiers in the result of weedle::parse; if the renaming can be undone, the renamed text is accepted exactly when the original is.", "quantifier": "all texts, all renamings of non-keyword words to non-keyword words", "why_tests_cant": "two-run property over all documents and all renamings", "anchors": ["src/common.rs: Identifier", "src/lib.rs: parse", "src/term.rs: word! and ident_tag!"]}
{"id": "C39", "title": "Brackets are balanced in accepted texts", "statement": "In every text accepted by weedle::parse the brackets ( ) [ ] { } < > among its lexical items are properly nested and matched; a text with an unmatched bracket (in particular one with more opening than closing brackets of some sort, or the reverse) makes weedle::parse panic, no matter where the bracket is. Brackets inside string literals and comments do not count.", "quantifier": "all input strings", "why_tests_cant": "that no unbalanced text whatsoever is accepted is a statement about infinitely many texts of unbounded nesting depth", "anchors": ["src/lib.rs: parse", "src/common.rs: Parenthesized, Bracketed, Braced", "src/types.rs: AngleBracketed types: sequence, FrozenArray, Promise, record", "src/term.rs"]}
{"id": "C35", "title": "Work done by backtracking", "statement": "The number of terminals tried while parsing is finite and at most exponential in the length of the input (at most 43260 * 408^length for weedle::parse, w * 408^length with w fixed for each T::parse). The bound cannot be improved to a polynomial: there are accepted texts, one for every n, of 10 n + 22 characters, on which weedle::parse tries at least 2^n terminals, because an argument's attribute list is parsed again for each alternative of Argument and attribute lists nest.", "quantifier": "all input strings, all types implementing Parse; for the lower bound, every n", "why_tests_cant": "a bound for every input, and growth beyond every polynomial, are statements about infinitely many inputs", "anchors": ["src/lib.rs: parse, Definition", "src/argument.rs: Argument, SingleArgument, VariadicArgument", "src/attribute.rs: ExtendedAttribute, ExtendedAttributeArgList"]}
{"id": "C40", "title": "The result loses nothing but layout, escapes and trailing commas", "statement": "If weedle::parse returns the same definitions for two texts, then the two texts consist of the same lexical items in the same order, up to whitespace and comments, an underscore in front of an identifier, and a comma before a closing brace (which only enumerations allow). Texts that differ in anything else, e.g. in an empty pair of brackets, in the order of attributes or in the spelling of a number, have different results; and printing the result gives back the items of the text.", "quantifier": "all pairs of accepted strings", "why_tests_cant": "that no two of infinitely many texts are conflated cannot be settled by comparing finitely many", "anchors": ["src/lib.rs: parse, Definition and all the AST types", "src/common.rs: Identifier, Punctuated, PunctuatedNonEmpty", "src/literal.rs: IntegerLit, FloatLit, StringLit", "src/whitespace.rs: sp"]}
{"id": "C41", "title": "Semicolons count definitions and members", "statement": "The number of semicolons among the lexical items of a text accepted by weedle::parse (not counting those in string literals and comments) is the number of definitions returned plus the number of all their members. In particular no definition or member is dropped, duplicated or merged with another one.", "quantifier": "all accepted strings", "why_tests_cant": "an equation about every accepted text, with unboundedly many definitions and members", "anchors": ["src/lib.rs: parse, Definition", "src/interface.rs: InterfaceMembers", "src/mixin.rs: MixinMembers", "src/namespace.rs: NamespaceMembers", "src/dictionary.rs: DictionaryMembers"]}
{"id": "C42", "title": "Recursion depth is the nesting of brackets", "statement": "While weedle::parse reads a document, the recursive parsers (types, union members, arguments) are never active inside one another more often than round and angle brackets are nested in the text (brackets in strings and comments not counted): with stack space for that many recursive calls the parser behaves as with unlimited space, whether the text is accepted or not. The bound is tight: for every n there is an accepted document with brackets nested n + 1 deep on which a stack with room for n calls overflows. So input without deep brackets cannot overflow the stack, however long it is.", "quantifier": "all input strings, all stack sizes; for tightness, every n", "why_tests_cant": "the depth of recursion on every input, including rejected ones, and an unbounded family for tightness", "anchors": ["src/lib.rs: parse, Definition", "src/types.rs: Type, NonAnyType, UnionMemberType, Promise/Sequence/FrozenArray/RecordType", "src/argument.rs: Argument", "src/attribute.rs: ExtendedAttributeArgList"]}
{"id": "C43", "title": "Polynomial work for bounded nesting", "statement": "If round and angle brackets are nested at most d deep in a text of n characters, weedle::parse tries at most 7514 * 287^d * (n+1)^(2d+4) terminals on it, accepted or not: for each fixed nesting the work is polynomial in the length, and the exponential behaviour of C35 needs deep nesting.", "quantifier": "all input strings, all d", "why_tests_cant": "an upper bound for the work on every input", "anchors": ["src/lib.rs: parse, Definition", "src/common.rs: Punctuated, PunctuatedNonEmpty", "src/argument.rs: Argument", "src/attribute.rs: ExtendedAttributeList"]}
{"id": "C44", "title": "Documents of Web IDL are accepted", "statement": "Every non-empty text whose tokens are derived by the grammar of the Web IDL standard (productions transcribed from its appendix; without attributes inside sequence, FrozenArray, record and after required, without ObservableArray, and with extended attributes in the six named forms) is accepted by weedle::parse. The converse does not hold.", "quantifier": "all token lists derived by the grammar, all texts with these tokens, all white space and comments between them", "why_tests_cant": "infinitely many derivations; the parser is an ordered-choice parser over characters in which keywords are also identifiers, so an earlier alternative can take a text meant for a later one", "anchors": ["src/lib.rs: parse, module documentation", "src/interface.rs", "src/mixin.rs", "src/dictionary.rs", "src/types.rs", "src/attribute.rs"]}
{"id": "C45", "title": "What follows a definition does not influence it", "statement": "If Definition::parse, or the parser of a member of an interface, mixin, namespace or dictionary, returns a result on a text, then it returns the same result when the text behind what it consumed is replaced by any other text; it then stops behind the whitespace and comments with which the other text begins. Hence a document with at least one definition can be extended only by whitespace and comments or by another document, and if a document that was cut short is accepted at all, the result is a beginning of the result of the whole document.", "quantifier": "all input strings, all continuations, all cuts", "why_tests_cant": "quantifies over all texts and all texts that may follow; the parsers of types and values, by contrast, do look at what follows", "anchors": ["src/lib.rs: parse, Definition", "src/interface.rs: InterfaceMember", "src/mixin.rs: MixinMember", "src/namespace.rs: NamespaceMember", "src/dictionary.rs: DictionaryMember"]}
{"id": "C46", "title": "Strings are cut between characters only", "statement": "On the UTF-8 bytes of any text, no parser of the crate cuts a string inside of a character (which would be a panic or undefined behaviour in nom's string slicing), although comments are searched for and cut by bytes and the character after a keyword is judged by its first byte. Remainders and the positions of errors begin between two characters, and result, remainder and position are those of the model in which a string is a list of characters.", "quantifier": "all texts of Unicode scalar values, all types implementing Parse", "why_tests_cant": "depends on every combination of characters of one to four bytes at every place of a text", "anchors": ["src/macros.rs: tag, take_while, take_while1, take_until, one_of, char", "src/whitespace.rs: sp", "src/term.rs: ident_tag", "src/common.rs: Identifier", "src/literal.rs", "src/lib.rs: parse"]}
{"id": "C47", "title": "Each type that can be parsed accepts exactly its spellings", "statement": "For every type T of the crate that implements Parse and cannot be empty (literals, types, arguments, attributes, members, the fourteen kinds of definitions, terminals): T::parse on a whole text consumes all of it and returns a exactly if the text is a spelling of a, with white space and comments anywhere between its tokens. The same holds in front of `;`, `,` or a closing bracket, and for members and definitions in front of any text that does not begin with white space or a comment. No text spells two values of one type.", "quantifier": "all types T in the list, all texts, all remainders, all values", "why_tests_cant": "both directions range over all texts and all values; alternatives are ordered and keywords are identifiers, so an earlier alternative may take a text", "anchors": ["src/lib.rs: Parse, Definition", "src/types.rs", "src/literal.rs", "src/argument.rs", "src/attribute.rs", "src/interface.rs", "src/mixin.rs", "src/namespace.rs", "src/dictionary.rs", "src/common.rs", "src/term.rs"]}
{"id": "C48", "title": "Each type is parsed as its declaration in the source text says", "statement": "For every type T that can be written down with the declarations of the crate (structs, enums, aliases, terminals, and Option, Box, Vec, tuples, Parenthesized, Braced, Punctuated, MayBeNull, ... of such types) and every text: T::parse reads the fields of a struct one after the other in the order in which the source text lists them and returns them under their names, takes the first variant of an enum that succeeds, and otherwise fails with the error of the last; and the results that all other properties speak about contain everything that is in the returned Rust value: different ASTs are different Rust values. weedle::parse returns, fails or panics as Definitions::parse, made from the text of the source, says.", "quantifier": "all types over the declarations in src/*.rs, all texts", "why_tests_cant": "it ranges over all texts, and over the infinitely many types that the generic declarations make", "anchors": ["src/macros.rs: ast_types!, weedle!, parser!", "src/common.rs", "src/lib.rs: Parse, parse", "src/term.rs: generate_terms!, generate_terms_for_names!, term!", "src/whitespace.rs: ws!, sp"]}
{"id": "C49", "title": "Outside of comments and strings, documents are written in a fixed ASCII alphabet", "statement": "If weedle::parse returns Ok, every character of the text that is neither in a comment nor in a string is a tab, line feed, carriage return, space, ASCII letter or digit, or one of _-+.*()[]{}<>,:;=?, and no comment or string is left open at the end. Each of these characters does occur in some accepted document. A text with any other character in code (a byte order mark at the beginning, a no-break space, a form feed, a typographic quote, `#`, `!`, ...) or with an unfinished comment or string makes weedle::parse panic, whatever else it contains.", "quantifier": "all texts, all positions in them, all characters", "why_tests_cant": "it excludes a character at every position of every text", "anchors": ["src/whitespace.rs: sp, ws!", "src/term.rs", "src/common.rs: Identifier", "src/literal.rs", "src/lib.rs: parse"]}
{"id": "C50", "title": "The crate's own macros, expanded, give these parsers", "statement": "Expanding the crate's macros (ast_types!, parser!, weedle!, generate_terms!, ident_tag!, term!, ws! and the crate's wrappers of nom's macros) by their macro_rules rules, exactly as these stand in the text of the source, succeeds in every file and gives each type one implementation of Parse. Executing these implementations (match, let, if, ?, Ok, From, Default, nom's macros) returns, for every type and every text, the rest and value or the error that the model returns. The function weedle::parse as it stands in the text returns all definitions when Definitions::parse consumes everything, the error when it fails, and fails its assertion otherwise. For every enum, From<T> is implemented exactly for the payload types of its variants, these are different, and the conversion makes that variant.", "quantifier": "all types that can be written with the crate's declarations, all input texts, all enums", "why_tests_cant": "A wrong macro rule can affect any type that passes through it and only on some texts; the property is about all types and all texts.", "anchors": ["src/macros.rs", "src/term.rs: generate_terms!, ident_tag!, term!", "src/whitespace.rs: ws!", "src/lib.rs: parse", "src/*.rs: ast_types!"]}
{"id": "C51", "title": "Parsers return values of their declared types", "statement": "Whatever text T::parse succeeds on, the value it returns is a value of the type T as declared in the source: every struct has exactly its declared fields in the declared order, each with a value of its declared type, where type parameters stand for the arguments; every enum holds one of its declared variants with a payload of the declared type; tuple and unit structs, Option, Vec, Box, pairs and triples likewise, down to string slices, booleans and unit structs. In particular the result of weedle::parse is a value of Definitions.", "quantifier": "all types that can be written with the crate's declarations, all input texts", "why_tests_cant": "The shape of the result must be right for every text, and there are infinitely many types with arguments.", "anchors": ["src/macros.rs: ast_types!, __ast_struct!, __ast_tuple_struct!, __ast_enum!", "src/*.rs: declarations"]}
{"id": "C52", "title": "Results can be compared: derived Eq and Ord are lawful, and derived traits are available", "statement": "For any two values of the same type, the derived comparison has a result; comparing the other way round gives the opposite; it is transitive; it is Equal exactly for identical values, which is exactly when the derived == holds. So two results of weedle::parse are == exactly when they are the same list of definitions. Clone, Debug, Eq, PartialEq, Ord, PartialOrd and Hash are implemented for all types. Every derived implementation can be derived: the components implement the trait and the required traits are derived too. Every terminal has a default value.", "quantifier": "all types that can be written with the crate's declarations, all their values", "why_tests_cant": "The laws are about all pairs and triples of values of infinitely many recursive types.", "anchors": ["src/macros.rs: #[derive] in ast_types!", "src/term.rs: #[derive] in generate_terms!", "src/*.rs: #[derive(Copy)], #[derive(Default)]"]}
{"id": "C53", "title": "What is accepted beyond Web IDL is exactly a short list", "statement": "Take the grammar of the Web IDL standard and add the listed alternatives: `A implements B;`, inheritance of callback interfaces, constructors in partial interfaces, special operations after stringifier and static, inherited readonly attributes, nullable constants and null as a constant, several lists of attributes before an argument's type, default values of required members, unions of fewer than two members and of promises, empty attribute lists and empty identifier lists, records with other keys, and `0x` as an integer. Every text with at least one token that the extended grammar derives is accepted. Every accepted text is derived by the extended grammar when moreover every word may be an identifier. None of the alternatives can be left out.", "quantifier": "all input texts, all sequences of tokens, all derivations, all additional alternatives", "why_tests_cant": "That nothing else is accepted is a statement about all texts.", "anchors": ["src/lib.rs: parse, Definition", "src/interface.rs", "src/types.rs", "src/argument.rs", "src/attribute.rs", "src/literal.rs", "src/dictionary.rs", "src/mixin.rs"]}
{"id": "C54", "title": "Which error T::parse returns", "statement": "Where a terminal is expected and not found, the error is at the next character that is not trivia, with the kind Tag for symbols and keywords (a keyword followed by a letter, digit, `_` or `-` counts as not found); for names and literals it is after the `_` or the sign, with the kind TakeWhile1, OneOf, Char or Alt; a string that is not closed is reported at the end of the text. An enum fails with the kind Alt at the very beginning of the text it was given, so that the error of Definition::parse never tells where the text is wrong. Option<T> never fails; Vec<T> and Punctuated<T, S> never fail if a T is never empty, and Vec<T> fails on every text if T is an Option<U>. PunctuatedNonEmpty<T, S> fails as its first element does. A struct fails as the first of its fields that fails, on what the fields before it left over.", "quantifier": "all input texts, all types implementing Parse", "why_tests_cant": "The position and kind must be right for every text that is not accepted.", "anchors": ["src/term.rs", "src/common.rs", "src/literal.rs", "src/macros.rs", "src/whitespace.rs", "src/lib.rs: Parse"]}
{"id": "C55", "title": "The documented productions", "statement": "The comment above a type gives the form that it parses, such as `[attributes]? interface identifier ( : inheritance )? { members };`. For 55 types and for the terminals, whatever T::parse accepts to the end of the text is of the form in the comment. For 45 of these types and the terminals the converse holds as well: everything of the documented form is accepted. For the other ten it does not: `long long` is not a `long` called `long`, an operation cannot be `static();`, and `Promise<undefined?>` is rejected. The comments of HexLit, StringifierMember, Special, IdentifierOrString, AttributeNamespaceMember and NegInfinity do not describe what these accept.", "quantifier": "all input texts, all documented types", "why_tests_cant": "A comment makes a claim about every text.", "anchors": ["src/*.rs: the /// comments", "src/macros.rs: ast_types", "src/lib.rs: Parse"]}
{"id": "C56", "title": "Edits are local", "statement": "Whoever edits a text that is accepted can replace a part of it (a definition, some of the members, the type of an attribute at any depth, an argument list, extended attributes, a name, a default value) by any other text that the type of this part accepts, with a space or comment on both sides. The new text is accepted, and its result differs from the old one in the replaced part only. The exceptions are listed: a name that would complete a type of two words, and a type that is just a word with a meaning at this place (`required`, `static`, `optional`, ...).", "quantifier": "all accepted texts, all places in them, all replacements", "why_tests_cant": "There are unboundedly many nested places and replacements. The parser looks for alternatives in order, so a new text in one place could change how its surroundings are read.", "anchors": ["src/lib.rs: parse, Parse, Definition", "src/interface.rs: InterfaceMember", "src/types.rs: Type", "src/argument.rs: Argument", "src/attribute.rs: ExtendedAttribute"]}
{"id": "C57", "title": "The result is not larger than the text, and not deeper than its brackets", "statement": "The memory for a result is linear in the text: the result of parse consists of at most ten values (structs, variants, tuples, vectors, boxes, options, strings, flags, terminals) for each character. It is at most 12 values deep for each level of open brackets `(` and `<`, and 17 more, so that recursive functions over the result (comparing, cloning, dropping, printing) recurse no deeper. The same holds for the results of the parser of every type, with other constants; for the depth, types made with single closing brackets are an exception, and this exception is needed.", "quantifier": "all texts, all types that can be written with the declarations of the source", "why_tests_cant": "The bound is about texts and results of every size and depth, and the types are unboundedly many.", "anchors": ["src/lib.rs: parse, Parse", "src/types.rs: Type", "src/common.rs: Punctuated, Parenthesized, Generics"]}
{"id": "C58", "title": "Line ends, tabs and characters outside ASCII", "statement": "Parsing commutes with every way of writing the characters of a text that keeps the visible ASCII characters, writes spaces, tabs and carriage returns as spaces, tabs and carriage returns, writes a line feed as white space with a line feed in it, and writes characters outside ASCII as characters outside ASCII. On the text written in that way the parser of every type returns the same result, written in that way: the same acceptance, the remainder and the place of the error written in that way, and the same value with only its strings written in that way. So a file with CR LF line ends, a file with tabs expanded, or a UTF-8 file read as Latin-1 gives the same definitions; only line ends, tabs and such characters inside string literals differ. A lone carriage return is not such a line end: a comment that ends in one swallows the text behind it.", "quantifier": "all texts, accepted or not, all types, all such ways of writing", "why_tests_cant": "It is about every text, also every invalid one, and every function on characters that satisfies the conditions.", "anchors": ["src/lib.rs: parse, Parse", "src/whitespace.rs: sp", "src/literal.rs: StringLit", "src/common.rs: Identifier", "src/term.rs: ident_tag"]}
{"id": "C59", "title": "Names, strings and numbers are opaque", "statement": "Take two texts that consist of equally many items, where corresponding items are the same or of the same kind: two names that are not keywords, two strings, two decimal, two hexadecimal, two octal integers, or two floating point numbers. Comments and white space may differ. Then every parser does the same on both: it accepts both or rejects both, what it leaves corresponds in the same way, and the values are the same except for the contents of names, strings and numbers, and those differ only as the items differ. weedle::parse panics on both or on none, as long as not just one of the texts is empty, and its results differ only in these contents. So an ill-formed document does not become well-formed by changing the spelling of a name, string or number within its kind, and a well-formed one does not break. The only exceptions are the parsers for the parts of literals (IntegerLit, DecLit, HexLit, OctLit, Minus, Dot), which can stop inside of an item. Every parser returns.", "quantifier": "all pairs of texts, accepted or not, all types except those for parts of literals, all choices of contents", "why_tests_cant": "It is about all pairs of texts and every choice of contents, also in rejected texts.", "anchors": ["src/lib.rs: parse, Parse", "src/literal.rs", "src/common.rs: Identifier", "src/macros.rs", "src/types.rs", "src/interface.rs"]}
{"id": "C60", "title": "Printed and hashed results tell values apart", "statement": "Two values of a type of the crate that are printed alike with {:?}, or with {:#?}, are the same, so comparing printed results, as in snapshot tests and in the example of the README, is as good as comparing the results: no name, string or comment can be chosen so that one result is printed like another one. The text printed with {:?} is a single line. Two values of a type that give the same to the Hasher are the same, and what one gives is never the beginning of what another one gives, so results can be keys of hash maps without systematic collisions, and equal results are hashed alike.", "quantifier": "all pairs of values of every type, all results of weedle::parse, every choice of which characters count as printable", "why_tests_cant": "It is about all pairs of values of all types, with strings of any content and lists and nestings of any size.", "anchors": ["src/macros.rs: ast_types (derive(Debug, Hash))", "src/term.rs: generate_terms (derive)", "src/common.rs", "README.md"]}
{"id": "C61", "title": "The kinds of members, types, extended attributes, values and arguments can be told from a few items", "statement": "Which variant a parser of members returns is told by the first and last items of the member after its attributes: a member that ends with ); is an operation unless it begins with constructor( or async iterable<; otherwise const, iterable, async, maplike, setlike (perhaps after readonly) and stringifier; are told by the first words, and everything else is an attribute. So a member whose type has the name of a keyword, as in 'attribute foo();', is what its end says. In mixins and namespaces only const, stringifier; and the end matter. The text of an interface, mixin or namespace has a part for each member, in order, with the kind of that member. The kind of a type is told by its first two items, so record, Promise, sequence and FrozenArray are names of types unless < follows. The kind of an extended attribute is told by what follows its name. The kind of a default value or of the value of a constant is told by the characters of its first item: a number with a point or an exponent is a float, 0x begins a hexadecimal number, another 0 an octal one. An argument is variadic exactly if its last item but one is '...'. A type has a ? exactly if its last item is one; the kind of the type of a constant is told by its first two items, and the result of an operation is undefined exactly if its first item is.", "quantifier": "all texts, all members, types, extended attributes, values and arguments, all definitions with members", "why_tests_cant": "The parsers try alternatives in order, and names may look like keywords, so that for every member one has to know that no earlier alternative takes it and no later one is reached by mistake.", "anchors": ["src/interface.rs: InterfaceMember", "src/mixin.rs: MixinMember", "src/namespace.rs: NamespaceMember", "src/types.rs: Type, SingleType, NonAnyType", "src/attribute.rs: ExtendedAttribute", "src/literal.rs: DefaultValue, ConstValue, IntegerLit, FloatLit", "src/argument.rs: Argument"]}
{"id": "C62", "title": "The longest prefix that is a spelling is taken, whatever follows", "statement": "T::parse on any text, with anything behind it, returns the value a and the rest r exactly if the text in front of r spells a and no longer prefix of the text spells a value of T; it fails exactly if no prefix spells a value of T. So the order in which the parser tries alternatives, and its never going back over an alternative that has succeeded, are not observable in any of these types: 'unsigned long long? x' is read up to x although 'unsigned long' is a type, and 'sequence < garbage' is read as the type name sequence. The text that was read stands on its own: parsed alone, without what followed it, it gives the same result and is consumed entirely.", "quantifier": "all texts, all continuations, all types with a spelling: terminals, literals, types, extended attributes, arguments, members and definitions", "why_tests_cant": "Ordered choice takes the first alternative that matches, which need not be the longest; that it is for each of the 91 types and every text, including ill-formed continuations, is a statement about all pairs of alternatives on all texts.", "anchors": ["src/lib.rs: Parse", "src/types.rs: Type, NonAnyType, IntegerType, ConstType", "src/literal.rs: IntegerLit, FloatLit, DefaultValue", "src/attribute.rs: ExtendedAttribute", "src/argument.rs: Argument", "src/macros.rs: ast_types"]}
{"id": "C63", "title": "Linear work for bounded nesting", "statement": "If round and angle brackets are nested at most d deep in a text of n characters, weedle::parse tries at most 342136 * 3752^d * (n+1) terminals on it, accepted or not: for each fixed nesting the work is linear in the length of the document. The same holds, with smaller factors, for Type::parse, Argument::parse and ExtendedAttributeList::parse, and the work for one accepted definition is linear in the length of that definition, whatever follows it.", "quantifier": "all input strings, all d", "why_tests_cant": "a linear upper bound for a backtracking parser on every input, including rejected ones: no alternative that fails late is followed by another that reads the same text again more than a fixed number of times", "anchors": ["src/lib.rs: parse, Definition", "src/common.rs: Punctuated, PunctuatedNonEmpty, Braced", "src/argument.rs: Argument", "src/attribute.rs: ExtendedAttribute", "src/types.rs: Type", "src/interface.rs: InterfaceMember"]}
{"id": "C64", "title": "Copies are equal, defaults are what is parsed", "statement": "clone() of a value of any type of the crate is the same value: ==, cmp, {:?} and hashing do not tell it from the original. default() returns for each type that derives Default, whenever it does for the type's arguments; it is a value of the type, and the type has no other default. For a terminal, the default is the only value, so the separator that a list stores is the one that was parsed. The defaults of EmptyArrayLit, EmptyDictionaryLit and StringifierMember are what is parsed from [], {} and stringifier;.", "quantifier": "all values of every type of the crate, all types that derive Default, with all arguments", "why_tests_cant": "It is about values of every type, with lists and nestings of any size, and about generic types with any arguments.", "anchors": ["src/macros.rs: ast_types (derive(Clone))", "src/term.rs: generate_terms (derive(Clone, Copy, Default))", "src/common.rs: Parenthesized, Bracketed, Braced, Generics", "src/literal.rs: EmptyArrayLit, EmptyDictionaryLit", "src/interface.rs: StringifierMember"]}
{"id": "C65", "title": "No place is looked at more often than the nesting allows, and nothing behind an accepted definition", "statement": "If round and angle brackets are nested at most d deep in a text, weedle::parse tries at most 60106 * 553^d terminals at each single place of it, accepted or not, however long the text is. So whatever an attempt at a place costs, the whole costs at most that factor times what one attempt at each place costs. When Definition::parse accepts, it has tried no terminal behind the place where it ends, whatever the nesting and whatever follows; the same holds for ExtendedAttributeList::parse, for Type::parse except if what is left begins with <, and for Argument::parse except if it begins with =.", "quantifier": "all input strings, all places, all d, all ways to charge for attempts", "why_tests_cant": "it bounds the backtracking at every place of every input, and says of all continuations of a definition that they are not looked at", "anchors": ["src/lib.rs: parse, Definition", "src/common.rs: Punctuated, PunctuatedNonEmpty, Braced, Default", "src/argument.rs: Argument", "src/attribute.rs: ExtendedAttribute", "src/types.rs: Type", "src/interface.rs: InterfaceMember"]}
{"id": "C66", "title": "A text is cut into lexemes in only one way", "statement": "Although the parsers have no pass that cuts the text into lexemes, no two of the alternatives that weedle::parse tries ever cut it in different ways: a terminal is tried only at the beginning of the text or where a terminal that was read has ended, and two terminals read at the same place (a keyword and an identifier, say) end at the same place. So for each text there is one sequence of places at which terminals are tried, each read terminal going from one place to the next, whether the text is accepted or not. The same holds for Definition::parse, Type::parse, Argument::parse, ExtendedAttributeList::parse, DefaultValue::parse, ConstValue::parse and the parsers of members.", "quantifier": "all input strings, all terminals tried in a run", "why_tests_cant": "it is about all pairs of attempts in all runs on all texts, also those of alternatives that fail later", "anchors": ["src/lib.rs: parse, Definition", "src/literal.rs: DefaultValue, ConstValue, IntegerLit, FloatLit", "src/term.rs: ident_tag", "src/whitespace.rs: ws", "src/common.rs: Identifier"]}
{"id": "C67", "title": "Characters looked at are linear in the length for bounded nesting", "statement": "If round and angle brackets are nested at most d deep in a text of n characters, weedle::parse looks at most 3245724 * 553^d * (n+1) times at a character, accepted or not, counting each look of each terminal, trivia, unterminated strings and comments and numbers that are read up to four times included. The same holds with smaller factors for Definition::parse, Type::parse, Argument::parse and ExtendedAttributeList::parse. What a terminal does depends only on the characters that are counted for it: it does the same on every text that agrees with the first in as many characters as were counted. The same is true of each parser as a whole: a text that agrees with the first in as many characters as the parser has looked at gives the same value and leaves the rest behind the same piece, or is rejected alike. No character is read without having been looked at, so that an accepted text of n characters needs at least n looks. Without a bound on the nesting the number of looks is exponential in the length in the worst case.", "quantifier": "all input strings, all d; all terminals, all parsers and all pairs of texts", "why_tests_cant": "a linear bound on the time, up to a constant per look, for all documents, also those with comments, strings and numbers that do not end", "anchors": ["src/whitespace.rs: sp, ws", "src/literal.rs: FloatLit, IntegerLit, StringLit", "src/term.rs: ident_tag", "src/common.rs: Identifier", "src/macros.rs: tag, take_while, take_until", "src/lib.rs: parse"]}
{"id": "C68", "title": "A missing, extra or exchanged punctuation mark is noticed", "statement": "If one separator (, ; : = *) of an accepted text is left out, weedle::parse does not accept the result, and the same holds if one is inserted. The exceptions are: the semicolon after stringifier, a semicolon before `stringifier ;`, a comma before a closing brace (at the end of an enum), a comma between two words that make a type (iterable<long, long>), an equals sign before () in an attribute, and the colon in `interface mixin :`. If one punctuation mark that is not a bracket is replaced by another, the result is not accepted either, except ? and ... for one another, a comma and an equals sign for one another, and a semicolon and ? for one another before `stringifier ;`. Each exception occurs: there are two accepted texts that differ in just this way.", "quantifier": "all accepted texts, all places in them, all separators and punctuation marks", "why_tests_cant": "an edit can be made at any place of any document, and an accepted result would silently mean something else", "anchors": ["src/lib.rs: parse", "src/interface.rs: InterfaceMember, StringifierMember", "src/attribute.rs: ExtendedAttribute", "src/argument.rs: Argument", "src/common.rs: Punctuated, PunctuatedNonEmpty"]}
{"id": "C69", "title": "A missing, extra or misspelt name or keyword is noticed", "statement": "If a word that is not a keyword is left out of an accepted text, weedle::parse does not accept the result, and the same holds if one is inserted. The exceptions are: the name of an operation, the type of an operation, all that is between ( ) or [ ], the name of an attribute whose type is in parentheses, a name between = and () in an attribute, and the name after interface mixin. If a keyword that is not a type is replaced by a word that is not a keyword, the result is not accepted, unless the keyword is also used as a name in the text; the exceptions are constructor before (, the modifiers of operations before a name and (, and typedef before includes or implements. If a required keyword that is not also used as a name is left out, the result is not accepted, except `or` between two words that make a type. Conversely, if a keyword is inserted or takes the place of a word and the result is accepted, the keyword is a name there. Each exception occurs: there are two accepted texts that differ in just this way.", "quantifier": "all accepted texts, all places in them, all words and all keywords", "why_tests_cant": "an edit can be made at any place of any document with any word, and an accepted result would silently mean something else", "anchors": ["src/lib.rs: parse, Definition", "src/interface.rs: InterfaceMember, OperationInterfaceMember, AttributeInterfaceMember", "src/attribute.rs: ExtendedAttribute", "src/types.rs: Type, UnionMemberType", "src/macros.rs: generate_terms"]}
{"id": "C70", "title": "A missing, extra or exchanged bracket, literal or keyword is noticed", "statement": "If one bracket is left out of an accepted text, inserted into it, exchanged for another item or put in the place of another item, weedle::parse does not accept the result, without exception. If one string or number is left out or inserted, the result is not accepted, except for the last string of an enum between a comma and the closing brace. If a number is replaced by another item and the result is accepted, there is an = before it and the new item is a number, a string, true, false, null, Infinity or NaN; if a string is replaced by something else, there is an = before it and the new item is a number, a word or *. If a word that is not a keyword is replaced by a punctuation mark, or the other way round, the result is not accepted, except for ? before (, * after =, ... after optional, and ; after stringifier. If a keyword that is not a type is replaced by another and the result is accepted, the two are in the same one of nine short lists (callback/partial, interface/dictionary/namespace, includes/implements, the modifiers of operations, the modifiers of attributes, iterable/maplike, iterable/setlike, FrozenArray/Promise/sequence, the values), unless one of them is used as a name. Each exception occurs.", "quantifier": "all accepted texts, all places in them, all items put there", "why_tests_cant": "an edit can be made at any place of any document with any item, and an accepted result would silently mean something else", "anchors": ["src/lib.rs: parse, Definition", "src/common.rs: Parenthesized, Bracketed, Braced", "src/types.rs: Type, NonAnyType", "src/literal.rs: DefaultValue, ConstValue, IntegerLit, FloatLit, StringLit", "src/interface.rs: InterfaceMember", "src/macros.rs: generate_terms"]}
{"id": "C71", "title": "Comments can be removed and layout made as short as possible", "statement": "A tool that replaces the comments of a text by spaces, and white space outside of strings and comments by other white space (in particular one that joins all lines), does not change the outcome of weedle::parse: the same definitions, or a panic as before, for every text that does not end inside a comment. For accepted texts this holds without the condition. It is needed otherwise: a text that ends in a line comment panics and is accepted when the comment is removed. From an accepted text all layout can be removed except one space between two lexemes that would otherwise run together (both characters that touch are letters, digits, _ or -); the result has the same definitions, and no text with the same items is shorter.", "quantifier": "all texts, accepted or not, all ways of writing white space", "why_tests_cant": "it is about every text, also invalid ones, and two runs of the parser on different texts", "anchors": ["src/whitespace.rs: sp, ws", "src/lib.rs: parse", "src/term.rs: ident_tag", "src/literal.rs: StringLit", "src/common.rs: Identifier"]}
{"id": "C72", "title": "Everything that is in the text is in the result, and nothing else", "statement": "Go through the items of an accepted text in order. Each of them is a keyword, one of the words that are types, or a punctuation mark, or it is a name (perhaps with an underscore in front), a string or a number whose contents come next among the names, strings and numbers in the result; at the end nothing of the result is left. So no name, string or number is dropped, invented, repeated, cut short or moved to another place. If no name or string in the result looks like a keyword, type or mark, the names, strings and numbers of the result are exactly the other items of the text, one by one.", "quantifier": "all accepted texts", "why_tests_cant": "it is about every production and every nesting of them; a single field dropped or exchanged in one of them would break it for some text", "anchors": ["src/lib.rs: parse, Definition", "src/common.rs: Identifier", "src/literal.rs: StringLit, IntegerLit, FloatLit", "src/attribute.rs: ExtendedAttribute", "src/argument.rs: Argument", "src/interface.rs: InterfaceMember"]}
{"id": "C73", "title": "Neighbouring items that change places are noticed", "statement": "If in an accepted text a punctuation mark other than a bracket changes places with an item beside it that is not a bracket, the text is rejected, apart from three listed places. If a string or a number changes places with an item beside it that is not a bracket, the text is rejected. If a keyword that is not also a name changes places with a word beside it that is not a keyword and the text is still accepted, then the keyword has become a name in the result.", "quantifier": "all accepted texts, all pairs of neighbouring items in them, all layouts of the two texts", "why_tests_cant": "the two items can be anywhere in a text of any length, at any depth of brackets", "anchors": ["src/lib.rs: parse", "src/types.rs: Type, RecordType, MayBeNull", "src/interface.rs: InterfaceMember", "src/dictionary.rs: DictionaryMember", "src/common.rs: Punctuated"]}
{"id": "C74", "title": "Definitions and members end at the semicolons outside of brackets", "statement": "Cut a text behind each semicolon that is outside of all brackets. The text is accepted if and only if each piece is accepted by itself as one definition, and then the result is the list of these definitions; it is rejected if and only if one piece is rejected. Definitions::parse returns the definitions of the pieces in front of the first rejected one and leaves the others. Cut what is between the braces of an interface, a mixin, a namespace or a dictionary in the same way. The definition is accepted if and only if it is accepted with nothing between its braces and each piece is accepted by itself as one member of the right kind, and then its members are these.", "quantifier": "all texts made of items, all results, all definitions with members, every number of definitions and members", "why_tests_cant": "the number of definitions and members, their order and what is in them is unbounded, and a greedy parser could let one of them run into the next", "anchors": ["src/lib.rs: parse, Definitions", "src/interface.rs: InterfaceMembers", "src/mixin.rs: MixinMembers", "src/namespace.rs: NamespaceMembers", "src/dictionary.rs: DictionaryMembers", "src/term.rs: SemiColon"]}
{"id": "C75", "title": "Lists are cut at the commas, and unions at the `or`s, outside of brackets", "statement": "Cut what is between the parentheses of an argument list at each comma that is outside of all brackets. The list is accepted if and only if each part is accepted between parentheses as a list of one argument, and then the result is the list of these arguments, in order. The same holds for lists of extended attributes, for the identifiers of an extended attribute and for the values of an enumeration, where one comma may come last and there has to be a value. Unions are cut in the same way at each `or` that is outside of all brackets and does not begin a type, and are accepted if and only if each part is accepted as a member of a union.", "quantifier": "all texts made of items, all lists of arguments, attributes, identifiers and values of every length", "why_tests_cant": "the number of elements and the nesting of brackets, types and attributes inside of them is unbounded", "anchors": ["src/common.rs: Punctuated, PunctuatedNonEmpty", "src/argument.rs: ArgumentList", "src/attribute.rs: ExtendedAttributeList, IdentifierList", "src/lib.rs: EnumValueList, EnumDefinition", "src/types.rs: UnionType, UnionMemberType"]}
{"id": "C76", "title": "Extended attributes belong to what follows them", "statement": "A list of extended attributes in front of a definition or a member is accepted if and only if the list is accepted by itself and the rest is accepted by itself, and the result is that of the rest with these attributes and no other change. A definition or member has attributes if and only if its text begins with `[`.", "quantifier": "all texts made of items, all lists of attributes, all kinds of definitions and members", "why_tests_cant": "every attribute list can stand in front of every definition and every member; that none of these pairs interferes is a statement about all of them", "anchors": ["src/attribute.rs: ExtendedAttributeList", "src/lib.rs: Definition", "src/interface.rs: InterfaceMember", "src/mixin.rs: MixinMember", "src/namespace.rs: NamespaceMember", "src/dictionary.rs: DictionaryMember"]}
{"id": "C77", "title": "Results are sorted as declared and written", "statement": "Sorting results with the derived Ord puts names and strings in the order of a dictionary of code points, although Rust compares their bytes; lists in the order of their first different element, a list before those that go on where it ends; structs in the order of the first field in which they differ; the values of an enum in the order in which the variants are declared, then by their contents. So definitions are sorted by kind, those of a kind with the same attributes by the name they begin with.", "quantifier": "all names and strings, all values of all types of the crate, all definitions of all accepted texts", "why_tests_cant": "the values are unbounded trees and the names any sequence of code points of one to four bytes", "anchors": ["src/macros.rs: ast_types", "src/lib.rs: Definition", "src/common.rs: Identifier", "src/literal.rs: StringLit"]}
{"id": "C78", "title": "Definitions, members and elements of lists can be rearranged", "statement": "In an accepted text the definitions can be left out, repeated and brought into another order; the text is still accepted and the result changes in the same way. The same holds for the members of a definition, the arguments of a list, the extended attributes of a list, the members of a union and, if one remains, the values of an enumeration.", "quantifier": "all accepted texts, all choices of places in them in any order, all layouts of the two texts", "why_tests_cant": "the parts are any texts of any length that contain nested separators, and any number of them can be chosen in any order", "anchors": ["src/lib.rs: parse, Definitions", "src/interface.rs: InterfaceMembers", "src/argument.rs: ArgumentList", "src/attribute.rs: ExtendedAttributeList", "src/types.rs: UnionType", "src/common.rs: Punctuated, PunctuatedNonEmpty"]}
{"id": "C79", "title": "A text with an error gives the definitions in front of it", "statement": "For any text, also one with stray characters, unclosed comments or strings, Definitions::parse returns what weedle::parse returns for the longest beginning of the text that weedle::parse accepts, and leaves the rest behind the white space and comments. Every shorter beginning that is accepted gives a beginning of the same list. It returns the empty list exactly if no beginning with a definition is accepted, and then it consumes nothing. What it returns for the part in front of the error does not depend on what stands behind. The same holds for a Vec of members of any kind and of anything else that ends with a semicolon.", "quantifier": "all texts, all ways to divide them in two, all 37 types that end with a semicolon", "why_tests_cant": "the error can be anywhere in a text of any length, followed by any text, and every beginning of the text is compared", "anchors": ["src/lib.rs: parse, Definitions", "src/common.rs: Parse for Vec"]}
{"id": "C80", "title": "Every node is what the parser of its type returns at its place", "statement": "Take the result of T::parse on any text, for any type T, or that of weedle::parse. Each struct and each variant of an enum in it, at any depth, has a place of its own in the consumed text, within the place of the node around it, where the parser of its own type, run alone, consumes just that place and returns just that node. Each string in the result stands in the consumed text.", "quantifier": "all types, all texts, all results, all parts of the results at any depth", "why_tests_cant": "results contain nodes of every type at any depth, and the texts are unbounded", "anchors": ["src/macros.rs: ast_types!, weedle!", "src/lib.rs: Parse, parse", "src/common.rs", "src/term.rs"]}
{"id": "C81", "title": "Which values of the types are results", "statement": "The types of the crate have values that no text is parsed to. Take the result of T::parse on any text, for any type T, or that of weedle::parse. At any depth in it: the string of an identifier, of a string literal and of each kind of number matches the documented regular expression; an argument that is not optional has no default value, and its type has no attributes unless the argument has; a key of a record that is a string type is one of the three variants for strings, not a NonAny; the list of a PunctuatedNonEmpty is not empty. Conversely, these are all the conditions: for every type T of the crate without type parameters, a value of T with nothing in it that violates one of them is the result of T::parse on some text, with nothing left over.", "quantifier": "all types, all texts, all results, all parts of the results at any depth; all values of all types without type parameters", "why_tests_cant": "a test sees the nodes of one result; the conditions are about all of them", "anchors": ["src/common.rs: Identifier, PunctuatedNonEmpty", "src/literal.rs", "src/argument.rs: SingleArgument", "src/types.rs: RecordKeyType"]}
{"id": "C82", "title": "Everything a parser returns occurs in a document", "statement": "For every type T of the crate without type parameters, whatever T::parse returns on any text occurs somewhere in the result of weedle::parse on some text. So a value of T occurs in a document exactly if nothing in it violates a condition of C81. The exceptions are the four tokens Minus, Dot, True and False, which have parsers but occur in no result of weedle::parse, nor of the parser of any type without type parameters but their own. Every variant of every enum occurs in the result of weedle::parse on some text: none of the alternatives is hidden by those tried before it.", "quantifier": "all types without type parameters, all texts, all results and values; all variants of all enums; all documents", "why_tests_cant": "the values of the types are unbounded in number and depth, and that a token never occurs is about every document", "anchors": ["src/lib.rs: parse, Definition", "src/term.rs: Minus, Dot, True, False", "src/macros.rs: ast_types!", "src/literal.rs: BooleanLit"]}
{"id": "C83", "title": "Nodes of results may be replaced by others of their type", "statement": "Take the result of T::parse on any text, T a type without type parameters, or of weedle::parse, and a struct or a variant of an enum in it at any depth, of a type U without type parameters. Put in its place whatever U::parse returns on any other text. If U is not AttributedType or NonAnyType, the outcome is the result of T::parse, or of weedle::parse, on some text: a program that assembles results from parts of others stays within what can be parsed. For the two types it is not so: the type of an argument that is not optional, and a key of a record, are counterexamples.", "quantifier": "all types T and U without type parameters, all texts and results, all nodes at any depth, all replacements", "why_tests_cant": "results and replacements are unbounded, and every node at any depth may be replaced", "anchors": ["src/macros.rs: ast_types!", "src/lib.rs: parse, Parse", "src/argument.rs: SingleArgument", "src/types.rs: AttributedType, RecordKeyType, NonAnyType"]}
{"id": "C84", "title": "Elements of lists in results may be left out, repeated and reordered", "statement": "Take the result of T::parse on any text, T a type without type parameters, or of weedle::parse, and any list in it at any depth: the definitions, the members of an interface, the arguments of an operation, a list of attributes, the members of a union. Replace it by a list of any of its elements, in any order and number, also none. As long as no PunctuatedNonEmpty is left empty, the outcome is the result of T::parse, or of weedle::parse, on some text: a program that filters, sorts or duplicates members stays within what can be parsed. Any number of lists may be replaced, one after the other, and only in the end must no PunctuatedNonEmpty be empty. This is exact: a document in which an enum has lost its last value is the result of no text.", "quantifier": "all types T without type parameters, all texts and results, all sequences of lists at any depth, all lists of their elements", "why_tests_cant": "results are unbounded, and any list at any depth may be replaced by infinitely many others", "anchors": ["src/macros.rs: ast_types!", "src/lib.rs: parse, Parse", "src/common.rs: Punctuated, PunctuatedNonEmpty"]}
{"id": "C85", "title": "What is optional in a result may be left out", "statement": "Take the result of T::parse on any text, T a type without type parameters, or of weedle::parse, and any Some in it at any depth: attributes, a parent interface, a default value, a question mark, a modifier. Put None in its place. Unless it is the field optional or attributes of a SingleArgument, the outcome is the result of T::parse, or of weedle::parse, on some text: a program that strips attributes or defaults stays within what can be parsed. For the two fields it is not so: an argument with a default value is no result without optional, and a required argument whose type has attributes is none without attributes of its own.", "quantifier": "all types T without type parameters, all texts and results, all occurrences of Some at any depth", "why_tests_cant": "results are unbounded, and every optional part at any depth may be left out", "anchors": ["src/macros.rs: ast_types!", "src/lib.rs: parse, Parse", "src/argument.rs: SingleArgument"]}
