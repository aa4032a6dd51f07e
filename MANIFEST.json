{
 "claims": [
  {
   "property": "C01",
   "status": "proved",
   "theorems": [
    "Verif.Properties.C01_terminates",
    "Verif.Properties.C01_unique",
    "Verif.Properties.C01_depth",
    "Verif.Properties.C01_parse"
   ],
   "note": "Termination, uniqueness of the result, and the recursion depth bound, for every type implementing Parse (IsType) and every input."
  },
  {
   "property": "C02",
   "status": "proved",
   "theorems": [
    "Verif.Properties.C02_never_err",
    "Verif.Properties.C02_not_err"
   ],
   "note": ""
  },
  {
   "property": "C03",
   "status": "proved",
   "theorems": [
    "Verif.Properties.C03_ok_iff",
    "Verif.Properties.C03_panic_iff"
   ],
   "note": ""
  },
  {
   "property": "C04",
   "status": "proved",
   "theorems": [
    "Verif.Properties.C04_empty",
    "Verif.Properties.C04_blank"
   ],
   "note": ""
  },
  {
   "property": "C05",
   "status": "proved",
   "theorems": [
    "Verif.Properties.C05_trailing_comment"
   ],
   "note": "Definitions::parse returns all the definitions with the comment as remainder; weedle::parse then panics."
  },
  {
   "property": "C06",
   "status": "proved",
   "theorems": [
    "Verif.Properties.C06_suffix"
   ],
   "note": ""
  },
  {
   "property": "C07",
   "status": "proved",
   "theorems": [
    "Verif.Properties.C07_errors"
   ],
   "note": ""
  },
  {
   "property": "C08",
   "status": "proved",
   "theorems": [
    "Verif.Properties.C08_option",
    "Verif.Properties.C08_option_total",
    "Verif.Properties.C08_vec",
    "Verif.Properties.C08_vec_fails",
    "Verif.Properties.C08_pair",
    "Verif.Properties.C08_pair_fails",
    "Verif.Properties.C08_triple"
   ],
   "note": "For arbitrary parsers over arbitrary symbols. Box<T> is transparent by construction of the model (it has no constructor of its own)."
  },
  {
   "property": "C09",
   "status": "proved",
   "theorems": [
    "Verif.Properties.C09_identifier",
    "Verif.Properties.C09_fails"
   ],
   "note": ""
  },
  {
   "property": "C10",
   "status": "proved",
   "theorems": [
    "Verif.Properties.C10_dec",
    "Verif.Properties.C10_fails"
   ],
   "note": ""
  },
  {
   "property": "C11",
   "status": "proved",
   "theorems": [
    "Verif.Properties.C11_hex",
    "Verif.Properties.C11_fails",
    "Verif.Properties.C11_documented",
    "Verif.Properties.C11_undocumented"
   ],
   "note": "The accepted language is characterised exactly; C11_undocumented is the witness that the documented form is violated."
  },
  {
   "property": "C12",
   "status": "proved",
   "theorems": [
    "Verif.Properties.C12_oct",
    "Verif.Properties.C12_oct_fails",
    "Verif.Properties.C12_integer",
    "Verif.Properties.C12_disjoint"
   ],
   "note": ""
  },
  {
   "property": "C13",
   "status": "proved",
   "theorems": [
    "Verif.Properties.C13_float",
    "Verif.Properties.C13_fails"
   ],
   "note": ""
  },
  {
   "property": "C14",
   "status": "proved",
   "theorems": [
    "Verif.Properties.C14_string",
    "Verif.Properties.C14_fails"
   ],
   "note": ""
  },
  {
   "property": "C15",
   "status": "proved",
   "theorems": [
    "Verif.Properties.C15_keyword",
    "Verif.Properties.C15_fails"
   ],
   "note": ""
  },
  {
   "property": "C16",
   "status": "proved",
   "theorems": [
    "Verif.Properties.C16_skipper",
    "Verif.Properties.C16_remainder"
   ],
   "note": "C16_skipper is the skipper itself, C16_remainder the state after any successful parse that consumed something."
  },
  {
   "property": "C17",
   "status": "proved",
   "theorems": [
    "Verif.Properties.C17_ok",
    "Verif.Properties.C17_fails",
    "Verif.Properties.C17_document"
   ],
   "note": ""
  },
  {
   "property": "C18",
   "status": "proved",
   "theorems": [
    "Verif.Properties.C18_layout"
   ],
   "note": "Lexes (Spec/Lexing.lean) is the item sequence of an arbitrary text, valid or not; numbers are items too, and must not be followed directly by a character that could extend them."
  },
  {
   "property": "C19",
   "status": "proved",
   "theorems": [
    "Verif.Properties.C19_soundness",
    "Verif.Properties.C19_productions"
   ],
   "note": "Document (Spec/Grammar.lean) is stated without any parser. C19_productions is the same for the individual T::parse; number literals are C10-C13."
  },
  {
   "property": "C20",
   "status": "proved",
   "theorems": [
    "Verif.Properties.C20_completeness",
    "Verif.Properties.C20_panics_iff",
    "Verif.Properties.C20_definition",
    "Verif.Properties.C20_interfaceMember",
    "Verif.Properties.C20_mixinMember",
    "Verif.Properties.C20_namespaceMember",
    "Verif.Properties.C20_dictionaryMember",
    "Verif.Properties.C20_type"
   ],
   "note": "Together with C19 this is an equivalence. The grammar in Spec/Grammar.lean records where the documented productions overlap and which reading is selected (named, typeName, avoiding)."
  },
  {
   "property": "C21",
   "status": "proved",
   "theorems": [
    "Verif.Properties.C21_round_trip",
    "Verif.Properties.C21_wellformed",
    "Verif.Properties.C21_reprint"
   ],
   "note": ""
  },
  {
   "property": "C22",
   "status": "proved",
   "theorems": [
    "Verif.Properties.C22_unambiguous",
    "Verif.Properties.C22_lexemes",
    "Verif.Properties.C22_definition"
   ],
   "note": ""
  },
  {
   "property": "C23",
   "status": "proved",
   "theorems": [
    "Verif.Properties.C23_concatenation",
    "Verif.Properties.C23_split"
   ],
   "note": ""
  },
  {
   "property": "C24",
   "status": "proved",
   "theorems": [
    "Verif.Properties.C24_slices",
    "Verif.Properties.C24_each"
   ],
   "note": ""
  },
  {
   "property": "C25",
   "status": "proved",
   "theorems": [
    "Verif.Properties.C25_default_optional",
    "Verif.Properties.C25_attributes"
   ],
   "note": ""
  },
  {
   "property": "C26",
   "status": "proved",
   "theorems": [
    "Verif.Properties.C26_nonempty",
    "Verif.Properties.C26_empty",
    "Verif.Properties.C26_trailing_comma",
    "Verif.Properties.C26_two_commas"
   ],
   "note": ""
  },
  {
   "property": "C27",
   "status": "proved",
   "theorems": [
    "Verif.Properties.C27_punctuated",
    "Verif.Properties.C27_nonempty",
    "Verif.Properties.C27_trailing"
   ],
   "note": ""
  },
  {
   "property": "C28",
   "status": "proved",
   "theorems": [
    "Verif.Properties.C28_long_long",
    "Verif.Properties.C28_long",
    "Verif.Properties.C28_short"
   ],
   "note": ""
  },
  {
   "property": "C29",
   "status": "proved",
   "theorems": [
    "Verif.Properties.C29_escape",
    "Verif.Properties.C29_names",
    "Verif.Properties.C29_reserved"
   ],
   "note": ""
  },
  {
   "property": "C30",
   "status": "proved",
   "theorems": [
    "Verif.Properties.C30_required",
    "Verif.Properties.C30_generic"
   ],
   "note": ""
  },
  {
   "property": "C31",
   "status": "proved",
   "theorems": [
    "Verif.Properties.C31_union",
    "Verif.Properties.C31_empty",
    "Verif.Properties.C31_single",
    "Verif.Properties.C31_any",
    "Verif.Properties.C31_replace",
    "Verif.Properties.C31_anywhere"
   ],
   "note": ""
  },
  {
   "property": "C32",
   "status": "proved",
   "theorems": [
    "Verif.Properties.C32_kind",
    "Verif.Properties.C32_single",
    "Verif.Properties.C32_document",
    "Verif.Properties.C32_distinct"
   ],
   "note": "classify (Spec/Kind.lean) reads the kind off the first items after the extended attributes; C32_document cuts a document into the parts of its definitions."
  },
  {
   "property": "C33",
   "status": "proved",
   "theorems": [
    "Verif.Properties.C33_definition",
    "Verif.Properties.C33_interfaceMember",
    "Verif.Properties.C33_mixinMember",
    "Verif.Properties.C33_namespaceMember",
    "Verif.Properties.C33_dictionaryMember",
    "Verif.Properties.C33_document"
   ],
   "note": ""
  },
  {
   "property": "C34",
   "status": "proved",
   "theorems": [
    "Verif.Properties.C34_definitions",
    "Verif.Properties.C34_exists"
   ],
   "note": ""
  },
  {
   "property": "C36",
   "status": "proved",
   "theorems": [
    "Verif.Properties.C36_unique",
    "Verif.Properties.C36_lexes"
   ],
   "note": ""
  },
  {
   "property": "C37",
   "status": "proved",
   "theorems": [
    "Verif.Properties.C37_rejected",
    "Verif.Properties.C37_follow",
    "Verif.Properties.C37_separators"
   ],
   "note": ""
  },
  {
   "property": "C38",
   "status": "proved",
   "theorems": [
    "Verif.Properties.C38_rename",
    "Verif.Properties.C38_reversible"
   ],
   "note": ""
  },
  {
   "property": "C39",
   "status": "proved",
   "theorems": [
    "Verif.Properties.C39_balanced",
    "Verif.Properties.C39_unbalanced",
    "Verif.Properties.C39_count"
   ],
   "note": "Balanced (Spec/Kind.lean) is the usual bracket language over the items."
  },
  {
   "property": "C35",
   "status": "proved",
   "theorems": [
    "Verif.Properties.C35_exponential",
    "Verif.Properties.C35_document",
    "Verif.Properties.C35_type"
   ],
   "note": "Runs (Spec/BigStep.lean) counts the terminals tried. nestedDoc (Spec/Nested.lean) is the family of texts of the lower bound."
  },
  {
   "property": "C40",
   "status": "proved",
   "theorems": [
    "Verif.Properties.C40_lossless",
    "Verif.Properties.C40_distinct",
    "Verif.Properties.C40_reprint"
   ],
   "note": "essential (Spec/Normal.lean) removes leading underscores and commas before closing braces from a list of items; Lexes (Spec/Lexing.lean) relates a text to its items."
  },
  {
   "property": "C41",
   "status": "proved",
   "theorems": [
    "Verif.Properties.C41_semicolons",
    "Verif.Properties.C41_size"
   ],
   "note": "memberCount (Spec/Normal.lean) is the length of the member list of a definition."
  },
  {
   "property": "C42",
   "status": "proved",
   "theorems": [
    "Verif.Properties.C42_document",
    "Verif.Properties.C42_enough",
    "Verif.Properties.C42_type",
    "Verif.Properties.C42_needed"
   ],
   "note": "nest (Spec/Nesting.lean) counts brackets on the characters of the text; ntRun d is the family of recursive parsers with room for d nested calls. C42_needed shows the bound is attained."
  },
  {
   "property": "C43",
   "status": "proved",
   "theorems": [
    "Verif.Properties.C43_document",
    "Verif.Properties.C43_no_brackets"
   ],
   "note": "Cost in terminals tried, as in C35, over the fuel-free executions Runs."
  },
  {
   "property": "C44",
   "status": "proved",
   "theorems": [
    "Verif.Properties.C44_accepted",
    "Verif.Properties.C44_converse_fails"
   ],
   "note": "Derives (Spec/WebIDL.lean) is the ordinary derivation relation of the context-free grammar whose productions are listed there after the standard; the file lists each difference from the standard, and examples beside the theorem show that the parser rejects these. C44_converse_fails shows that the converse is false."
  },
  {
   "property": "C45",
   "status": "proved",
   "theorems": [
    "Verif.Properties.C45_definition",
    "Verif.Properties.C45_interface_member",
    "Verif.Properties.C45_mixin_member",
    "Verif.Properties.C45_namespace_member",
    "Verif.Properties.C45_dictionary_member",
    "Verif.Properties.C45_extend",
    "Verif.Properties.C45_cut",
    "Verif.Properties.C45_rest"
   ],
   "note": "C45_extend is an equivalence; C45_cut and C45_rest are its consequences for documents that were cut. An example beside them shows that types do look at what follows."
  },
  {
   "property": "C46",
   "status": "proved",
   "theorems": [
    "Verif.Properties.C46_same",
    "Verif.Properties.C46_returns",
    "Verif.Properties.C46_remainder",
    "Verif.Properties.C46_position",
    "Verif.Properties.C46_document",
    "Verif.Properties.C46_otherwise"
   ],
   "note": "Model/Bytes.lean models the terminals on bytes, with a cut inside of a character as a call that does not return; C46_same is the refinement to the model on characters, for every grammar expression and every text. utf8 is the encoding in Lean's library (utf8_string)."
  },
  {
   "property": "C47",
   "status": "proved",
   "theorems": [
    "Verif.Properties.C47_part",
    "Verif.Properties.C47_whole",
    "Verif.Properties.C47_text",
    "Verif.Properties.C47_unambiguous"
   ],
   "note": "PartOf and WholeOf list the types with their spellings. Left out: types that can be empty (Option, Vec, Punctuated), for which leading white space is not consumed if nothing is there; the terminals `.` and `-`, with which numbers and `...` begin."
  },
  {
   "property": "C48",
   "status": "proved",
   "theorems": [
    "Verif.Properties.C48_text",
    "Verif.Properties.C48_parser",
    "Verif.Properties.C48_types",
    "Verif.Properties.C48_function",
    "Verif.Properties.C48_faithful",
    "Verif.Properties.C48_parse"
   ],
   "note": "The text of src/*.rs (without macros.rs and tests) is in Source/Text.lean, read by Source/Read.lean inside Lean; Source/Meaning.lean is the meaning of the macros. The separators of Punctuated are terminals."
  },
  {
   "property": "C49",
   "status": "proved",
   "theorems": [
    "Verif.Properties.C49_alphabet",
    "Verif.Properties.C49_closed",
    "Verif.Properties.C49_foreign",
    "Verif.Properties.C49_exact",
    "Verif.Properties.C49_unclosed"
   ],
   "note": ""
  },
  {
   "property": "C50",
   "status": "proved",
   "theorems": [
    "Verif.Properties.C50_expand",
    "Verif.Properties.C50_same",
    "Verif.Properties.C50_parser",
    "Verif.Properties.C50_from",
    "Verif.Properties.C50_parse"
   ],
   "note": "The macro rules are read from the text of the source and applied by an expander written in Lean; the kernel computes the items of all files. Semantics of the expanded Rust: Source/Run.lean. Refinement to C48 by induction over macro bodies, fields and variants."
  },
  {
   "property": "C51",
   "status": "proved",
   "theorems": [
    "Verif.Properties.C51_typed",
    "Verif.Properties.C51_document"
   ],
   "note": "A type checker for declarations is proved sound (parse_sound), the kernel checks all declarations."
  },
  {
   "property": "C52",
   "status": "proved",
   "theorems": [
    "Verif.Properties.C52_total",
    "Verif.Properties.C52_trans",
    "Verif.Properties.C52_document",
    "Verif.Properties.C52_traits",
    "Verif.Properties.C52_derivable",
    "Verif.Properties.C52_separator"
   ],
   "note": "The meaning of derive and the implementations of traits in std are written down in Source/Derive.lean; they are part of the trusted base."
  },
  {
   "property": "C53",
   "status": "proved",
   "theorems": [
    "Verif.Properties.C53_within",
    "Verif.Properties.C53_accepted",
    "Verif.Properties.C53_needed",
    "Verif.Properties.C53_zero_x",
    "Verif.Properties.C53_words",
    "Verif.Properties.C53_loose_rejected"
   ],
   "note": "Both directions hold up to words used as names: C53_within for the grammar in which every word is an identifier, C53_accepted for the one in which terminals are not. C53_words and C53_loose_rejected show that this gap is real."
  },
  {
   "property": "C54",
   "status": "proved",
   "theorems": [
    "Verif.Properties.C54_symbol",
    "Verif.Properties.C54_keyword",
    "Verif.Properties.C54_identifier",
    "Verif.Properties.C54_decimal",
    "Verif.Properties.C54_octal",
    "Verif.Properties.C54_hexadecimal",
    "Verif.Properties.C54_string",
    "Verif.Properties.C54_float",
    "Verif.Properties.C54_enum",
    "Verif.Properties.C54_option",
    "Verif.Properties.C54_vec",
    "Verif.Properties.C54_punctuated",
    "Verif.Properties.C54_nonempty",
    "Verif.Properties.C54_vec_empty",
    "Verif.Properties.C54_fields"
   ],
   "note": "For floating point numbers only the position and kind are stated, when they fail is C13."
  },
  {
   "property": "C55",
   "status": "proved",
   "theorems": [
    "Verif.Properties.C55_quoted",
    "Verif.Properties.C55_named",
    "Verif.Properties.C55_follows",
    "Verif.Properties.C55_exact",
    "Verif.Properties.C55_not_exact",
    "Verif.Properties.C55_disagree"
   ],
   "note": "The forms are compared with the comments in the text of the source (the file Verif/Source/Text.lean contains them). What the names in a form (`type`, `members`, ...) stand for is given in Verif/Spec/Documented.lean."
  },
  {
   "property": "C56",
   "status": "proved",
   "theorems": [
    "Verif.Properties.C56_put",
    "Verif.Properties.C56_part",
    "Verif.Properties.C56_document"
   ],
   "note": "`Place` in Verif/Spec/Places.lean lists the places and the values that can stand in each of them. The conditions are sufficient; examples in Verif/Properties/Places.lean show that dropping them is wrong."
  },
  {
   "property": "C57",
   "status": "proved",
   "theorems": [
    "Verif.Properties.C57_document",
    "Verif.Properties.C57_type",
    "Verif.Properties.C57_depth",
    "Verif.Properties.C57_type_depth",
    "Verif.Properties.C57_closing_brackets"
   ],
   "note": "Sizes and depths are counted on the Rust values of C48. Bytes per value are not modelled."
  },
  {
   "property": "C58",
   "status": "proved",
   "theorems": [
    "Verif.Properties.C58_type",
    "Verif.Properties.C58_document",
    "Verif.Properties.C58_panic",
    "Verif.Properties.C58_same",
    "Verif.Properties.C58_crlf",
    "Verif.Properties.C58_tabs",
    "Verif.Properties.C58_mojibake",
    "Verif.Properties.C58_lone_cr"
   ],
   "note": "Stated over the text of the source (Returns of C48), for all types."
  },
  {
   "property": "C59",
   "status": "proved",
   "theorems": [
    "Verif.Properties.C59_returns",
    "Verif.Properties.C59_type",
    "Verif.Properties.C59_ok",
    "Verif.Properties.C59_panic",
    "Verif.Properties.C59_integer"
   ],
   "note": "Stated over the text of the source (Returns of C48) and the values of all types. C59_integer shows that the excluded types have to be excluded."
  },
  {
   "property": "C60",
   "status": "proved",
   "theorems": [
    "Verif.Properties.C60_pretty",
    "Verif.Properties.C60_debug",
    "Verif.Properties.C60_hash",
    "Verif.Properties.C60_prefix",
    "Verif.Properties.C60_document",
    "Verif.Properties.C60_line"
   ],
   "note": "Proved for all values of all types (HasType of C51), not only for parsed ones. The tables of Unicode in the standard library are a parameter."
  },
  {
   "property": "C61",
   "status": "proved",
   "theorems": [
    "Verif.Properties.C61_interface",
    "Verif.Properties.C61_mixin",
    "Verif.Properties.C61_namespace",
    "Verif.Properties.C61_document",
    "Verif.Properties.C61_type",
    "Verif.Properties.C61_attribute",
    "Verif.Properties.C61_default",
    "Verif.Properties.C61_const",
    "Verif.Properties.C61_argument",
    "Verif.Properties.C61_nullable",
    "Verif.Properties.C61_constType",
    "Verif.Properties.C61_return"
   ],
   "note": "Proved for every text that the parsers of members, types and extended attributes take, and for the members of every definition."
  },
  {
   "property": "C62",
   "status": "proved",
   "theorems": [
    "Verif.Properties.C62_prefix",
    "Verif.Properties.C62_reaches",
    "Verif.Properties.C62_longest",
    "Verif.Properties.C62_fails",
    "Verif.Properties.C62_again"
   ],
   "note": "Proved for all 54 types that can be continued and all 37 types that end with a semicolon."
  },
  {
   "property": "C63",
   "status": "proved",
   "theorems": [
    "Verif.Properties.C63_document",
    "Verif.Properties.C63_no_brackets",
    "Verif.Properties.C63_type",
    "Verif.Properties.C63_argument",
    "Verif.Properties.C63_attributes",
    "Verif.Properties.C63_definition"
   ],
   "note": "Proved for documents, definitions, types, arguments and attribute lists, accepted and rejected."
  },
  {
   "property": "C64",
   "status": "proved",
   "theorems": [
    "Verif.Properties.C64_clone",
    "Verif.Properties.C64_default",
    "Verif.Properties.C64_total",
    "Verif.Properties.C64_terminal",
    "Verif.Properties.C64_parsed"
   ],
   "note": "Proved for all types of the expanded crate."
  },
  {
   "property": "C65",
   "status": "proved",
   "theorems": [
    "Verif.Properties.C65_attempts",
    "Verif.Properties.C65_document",
    "Verif.Properties.C65_weighted",
    "Verif.Properties.C65_linear",
    "Verif.Properties.C65_type",
    "Verif.Properties.C65_argument",
    "Verif.Properties.C65_attributes",
    "Verif.Properties.C65_definition",
    "Verif.Properties.C65_definition_end"
   ],
   "note": "Per-place bound for documents, definitions, types, arguments and attribute lists; the sum over all places for any way of charging; an accepted definition has not been looked behind. Attempts at terminals are counted; C67 counts the characters that they read."
  },
  {
   "property": "C66",
   "status": "proved",
   "theorems": [
    "Verif.Properties.C66_trace",
    "Verif.Properties.C66_length",
    "Verif.Properties.C66_linked",
    "Verif.Properties.C66_document",
    "Verif.Properties.C66_cuts",
    "Verif.Properties.C66_parts"
   ],
   "note": "For documents and for the parsers of definitions, members, types, arguments, attributes and values. IntegerLit alone is left out: it never tries a number with a fraction."
  },
  {
   "property": "C67",
   "status": "proved",
   "theorems": [
    "Verif.Properties.C67_same",
    "Verif.Properties.C67_local",
    "Verif.Properties.C67_document",
    "Verif.Properties.C67_type",
    "Verif.Properties.C67_argument",
    "Verif.Properties.C67_attributes",
    "Verif.Properties.C67_definition",
    "Verif.Properties.C67_counter",
    "Verif.Properties.C67_determined",
    "Verif.Properties.C67_atleast",
    "Verif.Properties.C67_time",
    "Verif.Properties.C67_accepted",
    "Verif.Properties.C67_exponential"
   ],
   "note": "C67_same and C67_local tie the counters to the terminals, C67_counter and C67_determined to the whole parser. Looks at characters are counted; copying, allocation and the bookkeeping of nom are not."
  },
  {
   "property": "C68",
   "status": "proved",
   "theorems": [
    "Verif.Properties.C68_missing",
    "Verif.Properties.C68_extra",
    "Verif.Properties.C68_changed"
   ],
   "note": "The places that are excepted are listed in Spec/Missing.lean, with a pair of accepted texts for each in Properties/Missing.lean. Brackets are the subject of C39."
  },
  {
   "property": "C69",
   "status": "proved",
   "theorems": [
    "Verif.Properties.C69_missing_name",
    "Verif.Properties.C69_extra_name",
    "Verif.Properties.C69_misspelt_keyword",
    "Verif.Properties.C69_missing_keyword",
    "Verif.Properties.C69_keyword_for_name",
    "Verif.Properties.C69_extra_keyword"
   ],
   "note": "The words and the excepted places are listed in Spec/Words.lean, with a pair of accepted texts for each in Properties/Words.lean; the names in a parsed document are collected by Spec/Names.lean. Keywords that are optional in the grammar (partial, readonly, static and so on) are not required, and keywords that are types can be replaced by the name of a type."
  },
  {
   "property": "C70",
   "status": "proved",
   "theorems": [
    "Verif.Properties.C70_missing_bracket",
    "Verif.Properties.C70_extra_bracket",
    "Verif.Properties.C70_changed_bracket",
    "Verif.Properties.C70_missing_literal",
    "Verif.Properties.C70_extra_literal",
    "Verif.Properties.C70_changed_number",
    "Verif.Properties.C70_changed_string",
    "Verif.Properties.C70_mark_for_word",
    "Verif.Properties.C70_word_for_mark",
    "Verif.Properties.C70_exchanged_keyword"
   ],
   "note": "Together with C68 and C69 this covers the edits of one item. What is excepted is listed in Spec/Items.lean, with accepted texts for each exception in Properties/Items.lean."
  },
  {
   "property": "C71",
   "status": "proved",
   "theorems": [
    "Verif.Properties.C71_relayout",
    "Verif.Properties.C71_accepted",
    "Verif.Properties.C71_open",
    "Verif.Properties.C71_shortest"
   ],
   "note": "The scanner that the tool uses (relayout) and the rule for spaces (touch) are in Spec/Layout.lean."
  },
  {
   "property": "C72",
   "status": "proved",
   "theorems": [
    "Verif.Properties.C72_accounts",
    "Verif.Properties.C72_exactly"
   ],
   "note": "The order of the names, strings and numbers in the result is given by Spec.strings (Spec/Collect.lean), that of the fields in the source."
  },
  {
   "property": "C73",
   "status": "proved",
   "theorems": [
    "Verif.Properties.C73_mark_back",
    "Verif.Properties.C73_mark_forth",
    "Verif.Properties.C73_literal",
    "Verif.Properties.C73_keyword"
   ],
   "note": "Exchanging a bracket with its neighbour, or two words of the same kind, is not covered."
  },
  {
   "property": "C74",
   "status": "proved",
   "theorems": [
    "Verif.Properties.C74_definitions",
    "Verif.Properties.C74_rejected",
    "Verif.Properties.C74_prefix",
    "Verif.Properties.C74_members"
   ],
   "note": ""
  },
  {
   "property": "C75",
   "status": "proved",
   "theorems": [
    "Verif.Properties.C75_arguments",
    "Verif.Properties.C75_attributes",
    "Verif.Properties.C75_identifiers",
    "Verif.Properties.C75_values",
    "Verif.Properties.C75_union"
   ],
   "note": "alternatives (Spec/Lists.lean) takes an `or` that begins a type as the name of a type."
  },
  {
   "property": "C76",
   "status": "proved",
   "theorems": [
    "Verif.Properties.C76_fields",
    "Verif.Properties.C76_definition",
    "Verif.Properties.C76_definition_bare",
    "Verif.Properties.C76_members"
   ],
   "note": "Arguments are not covered: there the second of two lists belongs to the type, and the examples show that the rest by itself can be rejected."
  },
  {
   "property": "C77",
   "status": "proved",
   "theorems": [
    "Verif.Properties.C77_names",
    "Verif.Properties.C77_strings",
    "Verif.Properties.C77_lists",
    "Verif.Properties.C77_structs",
    "Verif.Properties.C77_enums",
    "Verif.Properties.C77_kinds",
    "Verif.Properties.C77_definitions"
   ],
   "note": ""
  },
  {
   "property": "C78",
   "status": "proved",
   "theorems": [
    "Verif.Properties.C78_definitions",
    "Verif.Properties.C78_members",
    "Verif.Properties.C78_arguments",
    "Verif.Properties.C78_attributes",
    "Verif.Properties.C78_union",
    "Verif.Properties.C78_values"
   ],
   "note": "Arguments, extended attributes and unions by themselves; C56 says that they can be exchanged in any text."
  },
  {
   "property": "C79",
   "status": "proved",
   "theorems": [
    "Verif.Properties.C79_extend",
    "Verif.Properties.C79_alone",
    "Verif.Properties.C79_longest",
    "Verif.Properties.C79_document",
    "Verif.Properties.C79_none",
    "Verif.Properties.C79_nothing",
    "Verif.Properties.C79_behind"
   ],
   "note": "Stated over all texts, not only those that consist of items (C74)."
  },
  {
   "property": "C80",
   "status": "proved",
   "theorems": [
    "Verif.Properties.C80_traced",
    "Verif.Properties.C80_document",
    "Verif.Properties.C80_node",
    "Verif.Properties.C80_string"
   ],
   "note": "The order of the places of the parts of a node is not stated here; it follows from the round trip (C21)."
  },
  {
   "property": "C81",
   "status": "proved",
   "theorems": [
    "Verif.Properties.C81_legal",
    "Verif.Properties.C81_document",
    "Verif.Properties.C81_exact",
    "Verif.Properties.C81_parameters"
   ],
   "note": ""
  },
  {
   "property": "C82",
   "status": "proved",
   "theorems": [
    "Verif.Properties.C82_occurs",
    "Verif.Properties.C82_exact",
    "Verif.Properties.C82_variants",
    "Verif.Properties.C82_unused",
    "Verif.Properties.C82_alone"
   ],
   "note": ""
  },
  {
   "property": "C83",
   "status": "proved",
   "theorems": [
    "Verif.Properties.C83_replace",
    "Verif.Properties.C83_document",
    "Verif.Properties.C83_attributes",
    "Verif.Properties.C83_key"
   ],
   "note": ""
  },
  {
   "property": "C84",
   "status": "proved",
   "theorems": [
    "Verif.Properties.C84_rearrange",
    "Verif.Properties.C84_document",
    "Verif.Properties.C84_many",
    "Verif.Properties.C84_documents",
    "Verif.Properties.C84_last"
   ],
   "note": ""
  },
  {
   "property": "C85",
   "status": "proved",
   "theorems": [
    "Verif.Properties.C85_clear",
    "Verif.Properties.C85_document",
    "Verif.Properties.C85_optional",
    "Verif.Properties.C85_attributes"
   ],
   "note": ""
  }
 ]
}