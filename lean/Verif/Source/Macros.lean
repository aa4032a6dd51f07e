import Verif.Source.Tree

/-!
# The macros of the crate

As read from the text by `readMacros`, which is checked in `Verif/Source/Expand.lean`.
-/

namespace Verif.Source

set_option maxRecDepth 10000

/-- `tag!`. `/repo/src/macros.rs:1-5` -/
def rules_tag : List Rule := [
  ⟨[.var c!"i" .expr, .tok (.p ','), .var c!"tag" .expr],
   [.tok (.id c!"nom"), .tok (.p ':'), .tok (.p ':'), .tok (.id c!"bytes"), .tok (.p ':'), .tok (.p ':'), .tok (.id c!"complete"), .tok (.p ':'), .tok (.p ':'), .tok (.id c!"tag"), .grp '(' [.var c!"tag"], .grp '(' [.var c!"i"]]⟩]

/-- `take_while!`. `/repo/src/macros.rs:7-14` -/
def rules_take_while : List Rule := [
  ⟨[.var c!"input" .expr, .tok (.p ','), .var c!"submac" .ident, .tok (.p '!'), .grp '(' [.rep [c!"args"] [.var c!"args" .tt] none false]],
   [.tok (.id c!"crate"), .tok (.p ':'), .tok (.p ':'), .tok (.id c!"macros"), .tok (.p ':'), .tok (.p ':'), .tok (.id c!"take_while"), .tok (.p '!'), .grp '(' [.var c!"input", .tok (.p ','), .grp '(' [.tok (.p '|'), .tok (.id c!"c"), .tok (.p '|'), .var c!"submac", .tok (.p '!'), .grp '(' [.tok (.id c!"c"), .tok (.p ','), .rep [c!"args"] [.var c!"args"] none]]]]⟩,
  ⟨[.var c!"input" .expr, .tok (.p ','), .var c!"f" .expr],
   [.tok (.id c!"nom"), .tok (.p ':'), .tok (.p ':'), .tok (.id c!"bytes"), .tok (.p ':'), .tok (.p ':'), .tok (.id c!"complete"), .tok (.p ':'), .tok (.p ':'), .tok (.id c!"take_while"), .grp '(' [.var c!"f"], .grp '(' [.var c!"input"]]⟩]

/-- `take_while1!`. `/repo/src/macros.rs:16-23` -/
def rules_take_while1 : List Rule := [
  ⟨[.var c!"input" .expr, .tok (.p ','), .var c!"submac" .ident, .tok (.p '!'), .grp '(' [.rep [c!"args"] [.var c!"args" .tt] none false]],
   [.tok (.id c!"crate"), .tok (.p ':'), .tok (.p ':'), .tok (.id c!"macros"), .tok (.p ':'), .tok (.p ':'), .tok (.id c!"take_while1"), .tok (.p '!'), .grp '(' [.var c!"input", .tok (.p ','), .grp '(' [.tok (.p '|'), .tok (.id c!"c"), .tok (.p '|'), .var c!"submac", .tok (.p '!'), .grp '(' [.tok (.id c!"c"), .tok (.p ','), .rep [c!"args"] [.var c!"args"] none]]]]⟩,
  ⟨[.var c!"input" .expr, .tok (.p ','), .var c!"f" .expr],
   [.tok (.id c!"nom"), .tok (.p ':'), .tok (.p ':'), .tok (.id c!"bytes"), .tok (.p ':'), .tok (.p ':'), .tok (.id c!"complete"), .tok (.p ':'), .tok (.p ':'), .tok (.id c!"take_while1"), .grp '(' [.var c!"f"], .grp '(' [.var c!"input"]]⟩]

/-- `take_until!`. `/repo/src/macros.rs:25-29` -/
def rules_take_until : List Rule := [
  ⟨[.var c!"i" .expr, .tok (.p ','), .var c!"substr" .expr],
   [.tok (.id c!"nom"), .tok (.p ':'), .tok (.p ':'), .tok (.id c!"bytes"), .tok (.p ':'), .tok (.p ':'), .tok (.id c!"complete"), .tok (.p ':'), .tok (.p ':'), .tok (.id c!"take_until"), .grp '(' [.var c!"substr"], .grp '(' [.var c!"i"]]⟩]

/-- `one_of!`. `/repo/src/macros.rs:31-35` -/
def rules_one_of : List Rule := [
  ⟨[.var c!"i" .expr, .tok (.p ','), .var c!"inp" .expr],
   [.tok (.id c!"nom"), .tok (.p ':'), .tok (.p ':'), .tok (.id c!"character"), .tok (.p ':'), .tok (.p ':'), .tok (.id c!"complete"), .tok (.p ':'), .tok (.p ':'), .tok (.id c!"one_of"), .grp '(' [.var c!"inp"], .grp '(' [.var c!"i"]]⟩]

/-- `char!`. `/repo/src/macros.rs:37-41` -/
def rules_char : List Rule := [
  ⟨[.var c!"i" .expr, .tok (.p ','), .var c!"c" .expr],
   [.tok (.id c!"nom"), .tok (.p ':'), .tok (.p ':'), .tok (.id c!"character"), .tok (.p ':'), .tok (.p ':'), .tok (.id c!"complete"), .tok (.p ':'), .tok (.p ':'), .tok (.id c!"char"), .grp '(' [.var c!"c"], .grp '(' [.var c!"i"]]⟩]

/-- `parser!`. `/repo/src/macros.rs:43-49` -/
def rules_parser : List Rule := [
  ⟨[.var c!"submac" .ident, .tok (.p '!'), .grp '(' [.rep [c!"args"] [.var c!"args" .tt] none false]],
   [.tok (.id c!"fn"), .tok (.id c!"parse"), .grp '(' [.tok (.id c!"input"), .tok (.p ':'), .tok (.p '&'), .tok (.life c!"a"), .tok (.id c!"str")], .tok (.p '-'), .tok (.p '>'), .tok (.id c!"crate"), .tok (.p ':'), .tok (.p ':'), .tok (.id c!"IResult"), .tok (.p '<'), .tok (.p '&'), .tok (.life c!"a"), .tok (.id c!"str"), .tok (.p ','), .tok (.id c!"Self"), .tok (.p '>'), .grp '{' [.var c!"submac", .tok (.p '!'), .grp '(' [.tok (.id c!"input"), .tok (.p ','), .rep [c!"args"] [.var c!"args"] none]]]⟩]

/-- `weedle!`. `/repo/src/macros.rs:51-55` -/
def rules_weedle : List Rule := [
  ⟨[.var c!"i" .expr, .tok (.p ','), .var c!"t" .ty],
   [.tok (.p '<'), .var c!"t", .tok (.id c!"as"), .tok (.id c!"crate"), .tok (.p ':'), .tok (.p ':'), .tok (.id c!"Parse"), .tok (.p '<'), .tok (.life c!"a"), .tok (.p '>'), .tok (.p '>'), .tok (.p ':'), .tok (.p ':'), .tok (.id c!"parse"), .grp '(' [.var c!"i"]]⟩]

/-- `ast_types!`. `/repo/src/macros.rs:57-181` -/
def rules_ast_types : List Rule := [
  ⟨[.tok (.p '@'), .tok (.id c!"extract_type"), .tok (.id c!"struct"), .var c!"name" .ident, .tok (.p '<'), .tok (.life c!"a"), .tok (.p '>'), .rep [c!"rest"] [.var c!"rest" .tt] none false],
   [.var c!"name", .tok (.p '<'), .tok (.life c!"a"), .tok (.p '>')]⟩,
  ⟨[.tok (.p '@'), .tok (.id c!"extract_type"), .tok (.id c!"struct"), .var c!"name" .ident, .rep [c!"rest"] [.var c!"rest" .tt] none false],
   [.var c!"name"]⟩,
  ⟨[.tok (.p '@'), .tok (.id c!"extract_type"), .tok (.id c!"enum"), .var c!"name" .ident, .tok (.p '<'), .tok (.life c!"a"), .tok (.p '>'), .rep [c!"rest"] [.var c!"rest" .tt] none false],
   [.var c!"name", .tok (.p '<'), .tok (.life c!"a"), .tok (.p '>')]⟩,
  ⟨[.tok (.p '@'), .tok (.id c!"extract_type"), .tok (.id c!"enum"), .var c!"name" .ident, .rep [c!"rest"] [.var c!"rest" .tt] none false],
   [.var c!"name"]⟩,
  ⟨[],
   []⟩,
  ⟨[.rep [c!"attr"] [.tok (.p '#'), .grp '[' [.var c!"attr" .attr]] none false, .tok (.id c!"struct"), .var c!"name" .ident, .tok (.p '<'), .tok (.life c!"a"), .tok (.p '>'), .grp '{' [.rep [c!"fields"] [.var c!"fields" .tt] none false], .rep [c!"rest"] [.var c!"rest" .tt] none false],
   [.tok (.id c!"__ast_struct"), .tok (.p '!'), .grp '{' [.tok (.p '@'), .tok (.id c!"launch_pad"), .rep [c!"attr"] [.tok (.p '#'), .grp '[' [.var c!"attr"]] none, .var c!"name", .grp '[' [.tok (.life c!"a")], .grp '[' [], .grp '{' [.rep [c!"fields"] [.var c!"fields"] none]], .tok (.id c!"ast_types"), .tok (.p '!'), .grp '(' [.rep [c!"rest"] [.var c!"rest"] none], .tok (.p ';')]⟩,
  ⟨[.rep [c!"attr"] [.tok (.p '#'), .grp '[' [.var c!"attr" .attr]] none false, .tok (.id c!"struct"), .var c!"name" .ident, .tok (.p '<'), .rep [c!"generics"] [.var c!"generics" .ident] (some (.p ',')) true, .tok (.p '>'), .tok (.id c!"where"), .grp '[' [.rep [c!"bounds"] [.var c!"bounds" .tt] none true], .grp '{' [.rep [c!"fields"] [.var c!"fields" .tt] none false], .rep [c!"rest"] [.var c!"rest" .tt] none false],
   [.tok (.id c!"__ast_struct"), .tok (.p '!'), .grp '{' [.tok (.p '@'), .tok (.id c!"launch_pad"), .rep [c!"attr"] [.tok (.p '#'), .grp '[' [.var c!"attr"]] none, .var c!"name", .grp '[' [.rep [c!"generics"] [.var c!"generics"] none], .grp '[' [.rep [c!"bounds"] [.var c!"bounds"] none], .grp '{' [.rep [c!"fields"] [.var c!"fields"] none]], .tok (.id c!"ast_types"), .tok (.p '!'), .grp '(' [.rep [c!"rest"] [.var c!"rest"] none], .tok (.p ';')]⟩,
  ⟨[.rep [c!"attr"] [.tok (.p '#'), .grp '[' [.var c!"attr" .attr]] none false, .tok (.id c!"struct"), .var c!"name" .ident, .grp '{' [.rep [c!"fields"] [.var c!"fields" .tt] none false], .rep [c!"rest"] [.var c!"rest" .tt] none false],
   [.tok (.id c!"__ast_struct"), .tok (.p '!'), .grp '{' [.tok (.p '@'), .tok (.id c!"launch_pad"), .rep [c!"attr"] [.tok (.p '#'), .grp '[' [.var c!"attr"]] none, .var c!"name", .grp '[' [], .grp '[' [], .grp '{' [.rep [c!"fields"] [.var c!"fields"] none]], .tok (.id c!"ast_types"), .tok (.p '!'), .grp '(' [.rep [c!"rest"] [.var c!"rest"] none], .tok (.p ';')]⟩,
  ⟨[.rep [c!"attr"] [.tok (.p '#'), .grp '[' [.var c!"attr" .attr]] none false, .tok (.id c!"struct"), .var c!"name" .ident, .tok (.p '<'), .tok (.life c!"a"), .tok (.p '>'), .grp '(' [.rep [c!"fields"] [.var c!"fields" .tt] none false], .rep [c!"rest"] [.var c!"rest" .tt] none false],
   [.tok (.id c!"__ast_tuple_struct"), .tok (.p '!'), .grp '{' [.tok (.p '@'), .tok (.id c!"launch_pad"), .rep [c!"attr"] [.tok (.p '#'), .grp '[' [.var c!"attr"]] none, .var c!"name", .grp '[' [.tok (.life c!"a")], .grp '(' [.rep [c!"fields"] [.var c!"fields"] none]], .tok (.id c!"ast_types"), .tok (.p '!'), .grp '(' [.rep [c!"rest"] [.var c!"rest"] none], .tok (.p ';')]⟩,
  ⟨[.rep [c!"attr"] [.tok (.p '#'), .grp '[' [.var c!"attr" .attr]] none false, .tok (.id c!"struct"), .var c!"name" .ident, .grp '(' [.rep [c!"fields"] [.var c!"fields" .tt] none false], .rep [c!"rest"] [.var c!"rest" .tt] none false],
   [.tok (.id c!"__ast_tuple_struct"), .tok (.p '!'), .grp '{' [.tok (.p '@'), .tok (.id c!"launch_pad"), .rep [c!"attr"] [.tok (.p '#'), .grp '[' [.var c!"attr"]] none, .var c!"name", .grp '[' [], .grp '(' [.rep [c!"fields"] [.var c!"fields"] none]], .tok (.id c!"ast_types"), .tok (.p '!'), .grp '(' [.rep [c!"rest"] [.var c!"rest"] none], .tok (.p ';')]⟩,
  ⟨[.rep [c!"attr"] [.tok (.p '#'), .grp '[' [.var c!"attr" .attr]] none false, .tok (.id c!"enum"), .var c!"name" .ident, .tok (.p '<'), .tok (.life c!"a"), .tok (.p '>'), .grp '{' [.rep [c!"variants"] [.var c!"variants" .tt] none false], .rep [c!"rest"] [.var c!"rest" .tt] none false],
   [.tok (.id c!"__ast_enum"), .tok (.p '!'), .grp '{' [.tok (.p '@'), .tok (.id c!"launch_pad"), .rep [c!"attr"] [.tok (.p '#'), .grp '[' [.var c!"attr"]] none, .var c!"name", .grp '[' [.tok (.life c!"a")], .grp '{' [.rep [c!"variants"] [.var c!"variants"] none]], .tok (.id c!"ast_types"), .tok (.p '!'), .grp '(' [.rep [c!"rest"] [.var c!"rest"] none], .tok (.p ';')]⟩,
  ⟨[.rep [c!"attr"] [.tok (.p '#'), .grp '[' [.var c!"attr" .attr]] none false, .tok (.id c!"enum"), .var c!"name" .ident, .grp '{' [.rep [c!"variants"] [.var c!"variants" .tt] none false], .rep [c!"rest"] [.var c!"rest" .tt] none false],
   [.tok (.id c!"__ast_enum"), .tok (.p '!'), .grp '{' [.tok (.p '@'), .tok (.id c!"launch_pad"), .rep [c!"attr"] [.tok (.p '#'), .grp '[' [.var c!"attr"]] none, .var c!"name", .grp '[' [], .grp '{' [.rep [c!"variants"] [.var c!"variants"] none]], .tok (.id c!"ast_types"), .tok (.p '!'), .grp '(' [.rep [c!"rest"] [.var c!"rest"] none], .tok (.p ';')]⟩]

/-- `__ast_tuple_struct!`. `/repo/src/macros.rs:183-219` -/
def m___ast_tuple_struct : List Rule := [
  ⟨[.tok (.p '@'), .tok (.id c!"launch_pad"), .rep [c!"attr"] [.tok (.p '#'), .grp '[' [.var c!"attr" .attr]] none false, .var c!"name" .ident, .grp '[' [.rep [c!"maybe_a"] [.var c!"maybe_a" .tt] none false], .grp '(' [.var c!"inner" .ty, .tok (.p '='), .var c!"submac" .ident, .tok (.p '!'), .grp '(' [.rep [c!"args"] [.var c!"args" .tt] none false], .tok (.p ',')]],
   [.rep [c!"attr"] [.tok (.p '#'), .grp '[' [.var c!"attr"]] none, .tok (.p '#'), .grp '[' [.tok (.id c!"derive"), .grp '(' [.tok (.id c!"Clone"), .tok (.p ','), .tok (.id c!"Debug"), .tok (.p ','), .tok (.id c!"Eq"), .tok (.p ','), .tok (.id c!"PartialEq"), .tok (.p ','), .tok (.id c!"Ord"), .tok (.p ','), .tok (.id c!"PartialOrd"), .tok (.p ','), .tok (.id c!"Hash")]], .tok (.id c!"pub"), .tok (.id c!"struct"), .var c!"name", .tok (.p '<'), .rep [c!"maybe_a"] [.var c!"maybe_a"] none, .tok (.p '>'), .grp '(' [.tok (.id c!"pub"), .var c!"inner"], .tok (.p ';'), .tok (.id c!"impl"), .tok (.p '<'), .tok (.life c!"a"), .tok (.p '>'), .tok (.id c!"crate"), .tok (.p ':'), .tok (.p ':'), .tok (.id c!"Parse"), .tok (.p '<'), .tok (.life c!"a"), .tok (.p '>'), .tok (.id c!"for"), .var c!"name", .tok (.p '<'), .rep [c!"maybe_a"] [.var c!"maybe_a"] none, .tok (.p '>'), .grp '{' [.tok (.id c!"fn"), .tok (.id c!"parse"), .grp '(' [.tok (.id c!"input"), .tok (.p ':'), .tok (.p '&'), .tok (.life c!"a"), .tok (.id c!"str")], .tok (.p '-'), .tok (.p '>'), .tok (.id c!"crate"), .tok (.p ':'), .tok (.p ':'), .tok (.id c!"IResult"), .tok (.p '<'), .tok (.p '&'), .tok (.life c!"a"), .tok (.id c!"str"), .tok (.p ','), .tok (.id c!"Self"), .tok (.p '>'), .grp '{' [.tok (.id c!"use"), .tok (.id c!"crate"), .tok (.p ':'), .tok (.p ':'), .tok (.id c!"nom"), .tok (.p ':'), .tok (.p ':'), .tok (.id c!"lib"), .tok (.p ':'), .tok (.p ':'), .tok (.id c!"std"), .tok (.p ':'), .tok (.p ':'), .tok (.id c!"result"), .tok (.p ':'), .tok (.p ':'), .tok (.id c!"Result"), .tok (.p ':'), .tok (.p ':'), .tok (.p '*'), .tok (.p ';'), .tok (.id c!"match"), .var c!"submac", .tok (.p '!'), .grp '(' [.tok (.id c!"input"), .tok (.p ','), .rep [c!"args"] [.var c!"args"] none], .grp '{' [.tok (.id c!"Err"), .grp '(' [.tok (.id c!"e")], .tok (.p '='), .tok (.p '>'), .tok (.id c!"Err"), .grp '(' [.tok (.id c!"e")], .tok (.p ','), .tok (.id c!"Ok"), .grp '(' [.grp '(' [.tok (.id c!"i"), .tok (.p ','), .tok (.id c!"inner")]], .tok (.p '='), .tok (.p '>'), .tok (.id c!"Ok"), .grp '(' [.grp '(' [.tok (.id c!"i"), .tok (.p ','), .var c!"name", .grp '(' [.tok (.id c!"inner")]]], .tok (.p ',')]]]]⟩,
  ⟨[.tok (.p '@'), .tok (.id c!"launch_pad"), .rep [c!"attr"] [.tok (.p '#'), .grp '[' [.var c!"attr" .attr]] none false, .var c!"name" .ident, .grp '[' [.rep [c!"maybe_a"] [.var c!"maybe_a" .tt] none false], .grp '(' [.var c!"inner" .ty, .tok (.p ',')]],
   [.tok (.id c!"__ast_tuple_struct"), .tok (.p '!'), .grp '{' [.tok (.p '@'), .tok (.id c!"launch_pad"), .rep [c!"attr"] [.tok (.p '#'), .grp '[' [.var c!"attr"]] none, .var c!"name", .grp '[' [.rep [c!"maybe_a"] [.var c!"maybe_a"] none], .grp '(' [.var c!"inner", .tok (.p '='), .tok (.id c!"weedle"), .tok (.p '!'), .grp '(' [.var c!"inner"], .tok (.p ',')]]]⟩]

/-- `__ast_struct!`. `/repo/src/macros.rs:221-398` -/
def m___ast_struct : List Rule := [
  ⟨[.tok (.p '@'), .tok (.id c!"build_struct_decl"), .grp '{' [.rep [c!"attr"] [.tok (.p '#'), .grp '[' [.var c!"attr" .attr]] none false, .var c!"name" .ident, .grp '[' [.rep [c!"generics"] [.var c!"generics" .tt] none false], .rep [c!"field", c!"type"] [.var c!"field" .ident, .tok (.p ':'), .var c!"type" .ty] none false], .grp '{' []],
   [.rep [c!"attr"] [.tok (.p '#'), .grp '[' [.var c!"attr"]] none, .tok (.p '#'), .grp '[' [.tok (.id c!"derive"), .grp '(' [.tok (.id c!"Clone"), .tok (.p ','), .tok (.id c!"Debug"), .tok (.p ','), .tok (.id c!"Eq"), .tok (.p ','), .tok (.id c!"PartialEq"), .tok (.p ','), .tok (.id c!"Ord"), .tok (.p ','), .tok (.id c!"PartialOrd"), .tok (.p ','), .tok (.id c!"Hash")]], .tok (.id c!"pub"), .tok (.id c!"struct"), .var c!"name", .tok (.p '<'), .rep [c!"generics"] [.var c!"generics"] none, .tok (.p '>'), .grp '{' [.rep [c!"field", c!"type"] [.tok (.id c!"pub"), .var c!"field", .tok (.p ':'), .var c!"type", .tok (.p ',')] none]]⟩,
  ⟨[.tok (.p '@'), .tok (.id c!"build_struct_decl"), .grp '{' [.rep [c!"prev"] [.var c!"prev" .tt] none false], .grp '{' [.var c!"field" .ident, .tok (.p ':'), .var c!"type" .ty, .tok (.p ','), .rep [c!"rest"] [.var c!"rest" .tt] none false]],
   [.tok (.id c!"__ast_struct"), .tok (.p '!'), .grp '{' [.tok (.p '@'), .tok (.id c!"build_struct_decl"), .grp '{' [.rep [c!"prev"] [.var c!"prev"] none, .var c!"field", .tok (.p ':'), .var c!"type"], .grp '{' [.rep [c!"rest"] [.var c!"rest"] none]]]⟩,
  ⟨[.tok (.p '@'), .tok (.id c!"build_struct_decl"), .grp '{' [.rep [c!"prev"] [.var c!"prev" .tt] none false], .grp '{' [.var c!"field" .ident, .tok (.p ':'), .var c!"type" .ty, .tok (.p '='), .var c!"submac" .ident, .tok (.p '!'), .grp '(' [.rep [c!"args"] [.var c!"args" .tt] none false], .tok (.p ','), .rep [c!"rest"] [.var c!"rest" .tt] none false]],
   [.tok (.id c!"__ast_struct"), .tok (.p '!'), .grp '{' [.tok (.p '@'), .tok (.id c!"build_struct_decl"), .grp '{' [.rep [c!"prev"] [.var c!"prev"] none, .var c!"field", .tok (.p ':'), .var c!"type"], .grp '{' [.rep [c!"rest"] [.var c!"rest"] none]]]⟩,
  ⟨[.tok (.p '@'), .tok (.id c!"build_struct_decl"), .grp '{' [.rep [c!"prev"] [.var c!"prev" .tt] none false], .grp '{' [.var c!"field" .ident, .tok (.p ':'), .var c!"type" .ty, .tok (.p '='), .tok (.id c!"marker"), .tok (.p ','), .rep [c!"rest"] [.var c!"rest" .tt] none false]],
   [.tok (.id c!"__ast_struct"), .tok (.p '!'), .grp '{' [.tok (.p '@'), .tok (.id c!"build_struct_decl"), .grp '{' [.rep [c!"prev"] [.var c!"prev"] none, .var c!"field", .tok (.p ':'), .var c!"type"], .grp '{' [.rep [c!"rest"] [.var c!"rest"] none]]]⟩,
  ⟨[.tok (.p '@'), .tok (.id c!"build_parser"), .grp '{' [.var c!"i" .expr, .tok (.p ','), .rep [c!"field"] [.var c!"field" .ident] none false], .grp '{' []],
   [.grp '{' [.tok (.id c!"use"), .tok (.id c!"crate"), .tok (.p ':'), .tok (.p ':'), .tok (.id c!"nom"), .tok (.p ':'), .tok (.p ':'), .tok (.id c!"lib"), .tok (.p ':'), .tok (.p ':'), .tok (.id c!"std"), .tok (.p ':'), .tok (.p ':'), .tok (.id c!"result"), .tok (.p ':'), .tok (.p ':'), .tok (.id c!"Result"), .tok (.p ':'), .tok (.p ':'), .tok (.id c!"Ok"), .tok (.p ';'), .tok (.id c!"Ok"), .grp '(' [.grp '(' [.var c!"i", .tok (.p ','), .tok (.id c!"Self"), .grp '{' [.rep [c!"field"] [.var c!"field", .tok (.p ',')] none]]]]]⟩,
  ⟨[.tok (.p '@'), .tok (.id c!"build_parser"), .grp '{' [.var c!"i" .expr, .tok (.p ','), .rep [c!"prev"] [.var c!"prev" .tt] none false], .grp '{' [.var c!"field" .ident, .tok (.p ':'), .var c!"type" .ty, .tok (.p '='), .var c!"submac" .ident, .tok (.p '!'), .grp '(' [.rep [c!"args"] [.var c!"args" .tt] none false], .tok (.p ','), .rep [c!"rest"] [.var c!"rest" .tt] none false]],
   [.grp '{' [.tok (.id c!"use"), .tok (.id c!"crate"), .tok (.p ':'), .tok (.p ':'), .tok (.id c!"nom"), .tok (.p ':'), .tok (.p ':'), .tok (.id c!"lib"), .tok (.p ':'), .tok (.p ':'), .tok (.id c!"std"), .tok (.p ':'), .tok (.p ':'), .tok (.id c!"result"), .tok (.p ':'), .tok (.p ':'), .tok (.id c!"Result"), .tok (.p ':'), .tok (.p ':'), .tok (.p '*'), .tok (.p ';'), .tok (.id c!"match"), .var c!"submac", .tok (.p '!'), .grp '(' [.var c!"i", .tok (.p ','), .rep [c!"args"] [.var c!"args"] none], .grp '{' [.tok (.id c!"Err"), .grp '(' [.tok (.id c!"e")], .tok (.p '='), .tok (.p '>'), .tok (.id c!"Err"), .grp '(' [.tok (.id c!"e")], .tok (.p ','), .tok (.id c!"Ok"), .grp '(' [.grp '(' [.tok (.id c!"i"), .tok (.p ','), .var c!"field"]], .tok (.p '='), .tok (.p '>'), .grp '{' [.tok (.id c!"__ast_struct"), .tok (.p '!'), .grp '{' [.tok (.p '@'), .tok (.id c!"build_parser"), .grp '{' [.tok (.id c!"i"), .tok (.p ','), .rep [c!"prev"] [.var c!"prev"] none, .var c!"field"], .grp '{' [.rep [c!"rest"] [.var c!"rest"] none]]], .tok (.p ',')]]]⟩,
  ⟨[.tok (.p '@'), .tok (.id c!"build_parser"), .grp '{' [.rep [c!"prev"] [.var c!"prev" .tt] none false], .grp '{' [.var c!"field" .ident, .tok (.p ':'), .var c!"type" .ty, .tok (.p '='), .tok (.id c!"marker"), .tok (.p ','), .rep [c!"rest"] [.var c!"rest" .tt] none false]],
   [.grp '{' [.tok (.id c!"let"), .var c!"field", .tok (.p '='), .tok (.p ':'), .tok (.p ':'), .tok (.id c!"std"), .tok (.p ':'), .tok (.p ':'), .tok (.id c!"default"), .tok (.p ':'), .tok (.p ':'), .tok (.id c!"Default"), .tok (.p ':'), .tok (.p ':'), .tok (.id c!"default"), .grp '(' [], .tok (.p ';'), .tok (.id c!"__ast_struct"), .tok (.p '!'), .grp '{' [.tok (.p '@'), .tok (.id c!"build_parser"), .grp '{' [.rep [c!"prev"] [.var c!"prev"] none, .var c!"field"], .grp '{' [.rep [c!"rest"] [.var c!"rest"] none]]]]⟩,
  ⟨[.tok (.p '@'), .tok (.id c!"build_parser"), .grp '{' [.rep [c!"prev"] [.var c!"prev" .tt] none false], .grp '{' [.var c!"field" .ident, .tok (.p ':'), .var c!"type" .ty, .tok (.p ','), .rep [c!"rest"] [.var c!"rest" .tt] none false]],
   [.tok (.id c!"__ast_struct"), .tok (.p '!'), .grp '{' [.tok (.p '@'), .tok (.id c!"build_parser"), .grp '{' [.rep [c!"prev"] [.var c!"prev"] none], .grp '{' [.var c!"field", .tok (.p ':'), .var c!"type", .tok (.p '='), .tok (.id c!"weedle"), .tok (.p '!'), .grp '(' [.var c!"type"], .tok (.p ','), .rep [c!"rest"] [.var c!"rest"] none]]]⟩,
  ⟨[.tok (.p '@'), .tok (.id c!"launch_pad"), .rep [c!"attr"] [.tok (.p '#'), .grp '[' [.var c!"attr" .attr]] none false, .var c!"name" .ident, .grp '[' [], .grp '[' [], .grp '{' [.rep [c!"fields"] [.var c!"fields" .tt] none false]],
   [.tok (.id c!"__ast_struct"), .tok (.p '!'), .grp '{' [.tok (.p '@'), .tok (.id c!"build_struct_decl"), .grp '{' [.rep [c!"attr"] [.tok (.p '#'), .grp '[' [.var c!"attr"]] none, .var c!"name", .grp '[' []], .grp '{' [.rep [c!"fields"] [.var c!"fields"] none]], .tok (.id c!"impl"), .tok (.p '<'), .tok (.life c!"a"), .tok (.p '>'), .tok (.id c!"crate"), .tok (.p ':'), .tok (.p ':'), .tok (.id c!"Parse"), .tok (.p '<'), .tok (.life c!"a"), .tok (.p '>'), .tok (.id c!"for"), .var c!"name", .grp '{' [.tok (.id c!"fn"), .tok (.id c!"parse"), .grp '(' [.tok (.id c!"input"), .tok (.p ':'), .tok (.p '&'), .tok (.life c!"a"), .tok (.id c!"str")], .tok (.p '-'), .tok (.p '>'), .tok (.id c!"crate"), .tok (.p ':'), .tok (.p ':'), .tok (.id c!"IResult"), .tok (.p '<'), .tok (.p '&'), .tok (.life c!"a"), .tok (.id c!"str"), .tok (.p ','), .tok (.id c!"Self"), .tok (.p '>'), .grp '{' [.tok (.id c!"__ast_struct"), .tok (.p '!'), .grp '{' [.tok (.p '@'), .tok (.id c!"build_parser"), .grp '{' [.tok (.id c!"input"), .tok (.p ',')], .grp '{' [.rep [c!"fields"] [.var c!"fields"] none]]]]]⟩,
  ⟨[.tok (.p '@'), .tok (.id c!"launch_pad"), .rep [c!"attr"] [.tok (.p '#'), .grp '[' [.var c!"attr" .attr]] none false, .var c!"name" .ident, .grp '[' [.tok (.life c!"a")], .grp '[' [], .grp '{' [.rep [c!"fields"] [.var c!"fields" .tt] none false]],
   [.tok (.id c!"__ast_struct"), .tok (.p '!'), .grp '{' [.tok (.p '@'), .tok (.id c!"build_struct_decl"), .grp '{' [.rep [c!"attr"] [.tok (.p '#'), .grp '[' [.var c!"attr"]] none, .var c!"name", .grp '[' [.tok (.life c!"a")]], .grp '{' [.rep [c!"fields"] [.var c!"fields"] none]], .tok (.id c!"impl"), .tok (.p '<'), .tok (.life c!"a"), .tok (.p '>'), .tok (.id c!"crate"), .tok (.p ':'), .tok (.p ':'), .tok (.id c!"Parse"), .tok (.p '<'), .tok (.life c!"a"), .tok (.p '>'), .tok (.id c!"for"), .var c!"name", .tok (.p '<'), .tok (.life c!"a"), .tok (.p '>'), .grp '{' [.tok (.id c!"fn"), .tok (.id c!"parse"), .grp '(' [.tok (.id c!"input"), .tok (.p ':'), .tok (.p '&'), .tok (.life c!"a"), .tok (.id c!"str")], .tok (.p '-'), .tok (.p '>'), .tok (.id c!"crate"), .tok (.p ':'), .tok (.p ':'), .tok (.id c!"IResult"), .tok (.p '<'), .tok (.p '&'), .tok (.life c!"a"), .tok (.id c!"str"), .tok (.p ','), .tok (.id c!"Self"), .tok (.p '>'), .grp '{' [.tok (.id c!"__ast_struct"), .tok (.p '!'), .grp '{' [.tok (.p '@'), .tok (.id c!"build_parser"), .grp '{' [.tok (.id c!"input"), .tok (.p ',')], .grp '{' [.rep [c!"fields"] [.var c!"fields"] none]]]]]⟩,
  ⟨[.tok (.p '@'), .tok (.id c!"launch_pad"), .rep [c!"attr"] [.tok (.p '#'), .grp '[' [.var c!"attr" .attr]] none false, .var c!"name" .ident, .grp '[' [.rep [c!"generics"] [.var c!"generics" .ident] none true], .grp '[' [.rep [c!"bounds"] [.var c!"bounds" .tt] none true], .grp '{' [.rep [c!"fields"] [.var c!"fields" .tt] none false]],
   [.tok (.id c!"__ast_struct"), .tok (.p '!'), .grp '{' [.tok (.p '@'), .tok (.id c!"build_struct_decl"), .grp '{' [.rep [c!"attr"] [.tok (.p '#'), .grp '[' [.var c!"attr"]] none, .var c!"name", .grp '[' [.rep [c!"generics"] [.var c!"generics"] (some (.p ','))]], .grp '{' [.rep [c!"fields"] [.var c!"fields"] none]], .tok (.id c!"impl"), .tok (.p '<'), .tok (.life c!"a"), .tok (.p ','), .rep [c!"generics"] [.var c!"generics"] (some (.p ',')), .tok (.p '>'), .tok (.id c!"crate"), .tok (.p ':'), .tok (.p ':'), .tok (.id c!"Parse"), .tok (.p '<'), .tok (.life c!"a"), .tok (.p '>'), .tok (.id c!"for"), .var c!"name", .tok (.p '<'), .rep [c!"generics"] [.var c!"generics"] (some (.p ',')), .tok (.p '>'), .tok (.id c!"where"), .rep [c!"bounds"] [.var c!"bounds"] none, .grp '{' [.tok (.id c!"fn"), .tok (.id c!"parse"), .grp '(' [.tok (.id c!"input"), .tok (.p ':'), .tok (.p '&'), .tok (.life c!"a"), .tok (.id c!"str")], .tok (.p '-'), .tok (.p '>'), .tok (.id c!"crate"), .tok (.p ':'), .tok (.p ':'), .tok (.id c!"IResult"), .tok (.p '<'), .tok (.p '&'), .tok (.life c!"a"), .tok (.id c!"str"), .tok (.p ','), .tok (.id c!"Self"), .tok (.p '>'), .grp '{' [.tok (.id c!"__ast_struct"), .tok (.p '!'), .grp '{' [.tok (.p '@'), .tok (.id c!"build_parser"), .grp '{' [.tok (.id c!"input"), .tok (.p ',')], .grp '{' [.rep [c!"fields"] [.var c!"fields"] none]]]]]⟩]

/-- `__ast_enum!`. `/repo/src/macros.rs:400-552` -/
def m___ast_enum : List Rule := [
  ⟨[.tok (.p '@'), .tok (.id c!"build_enum_decl"), .grp '{' [.rep [c!"attr"] [.tok (.p '#'), .grp '[' [.var c!"attr" .attr]] none false, .var c!"name" .ident, .grp '[' [.rep [c!"maybe_a"] [.var c!"maybe_a" .tt] none false], .rep [c!"variant", c!"member"] [.var c!"variant" .ident, .grp '(' [.var c!"member" .ty]] none false], .grp '{' []],
   [.rep [c!"attr"] [.tok (.p '#'), .grp '[' [.var c!"attr"]] none, .tok (.p '#'), .grp '[' [.tok (.id c!"derive"), .grp '(' [.tok (.id c!"Clone"), .tok (.p ','), .tok (.id c!"Debug"), .tok (.p ','), .tok (.id c!"Eq"), .tok (.p ','), .tok (.id c!"PartialEq"), .tok (.p ','), .tok (.id c!"Ord"), .tok (.p ','), .tok (.id c!"PartialOrd"), .tok (.p ','), .tok (.id c!"Hash")]], .tok (.id c!"pub"), .tok (.id c!"enum"), .var c!"name", .tok (.p '<'), .rep [c!"maybe_a"] [.var c!"maybe_a"] none, .tok (.p '>'), .grp '{' [.rep [c!"variant", c!"member"] [.var c!"variant", .grp '(' [.var c!"member"], .tok (.p ',')] none]]⟩,
  ⟨[.tok (.p '@'), .tok (.id c!"build_enum_decl"), .grp '{' [.rep [c!"prev"] [.var c!"prev" .tt] none false], .grp '{' [.var c!"variant" .ident, .grp '(' [.var c!"member" .ty], .tok (.p ','), .rep [c!"rest"] [.var c!"rest" .tt] none false]],
   [.tok (.id c!"__ast_enum"), .tok (.p '!'), .grp '{' [.tok (.p '@'), .tok (.id c!"build_enum_decl"), .grp '{' [.rep [c!"prev"] [.var c!"prev"] none, .var c!"variant", .grp '(' [.var c!"member"]], .grp '{' [.rep [c!"rest"] [.var c!"rest"] none]]]⟩,
  ⟨[.tok (.p '@'), .tok (.id c!"build_enum_decl"), .grp '{' [.rep [c!"prev"] [.var c!"prev" .tt] none false], .grp '{' [.rep [c!"attr"] [.tok (.p '#'), .grp '[' [.var c!"attr" .attr]] none false, .var c!"variant" .ident, .grp '(' [.rep [c!"member"] [.var c!"member" .tt] none false], .tok (.p ','), .rep [c!"rest"] [.var c!"rest" .tt] none false]],
   [.tok (.id c!"__ast_enum"), .tok (.p '!'), .grp '{' [.tok (.p '@'), .tok (.id c!"build_enum_decl"), .grp '{' [.rep [c!"prev"] [.var c!"prev"] none, .var c!"variant", .grp '(' [.tok (.id c!"ast_types"), .tok (.p '!'), .grp '{' [.tok (.p '@'), .tok (.id c!"extract_type"), .rep [c!"member"] [.var c!"member"] none]]], .grp '{' [.rep [c!"rest"] [.var c!"rest"] none]]]⟩,
  ⟨[.tok (.p '@'), .tok (.id c!"build_sub_types"), .grp '{' []],
   []⟩,
  ⟨[.tok (.p '@'), .tok (.id c!"build_sub_types"), .grp '{' [.var c!"variant" .ident, .grp '(' [.var c!"member" .ty], .tok (.p ','), .rep [c!"rest"] [.var c!"rest" .tt] none false]],
   [.tok (.id c!"__ast_enum"), .tok (.p '!'), .grp '{' [.tok (.p '@'), .tok (.id c!"build_sub_types"), .grp '{' [.rep [c!"rest"] [.var c!"rest"] none]]]⟩,
  ⟨[.tok (.p '@'), .tok (.id c!"build_sub_types"), .grp '{' [.rep [c!"attr"] [.tok (.p '#'), .grp '[' [.var c!"attr" .attr]] none false, .var c!"variant" .ident, .grp '(' [.rep [c!"member"] [.var c!"member" .tt] none false], .tok (.p ','), .rep [c!"rest"] [.var c!"rest" .tt] none false]],
   [.tok (.id c!"ast_types"), .tok (.p '!'), .grp '{' [.rep [c!"attr"] [.tok (.p '#'), .grp '[' [.var c!"attr"]] none, .rep [c!"member"] [.var c!"member"] none], .tok (.id c!"__ast_enum"), .tok (.p '!'), .grp '{' [.tok (.p '@'), .tok (.id c!"build_sub_types"), .grp '{' [.rep [c!"rest"] [.var c!"rest"] none]]]⟩,
  ⟨[.tok (.p '@'), .tok (.id c!"build_conversions"), .var c!"name" .ident, .grp '[' [.rep [c!"maybe_a"] [.var c!"maybe_a" .tt] none false], .grp '{' []],
   []⟩,
  ⟨[.tok (.p '@'), .tok (.id c!"build_conversions"), .var c!"name" .ident, .grp '[' [.rep [c!"maybe_a"] [.var c!"maybe_a" .tt] none false], .grp '{' [.var c!"variant" .ident, .grp '(' [.var c!"member" .ty], .tok (.p ','), .rep [c!"rest"] [.var c!"rest" .tt] none false]],
   [.tok (.id c!"impl"), .tok (.p '<'), .rep [c!"maybe_a"] [.var c!"maybe_a"] none, .tok (.p '>'), .tok (.id c!"From"), .tok (.p '<'), .var c!"member", .tok (.p '>'), .tok (.id c!"for"), .var c!"name", .tok (.p '<'), .rep [c!"maybe_a"] [.var c!"maybe_a"] none, .tok (.p '>'), .grp '{' [.tok (.id c!"fn"), .tok (.id c!"from"), .grp '(' [.tok (.id c!"x"), .tok (.p ':'), .var c!"member"], .tok (.p '-'), .tok (.p '>'), .tok (.id c!"Self"), .grp '{' [.var c!"name", .tok (.p ':'), .tok (.p ':'), .var c!"variant", .grp '(' [.tok (.id c!"x")]]], .tok (.id c!"__ast_enum"), .tok (.p '!'), .grp '{' [.tok (.p '@'), .tok (.id c!"build_conversions"), .var c!"name", .grp '[' [.rep [c!"maybe_a"] [.var c!"maybe_a"] none], .grp '{' [.rep [c!"rest"] [.var c!"rest"] none]]]⟩,
  ⟨[.tok (.p '@'), .tok (.id c!"build_conversions"), .var c!"name" .ident, .grp '[' [.rep [c!"maybe_a"] [.var c!"maybe_a" .tt] none false], .grp '{' [.rep [c!"attr"] [.tok (.p '#'), .grp '[' [.var c!"attr" .attr]] none false, .var c!"variant" .ident, .grp '(' [.rep [c!"member"] [.var c!"member" .tt] none false], .tok (.p ','), .rep [c!"rest"] [.var c!"rest" .tt] none false]],
   [.tok (.id c!"__ast_enum"), .tok (.p '!'), .grp '{' [.tok (.p '@'), .tok (.id c!"build_conversions"), .var c!"name", .grp '[' [.rep [c!"maybe_a"] [.var c!"maybe_a"] none], .grp '{' [.var c!"variant", .grp '(' [.tok (.id c!"ast_types"), .tok (.p '!'), .grp '{' [.tok (.p '@'), .tok (.id c!"extract_type"), .rep [c!"member"] [.var c!"member"] none]], .tok (.p ','), .rep [c!"rest"] [.var c!"rest"] none]]]⟩,
  ⟨[.tok (.p '@'), .tok (.id c!"build_parse"), .grp '{' [.var c!"name" .ident, .grp '[' [.rep [c!"maybe_a"] [.var c!"maybe_a" .tt] none false], .rep [c!"member"] [.var c!"member" .ty] none false], .grp '{' []],
   [.tok (.id c!"impl"), .tok (.p '<'), .tok (.life c!"a"), .tok (.p '>'), .tok (.id c!"crate"), .tok (.p ':'), .tok (.p ':'), .tok (.id c!"Parse"), .tok (.p '<'), .tok (.life c!"a"), .tok (.p '>'), .tok (.id c!"for"), .var c!"name", .tok (.p '<'), .rep [c!"maybe_a"] [.var c!"maybe_a"] none, .tok (.p '>'), .grp '{' [.tok (.id c!"parser"), .tok (.p '!'), .grp '(' [.tok (.id c!"alt"), .tok (.p '!'), .grp '(' [.rep [c!"member"] [.tok (.id c!"weedle"), .tok (.p '!'), .grp '(' [.var c!"member"], .tok (.p '='), .tok (.p '>'), .grp '{' [.tok (.id c!"From"), .tok (.p ':'), .tok (.p ':'), .tok (.id c!"from")]] (some (.p '|'))]], .tok (.p ';')]]⟩,
  ⟨[.tok (.p '@'), .tok (.id c!"build_parse"), .grp '{' [.rep [c!"prev"] [.var c!"prev" .tt] none false], .grp '{' [.var c!"variant" .ident, .grp '(' [.var c!"member" .ty], .tok (.p ','), .rep [c!"rest"] [.var c!"rest" .tt] none false]],
   [.tok (.id c!"__ast_enum"), .tok (.p '!'), .grp '{' [.tok (.p '@'), .tok (.id c!"build_parse"), .grp '{' [.rep [c!"prev"] [.var c!"prev"] none, .var c!"member"], .grp '{' [.rep [c!"rest"] [.var c!"rest"] none]]]⟩,
  ⟨[.tok (.p '@'), .tok (.id c!"build_parse"), .grp '{' [.rep [c!"prev"] [.var c!"prev" .tt] none false], .grp '{' [.rep [c!"attr"] [.tok (.p '#'), .grp '[' [.var c!"attr" .attr]] none false, .var c!"variant" .ident, .grp '(' [.rep [c!"member"] [.var c!"member" .tt] none false], .tok (.p ','), .rep [c!"rest"] [.var c!"rest" .tt] none false]],
   [.tok (.id c!"__ast_enum"), .tok (.p '!'), .grp '{' [.tok (.p '@'), .tok (.id c!"build_parse"), .grp '{' [.rep [c!"prev"] [.var c!"prev"] none, .tok (.id c!"ast_types"), .tok (.p '!'), .grp '{' [.tok (.p '@'), .tok (.id c!"extract_type"), .rep [c!"member"] [.var c!"member"] none]], .grp '{' [.rep [c!"rest"] [.var c!"rest"] none]]]⟩,
  ⟨[.tok (.p '@'), .tok (.id c!"launch_pad"), .rep [c!"attr"] [.tok (.p '#'), .grp '[' [.var c!"attr" .attr]] none false, .var c!"name" .ident, .grp '[' [.rep [c!"maybe_a"] [.var c!"maybe_a" .tt] none false], .grp '{' [.rep [c!"variants"] [.var c!"variants" .tt] none false]],
   [.tok (.id c!"__ast_enum"), .tok (.p '!'), .grp '{' [.tok (.p '@'), .tok (.id c!"build_enum_decl"), .grp '{' [.rep [c!"attr"] [.tok (.p '#'), .grp '[' [.var c!"attr"]] none, .var c!"name", .grp '[' [.rep [c!"maybe_a"] [.var c!"maybe_a"] none]], .grp '{' [.rep [c!"variants"] [.var c!"variants"] none]], .tok (.id c!"__ast_enum"), .tok (.p '!'), .grp '{' [.tok (.p '@'), .tok (.id c!"build_sub_types"), .grp '{' [.rep [c!"variants"] [.var c!"variants"] none]], .tok (.id c!"__ast_enum"), .tok (.p '!'), .grp '{' [.tok (.p '@'), .tok (.id c!"build_conversions"), .var c!"name", .grp '[' [.rep [c!"maybe_a"] [.var c!"maybe_a"] none], .grp '{' [.rep [c!"variants"] [.var c!"variants"] none]], .tok (.id c!"__ast_enum"), .tok (.p '!'), .grp '{' [.tok (.p '@'), .tok (.id c!"build_parse"), .grp '{' [.var c!"name", .grp '[' [.rep [c!"maybe_a"] [.var c!"maybe_a"] none]], .grp '{' [.rep [c!"variants"] [.var c!"variants"] none]]]⟩]

/-- `generate_terms!`. `/repo/src/term.rs:1-16` -/
def rules_generate_terms : List Rule := [
  ⟨[.rep [c!"attr", c!"typ", c!"tok"] [.rep [c!"attr"] [.tok (.p '#'), .grp '[' [.var c!"attr" .attr]] none false, .var c!"typ" .ident, .tok (.p '='), .tok (.p '>'), .var c!"tok" .expr] (some (.p ',')) false],
   [.rep [c!"attr", c!"typ", c!"crate", c!"typ", c!"tok", c!"typ"] [.rep [c!"attr"] [.tok (.p '#'), .grp '[' [.var c!"attr"]] none, .tok (.p '#'), .grp '[' [.tok (.id c!"derive"), .grp '(' [.tok (.id c!"Clone"), .tok (.p ','), .tok (.id c!"Copy"), .tok (.p ','), .tok (.id c!"Debug"), .tok (.p ','), .tok (.id c!"Default"), .tok (.p ','), .tok (.id c!"Eq"), .tok (.p ','), .tok (.id c!"Hash"), .tok (.p ','), .tok (.id c!"Ord"), .tok (.p ','), .tok (.id c!"PartialEq"), .tok (.p ','), .tok (.id c!"PartialOrd")]], .tok (.id c!"pub"), .tok (.id c!"struct"), .var c!"typ", .tok (.p ';'), .tok (.id c!"impl"), .tok (.p '<'), .tok (.life c!"a"), .tok (.p '>'), .tok (.id c!"crate"), .tok (.p ':'), .tok (.p ':'), .tok (.id c!"Parse"), .tok (.p '<'), .tok (.life c!"a"), .tok (.p '>'), .tok (.id c!"for"), .var c!"typ", .grp '{' [.tok (.id c!"parser"), .tok (.p '!'), .grp '(' [.tok (.id c!"do_parse"), .tok (.p '!'), .grp '(' [.tok (.id c!"ws"), .tok (.p '!'), .grp '(' [.tok (.id c!"tag"), .tok (.p '!'), .grp '(' [.var c!"tok"]], .tok (.p '>'), .tok (.p '>'), .grp '(' [.var c!"typ"]]], .tok (.p ';')]] none]⟩]

/-- `ident_tag!`. `/repo/src/term.rs:18-36` -/
def rules_ident_tag : List Rule := [
  ⟨[.var c!"i" .expr, .tok (.p ','), .var c!"tok" .expr],
   [.grp '{' [.tok (.id c!"match"), .tok (.id c!"tag"), .tok (.p '!'), .grp '(' [.var c!"i", .tok (.p ','), .var c!"tok"], .grp '{' [.tok (.id c!"Err"), .grp '(' [.tok (.id c!"e")], .tok (.p '='), .tok (.p '>'), .tok (.id c!"Err"), .grp '(' [.tok (.id c!"e")], .tok (.p ','), .tok (.id c!"Ok"), .grp '(' [.grp '(' [.tok (.id c!"i"), .tok (.p ','), .tok (.id c!"o")]], .tok (.p '='), .tok (.p '>'), .grp '{' [.tok (.id c!"use"), .tok (.id c!"nom"), .tok (.p ':'), .tok (.p ':'), .grp '{' [.tok (.id c!"character"), .tok (.p ':'), .tok (.p ':'), .tok (.id c!"is_alphanumeric"), .tok (.p ','), .tok (.id c!"Err"), .tok (.id c!"as"), .tok (.id c!"NomErr"), .tok (.p ','), .tok (.id c!"error"), .tok (.p ':'), .tok (.p ':'), .tok (.id c!"ErrorKind")], .tok (.p ';'), .tok (.id c!"let"), .tok (.id c!"mut"), .tok (.id c!"res"), .tok (.p '='), .tok (.id c!"Ok"), .grp '(' [.grp '(' [.tok (.id c!"i"), .tok (.p ','), .tok (.id c!"o")]], .tok (.p ';'), .tok (.id c!"if"), .tok (.id c!"let"), .tok (.id c!"Some"), .grp '(' [.tok (.p '&'), .tok (.id c!"c")], .tok (.p '='), .tok (.id c!"i"), .tok (.p '.'), .tok (.id c!"as_bytes"), .grp '(' [], .tok (.p '.'), .tok (.id c!"first"), .grp '(' [], .grp '{' [.tok (.id c!"if"), .tok (.id c!"is_alphanumeric"), .grp '(' [.tok (.id c!"c")], .tok (.p '|'), .tok (.p '|'), .tok (.id c!"c"), .tok (.p '='), .tok (.p '='), .tok (.id c!"b"), .tok (.chr '_'), .tok (.p '|'), .tok (.p '|'), .tok (.id c!"c"), .tok (.p '='), .tok (.p '='), .tok (.id c!"b"), .tok (.chr '-'), .grp '{' [.tok (.id c!"res"), .tok (.p '='), .tok (.id c!"Err"), .grp '(' [.tok (.id c!"NomErr"), .tok (.p ':'), .tok (.p ':'), .tok (.id c!"Error"), .grp '(' [.grp '(' [.var c!"i", .tok (.p ','), .tok (.id c!"ErrorKind"), .tok (.p ':'), .tok (.p ':'), .tok (.id c!"Tag")]]], .tok (.p ';')]], .tok (.id c!"res")], .tok (.p ',')]]]⟩]

/-- `generate_terms_for_names!`. `/repo/src/term.rs:38-53` -/
def rules_generate_terms_for_names : List Rule := [
  ⟨[.rep [c!"attr", c!"typ", c!"tok"] [.rep [c!"attr"] [.tok (.p '#'), .grp '[' [.var c!"attr" .attr]] none false, .var c!"typ" .ident, .tok (.p '='), .tok (.p '>'), .var c!"tok" .expr, .tok (.p ',')] none false],
   [.rep [c!"attr", c!"typ", c!"crate", c!"typ", c!"tok", c!"typ"] [.rep [c!"attr"] [.tok (.p '#'), .grp '[' [.var c!"attr"]] none, .tok (.p '#'), .grp '[' [.tok (.id c!"derive"), .grp '(' [.tok (.id c!"Clone"), .tok (.p ','), .tok (.id c!"Copy"), .tok (.p ','), .tok (.id c!"Debug"), .tok (.p ','), .tok (.id c!"Default"), .tok (.p ','), .tok (.id c!"Eq"), .tok (.p ','), .tok (.id c!"Hash"), .tok (.p ','), .tok (.id c!"Ord"), .tok (.p ','), .tok (.id c!"PartialEq"), .tok (.p ','), .tok (.id c!"PartialOrd")]], .tok (.id c!"pub"), .tok (.id c!"struct"), .var c!"typ", .tok (.p ';'), .tok (.id c!"impl"), .tok (.p '<'), .tok (.life c!"a"), .tok (.p '>'), .tok (.id c!"crate"), .tok (.p ':'), .tok (.p ':'), .tok (.id c!"Parse"), .tok (.p '<'), .tok (.life c!"a"), .tok (.p '>'), .tok (.id c!"for"), .var c!"typ", .grp '{' [.tok (.id c!"parser"), .tok (.p '!'), .grp '(' [.tok (.id c!"do_parse"), .tok (.p '!'), .grp '(' [.tok (.id c!"ws"), .tok (.p '!'), .grp '(' [.tok (.id c!"ident_tag"), .tok (.p '!'), .grp '(' [.var c!"tok"]], .tok (.p '>'), .tok (.p '>'), .grp '(' [.var c!"typ"]]], .tok (.p ';')]] none]⟩]

/-- `term!`. `/repo/src/term.rs:315-571` -/
def rules_term : List Rule := [
  ⟨[.tok (.id c!"OpenParen")],
   [.tok (.id c!"crate"), .tok (.p ':'), .tok (.p ':'), .tok (.id c!"term"), .tok (.p ':'), .tok (.p ':'), .tok (.id c!"OpenParen")]⟩,
  ⟨[.tok (.id c!"CloseParen")],
   [.tok (.id c!"crate"), .tok (.p ':'), .tok (.p ':'), .tok (.id c!"term"), .tok (.p ':'), .tok (.p ':'), .tok (.id c!"CloseParen")]⟩,
  ⟨[.tok (.id c!"OpenBracket")],
   [.tok (.id c!"crate"), .tok (.p ':'), .tok (.p ':'), .tok (.id c!"term"), .tok (.p ':'), .tok (.p ':'), .tok (.id c!"OpenBracket")]⟩,
  ⟨[.tok (.id c!"CloseBracket")],
   [.tok (.id c!"crate"), .tok (.p ':'), .tok (.p ':'), .tok (.id c!"term"), .tok (.p ':'), .tok (.p ':'), .tok (.id c!"CloseBracket")]⟩,
  ⟨[.tok (.id c!"OpenBrace")],
   [.tok (.id c!"crate"), .tok (.p ':'), .tok (.p ':'), .tok (.id c!"term"), .tok (.p ':'), .tok (.p ':'), .tok (.id c!"OpenBrace")]⟩,
  ⟨[.tok (.id c!"CloseBrace")],
   [.tok (.id c!"crate"), .tok (.p ':'), .tok (.p ':'), .tok (.id c!"term"), .tok (.p ':'), .tok (.p ':'), .tok (.id c!"CloseBrace")]⟩,
  ⟨[.tok (.p ',')],
   [.tok (.id c!"crate"), .tok (.p ':'), .tok (.p ':'), .tok (.id c!"term"), .tok (.p ':'), .tok (.p ':'), .tok (.id c!"Comma")]⟩,
  ⟨[.tok (.p '-')],
   [.tok (.id c!"crate"), .tok (.p ':'), .tok (.p ':'), .tok (.id c!"term"), .tok (.p ':'), .tok (.p ':'), .tok (.id c!"Minus")]⟩,
  ⟨[.tok (.p '.')],
   [.tok (.id c!"crate"), .tok (.p ':'), .tok (.p ':'), .tok (.id c!"term"), .tok (.p ':'), .tok (.p ':'), .tok (.id c!"Dot")]⟩,
  ⟨[.tok (.p '.'), .tok (.p '.'), .tok (.p '.')],
   [.tok (.id c!"crate"), .tok (.p ':'), .tok (.p ':'), .tok (.id c!"term"), .tok (.p ':'), .tok (.p ':'), .tok (.id c!"Ellipsis")]⟩,
  ⟨[.tok (.p ':')],
   [.tok (.id c!"crate"), .tok (.p ':'), .tok (.p ':'), .tok (.id c!"term"), .tok (.p ':'), .tok (.p ':'), .tok (.id c!"Colon")]⟩,
  ⟨[.tok (.p ';')],
   [.tok (.id c!"crate"), .tok (.p ':'), .tok (.p ':'), .tok (.id c!"term"), .tok (.p ':'), .tok (.p ':'), .tok (.id c!"SemiColon")]⟩,
  ⟨[.tok (.p '<')],
   [.tok (.id c!"crate"), .tok (.p ':'), .tok (.p ':'), .tok (.id c!"term"), .tok (.p ':'), .tok (.p ':'), .tok (.id c!"LessThan")]⟩,
  ⟨[.tok (.p '=')],
   [.tok (.id c!"crate"), .tok (.p ':'), .tok (.p ':'), .tok (.id c!"term"), .tok (.p ':'), .tok (.p ':'), .tok (.id c!"Assign")]⟩,
  ⟨[.tok (.p '>')],
   [.tok (.id c!"crate"), .tok (.p ':'), .tok (.p ':'), .tok (.id c!"term"), .tok (.p ':'), .tok (.p ':'), .tok (.id c!"GreaterThan")]⟩,
  ⟨[.tok (.p '?')],
   [.tok (.id c!"crate"), .tok (.p ':'), .tok (.p ':'), .tok (.id c!"term"), .tok (.p ':'), .tok (.p ':'), .tok (.id c!"QMark")]⟩,
  ⟨[.tok (.p '*')],
   [.tok (.id c!"crate"), .tok (.p ':'), .tok (.p ':'), .tok (.id c!"term"), .tok (.p ':'), .tok (.p ':'), .tok (.id c!"Asterisk")]⟩,
  ⟨[.tok (.id c!"or")],
   [.tok (.id c!"crate"), .tok (.p ':'), .tok (.p ':'), .tok (.id c!"term"), .tok (.p ':'), .tok (.p ':'), .tok (.id c!"Or")]⟩,
  ⟨[.tok (.id c!"optional")],
   [.tok (.id c!"crate"), .tok (.p ':'), .tok (.p ':'), .tok (.id c!"term"), .tok (.p ':'), .tok (.p ':'), .tok (.id c!"Optional")]⟩,
  ⟨[.tok (.id c!"async")],
   [.tok (.id c!"crate"), .tok (.p ':'), .tok (.p ':'), .tok (.id c!"term"), .tok (.p ':'), .tok (.p ':'), .tok (.id c!"Async")]⟩,
  ⟨[.tok (.id c!"attribute")],
   [.tok (.id c!"crate"), .tok (.p ':'), .tok (.p ':'), .tok (.id c!"term"), .tok (.p ':'), .tok (.p ':'), .tok (.id c!"Attribute")]⟩,
  ⟨[.tok (.id c!"callback")],
   [.tok (.id c!"crate"), .tok (.p ':'), .tok (.p ':'), .tok (.id c!"term"), .tok (.p ':'), .tok (.p ':'), .tok (.id c!"Callback")]⟩,
  ⟨[.tok (.id c!"const")],
   [.tok (.id c!"crate"), .tok (.p ':'), .tok (.p ':'), .tok (.id c!"term"), .tok (.p ':'), .tok (.p ':'), .tok (.id c!"Const")]⟩,
  ⟨[.tok (.id c!"deleter")],
   [.tok (.id c!"crate"), .tok (.p ':'), .tok (.p ':'), .tok (.id c!"term"), .tok (.p ':'), .tok (.p ':'), .tok (.id c!"Deleter")]⟩,
  ⟨[.tok (.id c!"dictionary")],
   [.tok (.id c!"crate"), .tok (.p ':'), .tok (.p ':'), .tok (.id c!"term"), .tok (.p ':'), .tok (.p ':'), .tok (.id c!"Dictionary")]⟩,
  ⟨[.tok (.id c!"enum")],
   [.tok (.id c!"crate"), .tok (.p ':'), .tok (.p ':'), .tok (.id c!"term"), .tok (.p ':'), .tok (.p ':'), .tok (.id c!"Enum")]⟩,
  ⟨[.tok (.id c!"getter")],
   [.tok (.id c!"crate"), .tok (.p ':'), .tok (.p ':'), .tok (.id c!"term"), .tok (.p ':'), .tok (.p ':'), .tok (.id c!"Getter")]⟩,
  ⟨[.tok (.id c!"includes")],
   [.tok (.id c!"crate"), .tok (.p ':'), .tok (.p ':'), .tok (.id c!"term"), .tok (.p ':'), .tok (.p ':'), .tok (.id c!"Includes")]⟩,
  ⟨[.tok (.id c!"inherit")],
   [.tok (.id c!"crate"), .tok (.p ':'), .tok (.p ':'), .tok (.id c!"term"), .tok (.p ':'), .tok (.p ':'), .tok (.id c!"Inherit")]⟩,
  ⟨[.tok (.id c!"interface")],
   [.tok (.id c!"crate"), .tok (.p ':'), .tok (.p ':'), .tok (.id c!"term"), .tok (.p ':'), .tok (.p ':'), .tok (.id c!"Interface")]⟩,
  ⟨[.tok (.id c!"iterable")],
   [.tok (.id c!"crate"), .tok (.p ':'), .tok (.p ':'), .tok (.id c!"term"), .tok (.p ':'), .tok (.p ':'), .tok (.id c!"Iterable")]⟩,
  ⟨[.tok (.id c!"maplike")],
   [.tok (.id c!"crate"), .tok (.p ':'), .tok (.p ':'), .tok (.id c!"term"), .tok (.p ':'), .tok (.p ':'), .tok (.id c!"Maplike")]⟩,
  ⟨[.tok (.id c!"namespace")],
   [.tok (.id c!"crate"), .tok (.p ':'), .tok (.p ':'), .tok (.id c!"term"), .tok (.p ':'), .tok (.p ':'), .tok (.id c!"Namespace")]⟩,
  ⟨[.tok (.id c!"partial")],
   [.tok (.id c!"crate"), .tok (.p ':'), .tok (.p ':'), .tok (.id c!"term"), .tok (.p ':'), .tok (.p ':'), .tok (.id c!"Partial")]⟩,
  ⟨[.tok (.id c!"required")],
   [.tok (.id c!"crate"), .tok (.p ':'), .tok (.p ':'), .tok (.id c!"term"), .tok (.p ':'), .tok (.p ':'), .tok (.id c!"Required")]⟩,
  ⟨[.tok (.id c!"setlike")],
   [.tok (.id c!"crate"), .tok (.p ':'), .tok (.p ':'), .tok (.id c!"term"), .tok (.p ':'), .tok (.p ':'), .tok (.id c!"Setlike")]⟩,
  ⟨[.tok (.id c!"setter")],
   [.tok (.id c!"crate"), .tok (.p ':'), .tok (.p ':'), .tok (.id c!"term"), .tok (.p ':'), .tok (.p ':'), .tok (.id c!"Setter")]⟩,
  ⟨[.tok (.id c!"static")],
   [.tok (.id c!"crate"), .tok (.p ':'), .tok (.p ':'), .tok (.id c!"term"), .tok (.p ':'), .tok (.p ':'), .tok (.id c!"Static")]⟩,
  ⟨[.tok (.id c!"stringifier")],
   [.tok (.id c!"crate"), .tok (.p ':'), .tok (.p ':'), .tok (.id c!"term"), .tok (.p ':'), .tok (.p ':'), .tok (.id c!"Stringifier")]⟩,
  ⟨[.tok (.id c!"typedef")],
   [.tok (.id c!"crate"), .tok (.p ':'), .tok (.p ':'), .tok (.id c!"term"), .tok (.p ':'), .tok (.p ':'), .tok (.id c!"Typedef")]⟩,
  ⟨[.tok (.id c!"unrestricted")],
   [.tok (.id c!"crate"), .tok (.p ':'), .tok (.p ':'), .tok (.id c!"term"), .tok (.p ':'), .tok (.p ':'), .tok (.id c!"Unrestricted")]⟩,
  ⟨[.tok (.id c!"symbol")],
   [.tok (.id c!"crate"), .tok (.p ':'), .tok (.p ':'), .tok (.id c!"term"), .tok (.p ':'), .tok (.p ':'), .tok (.id c!"Symbol")]⟩,
  ⟨[.tok (.p '-'), .tok (.id c!"Infinity")],
   [.tok (.id c!"crate"), .tok (.p ':'), .tok (.p ':'), .tok (.id c!"term"), .tok (.p ':'), .tok (.p ':'), .tok (.id c!"NegInfinity")]⟩,
  ⟨[.tok (.id c!"ByteString")],
   [.tok (.id c!"crate"), .tok (.p ':'), .tok (.p ':'), .tok (.id c!"term"), .tok (.p ':'), .tok (.p ':'), .tok (.id c!"ByteString")]⟩,
  ⟨[.tok (.id c!"DOMString")],
   [.tok (.id c!"crate"), .tok (.p ':'), .tok (.p ':'), .tok (.id c!"term"), .tok (.p ':'), .tok (.p ':'), .tok (.id c!"DOMString")]⟩,
  ⟨[.tok (.id c!"FrozenArray")],
   [.tok (.id c!"crate"), .tok (.p ':'), .tok (.p ':'), .tok (.id c!"term"), .tok (.p ':'), .tok (.p ':'), .tok (.id c!"FrozenArray")]⟩,
  ⟨[.tok (.id c!"Infinity")],
   [.tok (.id c!"crate"), .tok (.p ':'), .tok (.p ':'), .tok (.id c!"term"), .tok (.p ':'), .tok (.p ':'), .tok (.id c!"Infinity")]⟩,
  ⟨[.tok (.id c!"NaN")],
   [.tok (.id c!"crate"), .tok (.p ':'), .tok (.p ':'), .tok (.id c!"term"), .tok (.p ':'), .tok (.p ':'), .tok (.id c!"NaN")]⟩,
  ⟨[.tok (.id c!"USVString")],
   [.tok (.id c!"crate"), .tok (.p ':'), .tok (.p ':'), .tok (.id c!"term"), .tok (.p ':'), .tok (.p ':'), .tok (.id c!"USVString")]⟩,
  ⟨[.tok (.id c!"any")],
   [.tok (.id c!"crate"), .tok (.p ':'), .tok (.p ':'), .tok (.id c!"term"), .tok (.p ':'), .tok (.p ':'), .tok (.id c!"Any")]⟩,
  ⟨[.tok (.id c!"boolean")],
   [.tok (.id c!"crate"), .tok (.p ':'), .tok (.p ':'), .tok (.id c!"term"), .tok (.p ':'), .tok (.p ':'), .tok (.id c!"Boolean")]⟩,
  ⟨[.tok (.id c!"byte")],
   [.tok (.id c!"crate"), .tok (.p ':'), .tok (.p ':'), .tok (.id c!"term"), .tok (.p ':'), .tok (.p ':'), .tok (.id c!"Byte")]⟩,
  ⟨[.tok (.id c!"double")],
   [.tok (.id c!"crate"), .tok (.p ':'), .tok (.p ':'), .tok (.id c!"term"), .tok (.p ':'), .tok (.p ':'), .tok (.id c!"Double")]⟩,
  ⟨[.tok (.id c!"false")],
   [.tok (.id c!"crate"), .tok (.p ':'), .tok (.p ':'), .tok (.id c!"term"), .tok (.p ':'), .tok (.p ':'), .tok (.id c!"False")]⟩,
  ⟨[.tok (.id c!"float")],
   [.tok (.id c!"crate"), .tok (.p ':'), .tok (.p ':'), .tok (.id c!"term"), .tok (.p ':'), .tok (.p ':'), .tok (.id c!"Float")]⟩,
  ⟨[.tok (.id c!"long")],
   [.tok (.id c!"crate"), .tok (.p ':'), .tok (.p ':'), .tok (.id c!"term"), .tok (.p ':'), .tok (.p ':'), .tok (.id c!"Long")]⟩,
  ⟨[.tok (.id c!"null")],
   [.tok (.id c!"crate"), .tok (.p ':'), .tok (.p ':'), .tok (.id c!"term"), .tok (.p ':'), .tok (.p ':'), .tok (.id c!"Null")]⟩,
  ⟨[.tok (.id c!"object")],
   [.tok (.id c!"crate"), .tok (.p ':'), .tok (.p ':'), .tok (.id c!"term"), .tok (.p ':'), .tok (.p ':'), .tok (.id c!"Object")]⟩,
  ⟨[.tok (.id c!"octet")],
   [.tok (.id c!"crate"), .tok (.p ':'), .tok (.p ':'), .tok (.id c!"term"), .tok (.p ':'), .tok (.p ':'), .tok (.id c!"Octet")]⟩,
  ⟨[.tok (.id c!"sequence")],
   [.tok (.id c!"crate"), .tok (.p ':'), .tok (.p ':'), .tok (.id c!"term"), .tok (.p ':'), .tok (.p ':'), .tok (.id c!"Sequence")]⟩,
  ⟨[.tok (.id c!"short")],
   [.tok (.id c!"crate"), .tok (.p ':'), .tok (.p ':'), .tok (.id c!"term"), .tok (.p ':'), .tok (.p ':'), .tok (.id c!"Short")]⟩,
  ⟨[.tok (.id c!"true")],
   [.tok (.id c!"crate"), .tok (.p ':'), .tok (.p ':'), .tok (.id c!"term"), .tok (.p ':'), .tok (.p ':'), .tok (.id c!"True")]⟩,
  ⟨[.tok (.id c!"unsigned")],
   [.tok (.id c!"crate"), .tok (.p ':'), .tok (.p ':'), .tok (.id c!"term"), .tok (.p ':'), .tok (.p ':'), .tok (.id c!"Unsigned")]⟩,
  ⟨[.tok (.id c!"undefined")],
   [.tok (.id c!"crate"), .tok (.p ':'), .tok (.p ':'), .tok (.id c!"term"), .tok (.p ':'), .tok (.p ':'), .tok (.id c!"Undefined")]⟩,
  ⟨[.tok (.id c!"record")],
   [.tok (.id c!"crate"), .tok (.p ':'), .tok (.p ':'), .tok (.id c!"term"), .tok (.p ':'), .tok (.p ':'), .tok (.id c!"Record")]⟩,
  ⟨[.tok (.id c!"ArrayBuffer")],
   [.tok (.id c!"crate"), .tok (.p ':'), .tok (.p ':'), .tok (.id c!"term"), .tok (.p ':'), .tok (.p ':'), .tok (.id c!"ArrayBuffer")]⟩,
  ⟨[.tok (.id c!"DataView")],
   [.tok (.id c!"crate"), .tok (.p ':'), .tok (.p ':'), .tok (.id c!"term"), .tok (.p ':'), .tok (.p ':'), .tok (.id c!"DataView")]⟩,
  ⟨[.tok (.id c!"Int8Array")],
   [.tok (.id c!"crate"), .tok (.p ':'), .tok (.p ':'), .tok (.id c!"term"), .tok (.p ':'), .tok (.p ':'), .tok (.id c!"Int8Array")]⟩,
  ⟨[.tok (.id c!"Int16Array")],
   [.tok (.id c!"crate"), .tok (.p ':'), .tok (.p ':'), .tok (.id c!"term"), .tok (.p ':'), .tok (.p ':'), .tok (.id c!"Int16Array")]⟩,
  ⟨[.tok (.id c!"Int32Array")],
   [.tok (.id c!"crate"), .tok (.p ':'), .tok (.p ':'), .tok (.id c!"term"), .tok (.p ':'), .tok (.p ':'), .tok (.id c!"Int32Array")]⟩,
  ⟨[.tok (.id c!"Uint8Array")],
   [.tok (.id c!"crate"), .tok (.p ':'), .tok (.p ':'), .tok (.id c!"term"), .tok (.p ':'), .tok (.p ':'), .tok (.id c!"Uint8Array")]⟩,
  ⟨[.tok (.id c!"Uint16Array")],
   [.tok (.id c!"crate"), .tok (.p ':'), .tok (.p ':'), .tok (.id c!"term"), .tok (.p ':'), .tok (.p ':'), .tok (.id c!"Uint16Array")]⟩,
  ⟨[.tok (.id c!"Uint32Array")],
   [.tok (.id c!"crate"), .tok (.p ':'), .tok (.p ':'), .tok (.id c!"term"), .tok (.p ':'), .tok (.p ':'), .tok (.id c!"Uint32Array")]⟩,
  ⟨[.tok (.id c!"Uint8ClampedArray")],
   [.tok (.id c!"crate"), .tok (.p ':'), .tok (.p ':'), .tok (.id c!"term"), .tok (.p ':'), .tok (.p ':'), .tok (.id c!"Uint8ClampedArray")]⟩,
  ⟨[.tok (.id c!"Float32Array")],
   [.tok (.id c!"crate"), .tok (.p ':'), .tok (.p ':'), .tok (.id c!"term"), .tok (.p ':'), .tok (.p ':'), .tok (.id c!"Float32Array")]⟩,
  ⟨[.tok (.id c!"Float64Array")],
   [.tok (.id c!"crate"), .tok (.p ':'), .tok (.p ':'), .tok (.id c!"term"), .tok (.p ':'), .tok (.p ':'), .tok (.id c!"Float64Array")]⟩,
  ⟨[.tok (.id c!"ArrayBufferView")],
   [.tok (.id c!"crate"), .tok (.p ':'), .tok (.p ':'), .tok (.id c!"term"), .tok (.p ':'), .tok (.p ':'), .tok (.id c!"ArrayBufferView")]⟩,
  ⟨[.tok (.id c!"BufferSource")],
   [.tok (.id c!"crate"), .tok (.p ':'), .tok (.p ':'), .tok (.id c!"term"), .tok (.p ':'), .tok (.p ':'), .tok (.id c!"BufferSource")]⟩,
  ⟨[.tok (.id c!"Promise")],
   [.tok (.id c!"crate"), .tok (.p ':'), .tok (.p ':'), .tok (.id c!"term"), .tok (.p ':'), .tok (.p ':'), .tok (.id c!"Promise")]⟩,
  ⟨[.tok (.id c!"Error")],
   [.tok (.id c!"crate"), .tok (.p ':'), .tok (.p ':'), .tok (.id c!"term"), .tok (.p ':'), .tok (.p ':'), .tok (.id c!"Error")]⟩,
  ⟨[.tok (.id c!"readonly")],
   [.tok (.id c!"crate"), .tok (.p ':'), .tok (.p ':'), .tok (.id c!"term"), .tok (.p ':'), .tok (.p ':'), .tok (.id c!"ReadOnly")]⟩,
  ⟨[.tok (.id c!"mixin")],
   [.tok (.id c!"crate"), .tok (.p ':'), .tok (.p ':'), .tok (.id c!"term"), .tok (.p ':'), .tok (.p ':'), .tok (.id c!"Mixin")]⟩,
  ⟨[.tok (.id c!"implements")],
   [.tok (.id c!"crate"), .tok (.p ':'), .tok (.p ':'), .tok (.id c!"term"), .tok (.p ':'), .tok (.p ':'), .tok (.id c!"Implements")]⟩,
  ⟨[.tok (.id c!"legacycaller")],
   [.tok (.id c!"crate"), .tok (.p ':'), .tok (.p ':'), .tok (.id c!"term"), .tok (.p ':'), .tok (.p ':'), .tok (.id c!"LegacyCaller")]⟩,
  ⟨[.tok (.id c!"constructor")],
   [.tok (.id c!"crate"), .tok (.p ':'), .tok (.p ':'), .tok (.id c!"term"), .tok (.p ':'), .tok (.p ':'), .tok (.id c!"Constructor")]⟩]

/-- `ws!`. `/repo/src/whitespace.rs:20-31` -/
def rules_ws : List Rule := [
  ⟨[.var c!"i" .expr, .tok (.p ','), .rep [c!"args"] [.var c!"args" .tt] none false],
   [.grp '{' [.tok (.id c!"use"), .tok (.id c!"crate"), .tok (.p ':'), .tok (.p ':'), .tok (.id c!"whitespace"), .tok (.p ':'), .tok (.p ':'), .tok (.id c!"sp"), .tok (.p ';'), .tok (.id c!"do_parse"), .tok (.p '!'), .grp '(' [.var c!"i", .tok (.p ','), .tok (.id c!"sp"), .tok (.p '>'), .tok (.p '>'), .tok (.id c!"s"), .tok (.p ':'), .rep [c!"args"] [.var c!"args"] none, .tok (.p '>'), .tok (.p '>'), .tok (.id c!"sp"), .tok (.p '>'), .tok (.p '>'), .grp '(' [.tok (.id c!"s")]]]]⟩]

/-- The macros of the crate: `/repo/src/macros.rs:1-552`, `/repo/src/term.rs:1-53,315-571`, `/repo/src/whitespace.rs:20-31`. -/
def macros : Macros := [(c!"tag", rules_tag), (c!"take_while", rules_take_while), (c!"take_while1", rules_take_while1), (c!"take_until", rules_take_until), (c!"one_of", rules_one_of), (c!"char", rules_char), (c!"parser", rules_parser), (c!"weedle", rules_weedle), (c!"ast_types", rules_ast_types), (c!"__ast_tuple_struct", m___ast_tuple_struct), (c!"__ast_struct", m___ast_struct), (c!"__ast_enum", m___ast_enum), (c!"generate_terms", rules_generate_terms), (c!"ident_tag", rules_ident_tag), (c!"generate_terms_for_names", rules_generate_terms_for_names), (c!"term", rules_term), (c!"ws", rules_ws)]

end Verif.Source
