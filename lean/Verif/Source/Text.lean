import Verif.Model.Nom

/-!
# The text of `/repo/src/*.rs`

Line by line, up to the tests. Generated by `tools/source.py`.
-/

namespace Verif.Source

set_option maxRecDepth 2000

/-- `/repo/src/argument.rs:1-32` -/
def argument_rs0 : List Str := [
  c!"use crate::attribute::ExtendedAttributeList;",
  c!"use crate::common::{Default, Identifier, Punctuated};",
  c!"use crate::types::{AttributedType, Type};",
  c!"",
  c!"/// Parses a list of argument. Ex: `double v1, double v2, double v3, optional double alpha`",
  c!"pub type ArgumentList<'a> = Punctuated<Argument<'a>, term!(,)>;",
  c!"",
  c!"ast_types! {",
  c!"    /// Parses an argument. Ex: `double v1|double... v1s`",
  c!"    enum Argument<'a> {",
  c!"        /// Parses `[attributes]? optional? attributedtype identifier ( = default )?`",
  c!"        ///",
  c!"        /// Note: `= default` is only allowed if `optional` is present",
  c!"        Single(struct SingleArgument<'a> {",
  c!"            attributes: Option<ExtendedAttributeList<'a>>,",
  c!"            optional: Option<term!(optional)>,",
  c!"            type_: AttributedType<'a>,",
  c!"            identifier: Identifier<'a>,",
  c!"            default: Option<Default<'a>> = map!(",
  c!"                cond!(optional.is_some(), weedle!(Option<Default<'a>>)),",
  c!"                |default| default.unwrap_or(None)",
  c!"            ),",
  c!"        }),",
  c!"        /// Parses `[attributes]? type... identifier`",
  c!"        Variadic(struct VariadicArgument<'a> {",
  c!"            attributes: Option<ExtendedAttributeList<'a>>,",
  c!"            type_: Type<'a>,",
  c!"            ellipsis: term!(...),",
  c!"            identifier: Identifier<'a>,",
  c!"        }),",
  c!"    }",
  c!"}"]

/-- `/repo/src/argument.rs:1-32` -/
def argument_rs : List Str := argument_rs0

/-- `/repo/src/attribute.rs:1-66` -/
def attribute_rs0 : List Str := [
  c!"use crate::argument::ArgumentList;",
  c!"use crate::common::{Bracketed, Identifier, Parenthesized, Punctuated};",
  c!"use crate::literal::StringLit;",
  c!"",
  c!"/// Parses a list of attributes. Ex: `[ attribute1, attribute2 ]`",
  c!"pub type ExtendedAttributeList<'a> = Bracketed<Punctuated<ExtendedAttribute<'a>, term!(,)>>;",
  c!"",
  c!"/// Matches comma separated identifier list",
  c!"pub type IdentifierList<'a> = Punctuated<Identifier<'a>, term!(,)>;",
  c!"",
  c!"ast_types! {",
  c!"    /// Parses on of the forms of attribute",
  c!"    enum ExtendedAttribute<'a> {",
  c!"        /// Parses an argument list. Ex: `Constructor((double x, double y))`",
  c!"        ///",
  c!"        /// (( )) means ( ) chars",
  c!"        ArgList(struct ExtendedAttributeArgList<'a> {",
  c!"            identifier: Identifier<'a>,",
  c!"            args: Parenthesized<ArgumentList<'a>>,",
  c!"        }),",
  c!"        /// Parses a named argument list. Ex: `NamedConstructor=Image((DOMString src))`",
  c!"        ///",
  c!"        /// (( )) means ( ) chars",
  c!"        NamedArgList(struct ExtendedAttributeNamedArgList<'a> {",
  c!"            lhs_identifier: Identifier<'a>,",
  c!"            assign: term!(=),",
  c!"            rhs_identifier: Identifier<'a>,",
  c!"            args: Parenthesized<ArgumentList<'a>>,",
  c!"",
  c!"        }),",
  c!"        /// Parses an identifier list. Ex: `Exposed=((Window,Worker))`",
  c!"        ///",
  c!"        /// (( )) means ( ) chars",
  c!"        IdentList(struct ExtendedAttributeIdentList<'a> {",
  c!"            identifier: Identifier<'a>,",
  c!"            assign: term!(=),",
  c!"            list: Parenthesized<IdentifierList<'a>>,",
  c!"        }),",
  c!"        /// Parses an attribute with an identifier. Ex: `PutForwards=name`",
  c!"        #[derive(Copy)]",
  c!"        Ident(struct ExtendedAttributeIdent<'a> {",
  c!"            lhs_identifier: Identifier<'a>,",
  c!"            assign: term!(=),",
  c!"            rhs: IdentifierOrString<'a>,",
  c!"        }),",
  c!"        /// Parses an attribute with a wildcard. Ex: `Exposed=*`",
  c!"        #[derive(Copy)]",
  c!"        Wildcard(struct ExtendedAttributeWildCard<'a> {",
  c!"            lhs_identifier: Identifier<'a>,",
  c!"            assign: term!(=),",
  c!"            rhs: term!(*),",
  c!"        }),",
  c!"        /// Parses a plain attribute. Ex: `Replaceable`",
  c!"        #[derive(Copy)]",
  c!"        NoArgs(struct ExtendedAttributeNoArgs<'a>(",
  c!"            Identifier<'a>,",
  c!"        )),",
  c!"    }",
  c!"",
  c!"    /// Parses `stringifier|static`",
  c!"    #[derive(Copy)]",
  c!"    enum IdentifierOrString<'a> {",
  c!"        Identifier(Identifier<'a>),",
  c!"        String(StringLit<'a>),",
  c!"    }",
  c!"}"]

/-- `/repo/src/attribute.rs:1-66` -/
def attribute_rs : List Str := attribute_rs0

/-- `/repo/src/common.rs:1-100` -/
def common_rs0 : List Str := [
  c!"use crate::literal::DefaultValue;",
  c!"use crate::term;",
  c!"use crate::Parse;",
  c!"",
  c!"impl<'a, T: Parse<'a>> Parse<'a> for Option<T> {",
  c!"    parser!(opt!(weedle!(T)));",
  c!"}",
  c!"",
  c!"impl<'a, T: Parse<'a>> Parse<'a> for Box<T> {",
  c!"    parser!(do_parse!(inner: weedle!(T) >> (Box::new(inner))));",
  c!"}",
  c!"",
  c!"/// Parses `item1 item2 item3...`",
  c!"impl<'a, T: Parse<'a>> Parse<'a> for Vec<T> {",
  c!"    parser!(many0!(weedle!(T)));",
  c!"}",
  c!"",
  c!"impl<'a, T: Parse<'a>, U: Parse<'a>> Parse<'a> for (T, U) {",
  c!"    parser!(do_parse!(t: weedle!(T) >> u: weedle!(U) >> ((t, u))));",
  c!"}",
  c!"",
  c!"impl<'a, T: Parse<'a>, U: Parse<'a>, V: Parse<'a>> Parse<'a> for (T, U, V) {",
  c!"    parser!(do_parse!(",
  c!"        t: weedle!(T) >> u: weedle!(U) >> v: weedle!(V) >> ((t, u, v))",
  c!"    ));",
  c!"}",
  c!"",
  c!"ast_types! {",
  c!"    /// Parses `( body )`",
  c!"    #[derive(Copy, Default)]",
  c!"    struct Parenthesized<T> where [T: Parse<'a>] {",
  c!"        open_paren: term::OpenParen,",
  c!"        body: T,",
  c!"        close_paren: term::CloseParen,",
  c!"    }",
  c!"",
  c!"    /// Parses `[ body ]`",
  c!"    #[derive(Copy, Default)]",
  c!"    struct Bracketed<T> where [T: Parse<'a>] {",
  c!"        open_bracket: term::OpenBracket,",
  c!"        body: T,",
  c!"        close_bracket: term::CloseBracket,",
  c!"    }",
  c!"",
  c!"    /// Parses `{ body }`",
  c!"    #[derive(Copy, Default)]",
  c!"    struct Braced<T> where [T: Parse<'a>] {",
  c!"        open_brace: term::OpenBrace,",
  c!"        body: T,",
  c!"        close_brace: term::CloseBrace,",
  c!"    }",
  c!"",
  c!"    /// Parses `< body >`",
  c!"    #[derive(Copy, Default)]",
  c!"    struct Generics<T> where [T: Parse<'a>] {",
  c!"        open_angle: term::LessThan,",
  c!"        body: T,",
  c!"        close_angle: term::GreaterThan,",
  c!"    }",
  c!"",
  c!"    /// Parses `(item1, item2, item3,...)?`",
  c!"    struct Punctuated<T, S> where [T: Parse<'a>, S: Parse<'a> + ::std::default::Default] {",
  c!"        list: Vec<T> = separated_list!(weedle!(S), weedle!(T)),",
  c!"        separator: S = marker,",
  c!"    }",
  c!"",
  c!"    /// Parses `item1, item2, item3, ...`",
  c!"    struct PunctuatedNonEmpty<T, S> where [T: Parse<'a>, S: Parse<'a> + ::std::default::Default] {",
  c!"        list: Vec<T> = terminated!(",
  c!"            separated_nonempty_list!(weedle!(S), weedle!(T)),",
  c!"            opt!(weedle!(S))",
  c!"        ),",
  c!"        separator: S = marker,",
  c!"    }",
  c!"",
  c!"    /// Represents an identifier",
  c!"    ///",
  c!"    /// Follows `/_?[A-Za-z][0-9A-Z_a-z-]*/`",
  c!"    #[derive(Copy)]",
  c!"    struct Identifier<'a>(",
  c!"        // See https://heycam.github.io/webidl/#idl-names for why the leading",
  c!"        // underscore is trimmed",
  c!"        &'a str = ws!(do_parse!(",
  c!"            opt!(char!('_')) >>",
  c!"            id: recognize!(do_parse!(",
  c!"                take_while1!(|c: char| c.is_ascii_alphabetic()) >>",
  c!"                take_while!(|c: char| c.is_ascii_alphanumeric() || c == '_' || c == '-') >>",
  c!"                (())",
  c!"            )) >>",
  c!"            (id)",
  c!"        )),",
  c!"    )",
  c!"",
  c!"    /// Parses rhs of an assignment expression. Ex: `= 45`",
  c!"    #[derive(Copy)]",
  c!"    struct Default<'a> {",
  c!"        assign: term!(=),",
  c!"        value: DefaultValue<'a>,",
  c!"    }",
  c!"}"]

/-- `/repo/src/common.rs:1-100` -/
def common_rs : List Str := common_rs0

/-- `/repo/src/dictionary.rs:1-18` -/
def dictionary_rs0 : List Str := [
  c!"use crate::attribute::ExtendedAttributeList;",
  c!"use crate::common::{Default, Identifier};",
  c!"use crate::types::Type;",
  c!"",
  c!"/// Parses dictionary members",
  c!"pub type DictionaryMembers<'a> = Vec<DictionaryMember<'a>>;",
  c!"",
  c!"ast_types! {",
  c!"    /// Parses dictionary member `[attributes]? required? type identifier ( = default )?;`",
  c!"    struct DictionaryMember<'a> {",
  c!"        attributes: Option<ExtendedAttributeList<'a>>,",
  c!"        required: Option<term!(required)>,",
  c!"        type_: Type<'a>,",
  c!"        identifier: Identifier<'a>,",
  c!"        default: Option<Default<'a>>,",
  c!"        semi_colon: term!(;),",
  c!"    }",
  c!"}"]

/-- `/repo/src/dictionary.rs:1-18` -/
def dictionary_rs : List Str := dictionary_rs0

/-- `/repo/src/interface.rs:1-100` -/
def interface_rs0 : List Str := [
  c!"use crate::argument::ArgumentList;",
  c!"use crate::attribute::ExtendedAttributeList;",
  c!"use crate::common::{Generics, Identifier, Parenthesized};",
  c!"use crate::literal::ConstValue;",
  c!"use crate::types::{AttributedType, ConstType, ReturnType};",
  c!"",
  c!"/// Parses interface members",
  c!"pub type InterfaceMembers<'a> = Vec<InterfaceMember<'a>>;",
  c!"",
  c!"ast_types! {",
  c!"    /// Parses inheritance clause `: identifier`",
  c!"    #[derive(Copy)]",
  c!"    struct Inheritance<'a> {",
  c!"        colon: term!(:),",
  c!"        identifier: Identifier<'a>,",
  c!"    }",
  c!"",
  c!"    /// Parses one of the interface member variants",
  c!"    enum InterfaceMember<'a> {",
  c!"        /// Parses a const interface member `[attributes]? const type identifier = value;`",
  c!"        Const(struct ConstMember<'a> {",
  c!"            attributes: Option<ExtendedAttributeList<'a>>,",
  c!"            const_: term!(const),",
  c!"            const_type: ConstType<'a>,",
  c!"            identifier: Identifier<'a>,",
  c!"            assign: term!(=),",
  c!"            const_value: ConstValue<'a>,",
  c!"            semi_colon: term!(;),",
  c!"        }),",
  c!"        /// Parses `[attributes]? (stringifier|inherit|static)? readonly? attribute attributedtype identifier;`",
  c!"        Attribute(struct AttributeInterfaceMember<'a> {",
  c!"            attributes: Option<ExtendedAttributeList<'a>>,",
  c!"            modifier: Option<StringifierOrInheritOrStatic>,",
  c!"            readonly: Option<term!(readonly)>,",
  c!"            attribute: term!(attribute),",
  c!"            type_: AttributedType<'a>,",
  c!"            identifier: Identifier<'a>,",
  c!"            semi_colon: term!(;),",
  c!"        }),",
  c!"        /// Parses `[attributes]? constructor(( args ));`",
  c!"        ///",
  c!"        /// (( )) means ( ) chars",
  c!"        Constructor(struct ConstructorInterfaceMember<'a> {",
  c!"            attributes: Option<ExtendedAttributeList<'a>>,",
  c!"            constructor: term!(constructor),",
  c!"            args: Parenthesized<ArgumentList<'a>>,",
  c!"            semi_colon: term!(;),",
  c!"        }),",
  c!"        /// Parses `[attributes]? (stringifier|static)? special? returntype identifier? (( args ));`",
  c!"        ///",
  c!"        /// (( )) means ( ) chars",
  c!"        Operation(struct OperationInterfaceMember<'a> {",
  c!"            attributes: Option<ExtendedAttributeList<'a>>,",
  c!"            modifier: Option<StringifierOrStatic>,",
  c!"            special: Option<Special>,",
  c!"            return_type: ReturnType<'a>,",
  c!"            identifier: Option<Identifier<'a>>,",
  c!"            args: Parenthesized<ArgumentList<'a>>,",
  c!"            semi_colon: term!(;),",
  c!"        }),",
  c!"        /// Parses an iterable declaration `[attributes]? (iterable<attributedtype> | iterable<attributedtype, attributedtype>) ;`",
  c!"        Iterable(enum IterableInterfaceMember<'a> {",
  c!"            /// Parses an iterable declaration `[attributes]? iterable<attributedtype>;`",
  c!"            Single(struct SingleTypedIterable<'a> {",
  c!"                attributes: Option<ExtendedAttributeList<'a>>,",
  c!"                iterable: term!(iterable),",
  c!"                generics: Generics<AttributedType<'a>>,",
  c!"                semi_colon: term!(;),",
  c!"            }),",
  c!"            /// Parses an iterable declaration `[attributes]? iterable<attributedtype, attributedtype>;`",
  c!"            Double(struct DoubleTypedIterable<'a> {",
  c!"                attributes: Option<ExtendedAttributeList<'a>>,",
  c!"                iterable: term!(iterable),",
  c!"                generics: Generics<(AttributedType<'a>, term!(,), AttributedType<'a>)>,",
  c!"                semi_colon: term!(;),",
  c!"            }),",
  c!"        }),",
  c!"        /// Parses an async iterable declaration `[attributes]? async (iterable<attributedtype> | iterable<attributedtype, attributedtype>) (( args ))? ;`",
  c!"        AsyncIterable(enum AsyncIterableInterfaceMember<'a> {",
  c!"            /// Parses an async iterable declaration `[attributes]? async iterable<attributedtype> (( args ))? ;`",
  c!"            Single(struct SingleTypedAsyncIterable<'a> {",
  c!"                attributes: Option<ExtendedAttributeList<'a>>,",
  c!"                async_iterable: (term!(async), term!(iterable)),",
  c!"                generics: Generics<AttributedType<'a>>,",
  c!"                args: Option<Parenthesized<ArgumentList<'a>>>,",
  c!"                semi_colon: term!(;),",
  c!"            }),",
  c!"            /// Parses an async iterable declaration `[attributes]? async iterable<attributedtype, attributedtype> (( args ))? ;`",
  c!"            Double(struct DoubleTypedAsyncIterable<'a> {",
  c!"                attributes: Option<ExtendedAttributeList<'a>>,",
  c!"                async_iterable: (term!(async), term!(iterable)),",
  c!"                generics: Generics<(AttributedType<'a>, term!(,), AttributedType<'a>)>,",
  c!"                args: Option<Parenthesized<ArgumentList<'a>>>,",
  c!"                semi_colon: term!(;),",
  c!"            }),",
  c!"        }),",
  c!"        /// Parses an maplike declaration `[attributes]? readonly? maplike<attributedtype, attributedtype>;`",
  c!"        Maplike(struct MaplikeInterfaceMember<'a> {",
  c!"            attributes: Option<ExtendedAttributeList<'a>>,",
  c!"            readonly: Option<term!(readonly)>,"]

/-- `/repo/src/interface.rs:101-144` -/
def interface_rs1 : List Str := [
  c!"            maplike: term!(maplike),",
  c!"            generics: Generics<(AttributedType<'a>, term!(,), AttributedType<'a>)>,",
  c!"            semi_colon: term!(;),",
  c!"        }),",
  c!"        Setlike(struct SetlikeInterfaceMember<'a> {",
  c!"            attributes: Option<ExtendedAttributeList<'a>>,",
  c!"            readonly: Option<term!(readonly)>,",
  c!"            setlike: term!(setlike),",
  c!"            generics: Generics<AttributedType<'a>>,",
  c!"            semi_colon: term!(;),",
  c!"        }),",
  c!"        /// Parses `stringifier;`",
  c!"        #[derive(Default)]",
  c!"        Stringifier(struct StringifierMember<'a> {",
  c!"            attributes: Option<ExtendedAttributeList<'a>>,",
  c!"            stringifier: term!(stringifier),",
  c!"            semi_colon: term!(;),",
  c!"        }),",
  c!"    }",
  c!"",
  c!"    /// Parses one of the special keyword `getter|setter|deleter`",
  c!"    #[derive(Copy)]",
  c!"    enum Special {",
  c!"        Getter(term!(getter)),",
  c!"        Setter(term!(setter)),",
  c!"        Deleter(term!(deleter)),",
  c!"        LegacyCaller(term!(legacycaller)),",
  c!"    }",
  c!"",
  c!"    /// Parses `stringifier|inherit|static`",
  c!"    #[derive(Copy)]",
  c!"    enum StringifierOrInheritOrStatic {",
  c!"        Stringifier(term!(stringifier)),",
  c!"        Inherit(term!(inherit)),",
  c!"        Static(term!(static)),",
  c!"    }",
  c!"",
  c!"    /// Parses `stringifier|static`",
  c!"    #[derive(Copy)]",
  c!"    enum StringifierOrStatic {",
  c!"        Stringifier(term!(stringifier)),",
  c!"        Static(term!(static)),",
  c!"    }",
  c!"}"]

/-- `/repo/src/interface.rs:1-144` -/
def interface_rs : List Str := interface_rs0 ++ interface_rs1

/-- `/repo/src/lib.rs:1-100` -/
def lib_rs0 : List Str := [
  c!"//! Weedle - A WebIDL Parser",
  c!"//!",
  c!"//! Parses valid WebIDL definitions & produces a data structure starting from",
  c!"//! [`Definitions`](struct.Definitions.html).",
  c!"//!",
  c!"//! ### Example",
  c!"//!",
  c!"//! ```",
  c!"//! extern crate weedle;",
  c!"//!",
  c!"//! let parsed = weedle::parse(\"",
  c!"//!     interface Window {",
  c!"//!         readonly attribute Storage sessionStorage;",
  c!"//!     };",
  c!"//! \").unwrap();",
  c!"//! println!(\"{:?}\", parsed);",
  c!"//! ```",
  c!"//!",
  c!"//! Note:",
  c!"//! This parser follows the grammar given at [WebIDL](https://heycam.github.io/webidl).",
  c!"//!",
  c!"//! If any flaws found when parsing string with a valid grammar, create an issue.",
  c!"",
  c!"// need a higher recusion limit for macros",
  c!"#![recursion_limit = \"128\"]",
  c!"",
  c!"#[macro_use(",
  c!"    alt,",
  c!"    cond,",
  c!"    do_parse,",
  c!"    map,",
  c!"    many0,",
  c!"    opt,",
  c!"    recognize,",
  c!"    separated_list,",
  c!"    separated_nonempty_list,",
  c!"    terminated",
  c!")]",
  c!"extern crate nom;",
  c!"",
  c!"use self::argument::ArgumentList;",
  c!"use self::attribute::ExtendedAttributeList;",
  c!"use self::common::{Braced, Identifier, Parenthesized, PunctuatedNonEmpty};",
  c!"use self::dictionary::DictionaryMembers;",
  c!"use self::interface::{Inheritance, InterfaceMembers};",
  c!"use self::literal::StringLit;",
  c!"use self::mixin::MixinMembers;",
  c!"use self::namespace::NamespaceMembers;",
  c!"use self::types::{AttributedType, ReturnType};",
  c!"pub use nom::{error::ErrorKind, Err, IResult};",
  c!"",
  c!"#[macro_use]",
  c!"mod macros;",
  c!"#[macro_use]",
  c!"mod whitespace;",
  c!"#[macro_use]",
  c!"pub mod term;",
  c!"pub mod argument;",
  c!"pub mod attribute;",
  c!"pub mod common;",
  c!"pub mod dictionary;",
  c!"pub mod interface;",
  c!"pub mod literal;",
  c!"pub mod mixin;",
  c!"pub mod namespace;",
  c!"pub mod types;",
  c!"",
  c!"/// A convenient parse function",
  c!"///",
  c!"/// ### Example",
  c!"///",
  c!"/// ```",
  c!"/// extern crate weedle;",
  c!"///",
  c!"/// let parsed = weedle::parse(\"",
  c!"///     interface Window {",
  c!"///         readonly attribute Storage sessionStorage;",
  c!"///     };",
  c!"/// \").unwrap();",
  c!"///",
  c!"/// println!(\"{:?}\", parsed);",
  c!"/// ```",
  c!"pub fn parse(raw: &str) -> Result<Definitions<'_>, Err<(&str, ErrorKind)>> {",
  c!"    let (remaining, parsed) = Definitions::parse(raw)?;",
  c!"    assert!(",
  c!"        remaining.is_empty(),",
  c!"        \"There is redundant raw data after parsing\"",
  c!"    );",
  c!"    Ok(parsed)",
  c!"}",
  c!"",
  c!"pub trait Parse<'a>: Sized {",
  c!"    fn parse(input: &'a str) -> IResult<&'a str, Self>;",
  c!"}",
  c!"",
  c!"/// Parses WebIDL definitions. It is the root struct for a complete WebIDL definition.",
  c!"///",
  c!"/// ### Example",
  c!"/// ```",
  c!"/// use weedle::{Definitions, Parse};"]

/-- `/repo/src/lib.rs:101-200` -/
def lib_rs1 : List Str := [
  c!"///",
  c!"/// let (_, parsed) = Definitions::parse(\"",
  c!"///     interface Window {",
  c!"///         readonly attribute Storage sessionStorage;",
  c!"///     };",
  c!"/// \").unwrap();",
  c!"///",
  c!"/// println!(\"{:?}\", parsed);",
  c!"/// ```",
  c!"///",
  c!"/// It is recommended to use [`parse`](fn.parse.html) instead.",
  c!"pub type Definitions<'a> = Vec<Definition<'a>>;",
  c!"",
  c!"ast_types! {",
  c!"    /// Parses a definition",
  c!"    enum Definition<'a> {",
  c!"        /// Parses `[attributes]? callback identifier = type ( (arg1, arg2, ..., argN)? );`",
  c!"        Callback(struct CallbackDefinition<'a> {",
  c!"            attributes: Option<ExtendedAttributeList<'a>>,",
  c!"            callback: term!(callback),",
  c!"            identifier: Identifier<'a>,",
  c!"            assign: term!(=),",
  c!"            return_type: ReturnType<'a>,",
  c!"            arguments: Parenthesized<ArgumentList<'a>>,",
  c!"            semi_colon: term!(;),",
  c!"        }),",
  c!"        /// Parses `[attributes]? callback interface identifier ( : inheritance )? { members };`",
  c!"        CallbackInterface(struct CallbackInterfaceDefinition<'a> {",
  c!"            attributes: Option<ExtendedAttributeList<'a>>,",
  c!"            callback: term!(callback),",
  c!"            interface: term!(interface),",
  c!"            identifier: Identifier<'a>,",
  c!"            inheritance: Option<Inheritance<'a>>,",
  c!"            members: Braced<InterfaceMembers<'a>>,",
  c!"            semi_colon: term!(;),",
  c!"        }),",
  c!"        /// Parses `[attributes]? interface identifier ( : inheritance )? { members };`",
  c!"        Interface(struct InterfaceDefinition<'a> {",
  c!"            attributes: Option<ExtendedAttributeList<'a>>,",
  c!"            interface: term!(interface),",
  c!"            identifier: Identifier<'a>,",
  c!"            inheritance: Option<Inheritance<'a>>,",
  c!"            members: Braced<InterfaceMembers<'a>>,",
  c!"            semi_colon: term!(;),",
  c!"        }),",
  c!"        /// Parses `[attributes]? interface mixin identifier { members };`",
  c!"        InterfaceMixin(struct InterfaceMixinDefinition<'a> {",
  c!"            attributes: Option<ExtendedAttributeList<'a>>,",
  c!"            interface: term!(interface),",
  c!"            mixin: term!(mixin),",
  c!"            identifier: Identifier<'a>,",
  c!"            members: Braced<MixinMembers<'a>>,",
  c!"            semi_colon: term!(;),",
  c!"        }),",
  c!"        /// Parses `[attributes]? namespace identifier { members };`",
  c!"        Namespace(struct NamespaceDefinition<'a> {",
  c!"            attributes: Option<ExtendedAttributeList<'a>>,",
  c!"            namespace: term!(namespace),",
  c!"            identifier: Identifier<'a>,",
  c!"            members: Braced<NamespaceMembers<'a>>,",
  c!"            semi_colon: term!(;),",
  c!"        }),",
  c!"        /// Parses `[attributes]? dictionary identifier ( : inheritance )? { members };`",
  c!"        Dictionary(struct DictionaryDefinition<'a> {",
  c!"            attributes: Option<ExtendedAttributeList<'a>>,",
  c!"            dictionary: term!(dictionary),",
  c!"            identifier: Identifier<'a>,",
  c!"            inheritance: Option<Inheritance<'a>>,",
  c!"            members: Braced<DictionaryMembers<'a>>,",
  c!"            semi_colon: term!(;),",
  c!"        }),",
  c!"        /// Parses `[attributes]? partial interface identifier { members };`",
  c!"        PartialInterface(struct PartialInterfaceDefinition<'a> {",
  c!"            attributes: Option<ExtendedAttributeList<'a>>,",
  c!"            partial: term!(partial),",
  c!"            interface: term!(interface),",
  c!"            identifier: Identifier<'a>,",
  c!"            members: Braced<InterfaceMembers<'a>>,",
  c!"            semi_colon: term!(;),",
  c!"        }),",
  c!"        /// Parses `[attributes]? partial interface mixin identifier { members };`",
  c!"        PartialInterfaceMixin(struct PartialInterfaceMixinDefinition<'a> {",
  c!"            attributes: Option<ExtendedAttributeList<'a>>,",
  c!"            partial: term!(partial),",
  c!"            interface: term!(interface),",
  c!"            mixin: term!(mixin),",
  c!"            identifier: Identifier<'a>,",
  c!"            members: Braced<MixinMembers<'a>>,",
  c!"            semi_colon: term!(;),",
  c!"        }),",
  c!"        /// Parses `[attributes]? partial dictionary identifier { members };`",
  c!"        PartialDictionary(struct PartialDictionaryDefinition<'a> {",
  c!"            attributes: Option<ExtendedAttributeList<'a>>,",
  c!"            partial: term!(partial),",
  c!"            dictionary: term!(dictionary),",
  c!"            identifier: Identifier<'a>,",
  c!"            members: Braced<DictionaryMembers<'a>>,",
  c!"            semi_colon: term!(;),",
  c!"        }),",
  c!"        /// Parses `[attributes]? partial namespace identifier { members };`"]

/-- `/repo/src/lib.rs:201-245` -/
def lib_rs2 : List Str := [
  c!"        PartialNamespace(struct PartialNamespaceDefinition<'a> {",
  c!"            attributes: Option<ExtendedAttributeList<'a>>,",
  c!"            partial: term!(partial),",
  c!"            namespace: term!(namespace),",
  c!"            identifier: Identifier<'a>,",
  c!"            members: Braced<NamespaceMembers<'a>>,",
  c!"            semi_colon: term!(;),",
  c!"        }),",
  c!"        /// Parses `[attributes]? enum identifier { values };`",
  c!"        Enum(struct EnumDefinition<'a> {",
  c!"            attributes: Option<ExtendedAttributeList<'a>>,",
  c!"            enum_: term!(enum),",
  c!"            identifier: Identifier<'a>,",
  c!"            values: Braced<EnumValueList<'a>>,",
  c!"            semi_colon: term!(;),",
  c!"        }),",
  c!"        /// Parses `[attributes]? typedef attributedtype identifier;`",
  c!"        Typedef(struct TypedefDefinition<'a> {",
  c!"            attributes: Option<ExtendedAttributeList<'a>>,",
  c!"            typedef: term!(typedef),",
  c!"            type_: AttributedType<'a>,",
  c!"            identifier: Identifier<'a>,",
  c!"            semi_colon: term!(;),",
  c!"        }),",
  c!"        /// Parses `[attributes]? identifier includes identifier;`",
  c!"        IncludesStatement(struct IncludesStatementDefinition<'a> {",
  c!"            attributes: Option<ExtendedAttributeList<'a>>,",
  c!"            lhs_identifier: Identifier<'a>,",
  c!"            includes: term!(includes),",
  c!"            rhs_identifier: Identifier<'a>,",
  c!"            semi_colon: term!(;),",
  c!"        }),",
  c!"        /// Parses `[attributes]? identifier implements identifier;`",
  c!"        Implements(struct ImplementsDefinition<'a> {",
  c!"            attributes: Option<ExtendedAttributeList<'a>>,",
  c!"            lhs_identifier: Identifier<'a>,",
  c!"            includes: term!(implements),",
  c!"            rhs_identifier: Identifier<'a>,",
  c!"            semi_colon: term!(;),",
  c!"        }),",
  c!"    }",
  c!"}",
  c!"",
  c!"/// Parses a non-empty enum value list",
  c!"pub type EnumValueList<'a> = PunctuatedNonEmpty<StringLit<'a>, term!(,)>;"]

/-- `/repo/src/lib.rs:1-245` -/
def lib_rs : List Str := lib_rs0 ++ lib_rs1 ++ lib_rs2

/-- `/repo/src/literal.rs:1-100` -/
def literal_rs0 : List Str := [
  c!"ast_types! {",
  c!"    /// Represents an integer value",
  c!"    #[derive(Copy)]",
  c!"    enum IntegerLit<'a> {",
  c!"        /// Parses `-?[1-9][0-9]*`",
  c!"        #[derive(Copy)]",
  c!"        Dec(struct DecLit<'a>(",
  c!"            &'a str = ws!(recognize!(do_parse!(",
  c!"                opt!(char!('-')) >>",
  c!"                one_of!(\"123456789\") >>",
  c!"                take_while!(|c: char| c.is_ascii_digit()) >>",
  c!"                (())",
  c!"            ))),",
  c!"        )),",
  c!"        /// Parses `-?0[Xx][0-9A-Fa-f]+)`",
  c!"        #[derive(Copy)]",
  c!"        Hex(struct HexLit<'a>(",
  c!"            &'a str = ws!(recognize!(do_parse!(",
  c!"                opt!(char!('-')) >>",
  c!"                char!('0') >>",
  c!"                alt!(char!('x') | char!('X')) >>",
  c!"                take_while!(|c: char| c.is_ascii_hexdigit()) >>",
  c!"                (())",
  c!"            ))),",
  c!"        )),",
  c!"        /// Parses `-?0[0-7]*`",
  c!"        #[derive(Copy)]",
  c!"        Oct(struct OctLit<'a>(",
  c!"            &'a str = ws!(recognize!(do_parse!(",
  c!"                opt!(char!('-')) >>",
  c!"                char!('0') >>",
  c!"                take_while!(|c| '0' <= c && c <= '7') >>",
  c!"                (())",
  c!"            ))),",
  c!"        )),",
  c!"    }",
  c!"",
  c!"    /// Represents a string value",
  c!"    ///",
  c!"    /// Follow `/\"[^\"]*\"/`",
  c!"    #[derive(Copy)]",
  c!"    struct StringLit<'a>(",
  c!"        &'a str = ws!(do_parse!(",
  c!"            char!('\"') >>",
  c!"            s: take_while!(|c| c != '\"') >>",
  c!"            char!('\"') >>",
  c!"            (s)",
  c!"        )),",
  c!"    )",
  c!"",
  c!"    /// Represents a default literal value. Ex: `34|34.23|\"value\"|[ ]|true|false|null`",
  c!"    #[derive(Copy)]",
  c!"    enum DefaultValue<'a> {",
  c!"        Boolean(BooleanLit),",
  c!"        /// Represents `[ ]`",
  c!"        #[derive(Copy, Default)]",
  c!"        EmptyArray(struct EmptyArrayLit {",
  c!"            open_bracket: term!(OpenBracket),",
  c!"            close_bracket: term!(CloseBracket),",
  c!"        }),",
  c!"        /// Represents `{ }`",
  c!"        #[derive(Copy, Default)]",
  c!"        EmptyDictionary(struct EmptyDictionaryLit {",
  c!"            open_brace: term!(OpenBrace),",
  c!"            close_brace: term!(CloseBrace),",
  c!"        }),",
  c!"        Float(FloatLit<'a>),",
  c!"        Integer(IntegerLit<'a>),",
  c!"        Null(term!(null)),",
  c!"        String(StringLit<'a>),",
  c!"    }",
  c!"",
  c!"    /// Represents `true`, `false`, `34.23`, `null`, `56`, ...",
  c!"    #[derive(Copy)]",
  c!"    enum ConstValue<'a> {",
  c!"        Boolean(BooleanLit),",
  c!"        Float(FloatLit<'a>),",
  c!"        Integer(IntegerLit<'a>),",
  c!"        Null(term!(null)),",
  c!"    }",
  c!"",
  c!"    /// Represents either `true` or `false`",
  c!"    #[derive(Copy)]",
  c!"    struct BooleanLit(",
  c!"        bool = alt!(",
  c!"            weedle!(term!(true)) => {|_| true} |",
  c!"            weedle!(term!(false)) => {|_| false}",
  c!"        ),",
  c!"    )",
  c!"",
  c!"    /// Represents a floating point value, `NaN`, `Infinity`, '+Infinity`",
  c!"    #[derive(Copy)]",
  c!"    enum FloatLit<'a> {",
  c!"        /// Parses `/-?(([0-9]+\\.[0-9]*|[0-9]*\\.[0-9]+)([Ee][+-]?[0-9]+)?|[0-9]+[Ee][+-]?[0-9]+)/`",
  c!"        #[derive(Copy)]",
  c!"        Value(struct FloatValueLit<'a>(",
  c!"            &'a str = ws!(recognize!(do_parse!(",
  c!"                opt!(char!('-')) >>",
  c!"                alt!(",
  c!"                    do_parse!("]

/-- `/repo/src/literal.rs:101-143` -/
def literal_rs1 : List Str := [
  c!"                        // (?:[0-9]+\\.[0-9]*|[0-9]*\\.[0-9]+)",
  c!"                        alt!(",
  c!"                            do_parse!(",
  c!"                                take_while1!(|c: char| c.is_ascii_digit()) >>",
  c!"                                char!('.') >>",
  c!"                                take_while!(|c: char| c.is_ascii_digit()) >>",
  c!"                                (())",
  c!"                            )",
  c!"                            |",
  c!"                            do_parse!(",
  c!"                                take_while!(|c: char| c.is_ascii_digit()) >>",
  c!"                                char!('.') >>",
  c!"                                take_while1!(|c: char| c.is_ascii_digit()) >>",
  c!"                                (())",
  c!"                            )",
  c!"                        ) >>",
  c!"                        // (?:[Ee][+-]?[0-9]+)?",
  c!"                        opt!(do_parse!(",
  c!"                            alt!(char!('e') | char!('E')) >>",
  c!"                            opt!(alt!(char!('+') | char!('-'))) >>",
  c!"                            take_while1!(|c: char| c.is_ascii_digit()) >>",
  c!"                            (())",
  c!"                        )) >>",
  c!"                        (())",
  c!"                    )",
  c!"                    |",
  c!"                    // [0-9]+[Ee][+-]?[0-9]+",
  c!"                    do_parse!(",
  c!"                        take_while1!(|c: char| c.is_ascii_digit()) >>",
  c!"                        alt!(char!('e') | char!('E')) >>",
  c!"                        opt!(alt!(char!('+') | char!('-'))) >>",
  c!"                        take_while1!(|c: char| c.is_ascii_digit()) >>",
  c!"                        (())",
  c!"                    )",
  c!"                ) >>",
  c!"                (())",
  c!"            ))),",
  c!"        )),",
  c!"        NegInfinity(term!(-Infinity)),",
  c!"        Infinity(term!(Infinity)),",
  c!"        NaN(term!(NaN)),",
  c!"    }",
  c!"}"]

/-- `/repo/src/literal.rs:1-143` -/
def literal_rs : List Str := literal_rs0 ++ literal_rs1

/-- `/repo/src/macros.rs:1-100` -/
def macros_rs0 : List Str := [
  c!"macro_rules! tag {",
  c!"    ($i:expr, $tag: expr) => {",
  c!"        nom::bytes::complete::tag($tag)($i)",
  c!"    };",
  c!"}",
  c!"",
  c!"macro_rules! take_while {",
  c!"    ($input:expr, $submac:ident!( $($args:tt)* )) => {",
  c!"        $crate::macros::take_while!($input, (|c| $submac!(c, $($args)*)))",
  c!"    };",
  c!"    ($input:expr, $f:expr) => {",
  c!"        nom::bytes::complete::take_while($f)($input)",
  c!"    };",
  c!"}",
  c!"",
  c!"macro_rules! take_while1 {",
  c!"    ($input:expr, $submac:ident!( $($args:tt)* )) => {",
  c!"        $crate::macros::take_while1!($input, (|c| $submac!(c, $($args)*)))",
  c!"    };",
  c!"    ($input:expr, $f:expr) => {",
  c!"        nom::bytes::complete::take_while1($f)($input)",
  c!"    };",
  c!"}",
  c!"",
  c!"macro_rules! take_until {",
  c!"    ($i:expr, $substr:expr) => {",
  c!"        nom::bytes::complete::take_until($substr)($i)",
  c!"    };",
  c!"}",
  c!"",
  c!"macro_rules! one_of {",
  c!"    ($i:expr, $inp: expr) => {",
  c!"        nom::character::complete::one_of($inp)($i)",
  c!"    };",
  c!"}",
  c!"",
  c!"macro_rules! char {",
  c!"    ($i:expr, $c: expr) => {",
  c!"        nom::character::complete::char($c)($i)",
  c!"    };",
  c!"}",
  c!"",
  c!"macro_rules! parser {",
  c!"    ($submac:ident!( $($args:tt)* )) => {",
  c!"        fn parse(input: &'a str) -> $crate::IResult<&'a str, Self> {",
  c!"            $submac!(input, $($args)*)",
  c!"        }",
  c!"    };",
  c!"}",
  c!"",
  c!"macro_rules! weedle {",
  c!"    ($i:expr, $t:ty) => {",
  c!"        <$t as $crate::Parse<'a>>::parse($i)",
  c!"    };",
  c!"}",
  c!"",
  c!"macro_rules! ast_types {",
  c!"    (@extract_type struct $name:ident<'a> $($rest:tt)*) => ($name<'a>);",
  c!"    (@extract_type struct $name:ident $($rest:tt)*) => ($name);",
  c!"    (@extract_type enum $name:ident<'a> $($rest:tt)*) => ($name<'a>);",
  c!"    (@extract_type enum $name:ident $($rest:tt)*) => ($name);",
  c!"",
  c!"    () => ();",
  c!"    (",
  c!"        $(#[$attr:meta])*",
  c!"        struct $name:ident<'a> {",
  c!"            $($fields:tt)*",
  c!"        }",
  c!"        $($rest:tt)*",
  c!"    ) => (",
  c!"        __ast_struct! {",
  c!"            @launch_pad",
  c!"            $(#[$attr])*",
  c!"            $name",
  c!"            [ 'a ]",
  c!"            [ ]",
  c!"            { $($fields)* }",
  c!"        }",
  c!"        ast_types!($($rest)*);",
  c!"    );",
  c!"    (",
  c!"        $(#[$attr:meta])*",
  c!"        struct $name:ident<$($generics:ident),+> where [$($bounds:tt)+] {",
  c!"            $($fields:tt)*",
  c!"        }",
  c!"        $($rest:tt)*",
  c!"    ) => (",
  c!"        __ast_struct! {",
  c!"            @launch_pad",
  c!"            $(#[$attr])*",
  c!"            $name",
  c!"            [$($generics)+]",
  c!"            [$($bounds)+]",
  c!"            { $($fields)* }",
  c!"        }",
  c!"        ast_types!($($rest)*);",
  c!"    );",
  c!"    (",
  c!"        $(#[$attr:meta])*",
  c!"        struct $name:ident {"]

/-- `/repo/src/macros.rs:101-200` -/
def macros_rs1 : List Str := [
  c!"            $($fields:tt)*",
  c!"        }",
  c!"        $($rest:tt)*",
  c!"    ) => (",
  c!"        __ast_struct! {",
  c!"            @launch_pad",
  c!"            $(#[$attr])*",
  c!"            $name",
  c!"            [ ]",
  c!"            [ ]",
  c!"            { $($fields)* }",
  c!"        }",
  c!"        ast_types!($($rest)*);",
  c!"    );",
  c!"",
  c!"    (",
  c!"        $(#[$attr:meta])*",
  c!"        struct $name:ident<'a> (",
  c!"            $($fields:tt)*",
  c!"        )",
  c!"        $($rest:tt)*",
  c!"    ) => (",
  c!"        __ast_tuple_struct! {",
  c!"            @launch_pad",
  c!"            $(#[$attr])*",
  c!"            $name",
  c!"            [ 'a ]",
  c!"            ( $($fields)* )",
  c!"        }",
  c!"        ast_types!($($rest)*);",
  c!"    );",
  c!"    (",
  c!"        $(#[$attr:meta])*",
  c!"        struct $name:ident (",
  c!"            $($fields:tt)*",
  c!"        )",
  c!"        $($rest:tt)*",
  c!"    ) => (",
  c!"        __ast_tuple_struct! {",
  c!"            @launch_pad",
  c!"            $(#[$attr])*",
  c!"            $name",
  c!"            [ ]",
  c!"            ( $($fields)* )",
  c!"        }",
  c!"        ast_types!($($rest)*);",
  c!"    );",
  c!"",
  c!"    (",
  c!"        $(#[$attr:meta])*",
  c!"        enum $name:ident<'a> {",
  c!"            $($variants:tt)*",
  c!"        }",
  c!"        $($rest:tt)*",
  c!"    ) => (",
  c!"        __ast_enum! {",
  c!"            @launch_pad",
  c!"            $(#[$attr])*",
  c!"            $name",
  c!"            [ 'a ]",
  c!"            { $($variants)* }",
  c!"        }",
  c!"        ast_types!($($rest)*);",
  c!"    );",
  c!"    (",
  c!"        $(#[$attr:meta])*",
  c!"        enum $name:ident {",
  c!"            $($variants:tt)*",
  c!"        }",
  c!"        $($rest:tt)*",
  c!"    ) => (",
  c!"        __ast_enum! {",
  c!"            @launch_pad",
  c!"            $(#[$attr])*",
  c!"            $name",
  c!"            [ ]",
  c!"            { $($variants)* }",
  c!"        }",
  c!"        ast_types!($($rest)*);",
  c!"    );",
  c!"}",
  c!"",
  c!"macro_rules! __ast_tuple_struct {",
  c!"    (@launch_pad",
  c!"        $(#[$attr:meta])*",
  c!"        $name:ident",
  c!"        [ $($maybe_a:tt)* ]",
  c!"        ( $inner:ty = $submac:ident!( $($args:tt)* ), )",
  c!"    ) => (",
  c!"        $(#[$attr])*",
  c!"        #[derive(Clone, Debug, Eq, PartialEq, Ord, PartialOrd, Hash)]",
  c!"        pub struct $name<$($maybe_a)*>(pub $inner);",
  c!"",
  c!"        impl<'a> $crate::Parse<'a> for $name<$($maybe_a)*> {",
  c!"            fn parse(input: &'a str) -> $crate::IResult<&'a str, Self> {",
  c!"                use $crate::nom::lib::std::result::Result::*;",
  c!"",
  c!"                match $submac!(input, $($args)*) {",
  c!"                    Err(e) => Err(e),",
  c!"                    Ok((i, inner)) => Ok((i, $name(inner))),"]

/-- `/repo/src/macros.rs:201-300` -/
def macros_rs2 : List Str := [
  c!"                }",
  c!"            }",
  c!"        }",
  c!"    );",
  c!"    (@launch_pad",
  c!"        $(#[$attr:meta])*",
  c!"        $name:ident",
  c!"        [ $($maybe_a:tt)* ]",
  c!"        ( $inner:ty, )",
  c!"    ) => (",
  c!"        __ast_tuple_struct! {",
  c!"            @launch_pad",
  c!"            $(#[$attr])*",
  c!"            $name",
  c!"            [ $($maybe_a)* ]",
  c!"            ( $inner = weedle!($inner), )",
  c!"        }",
  c!"    );",
  c!"}",
  c!"",
  c!"macro_rules! __ast_struct {",
  c!"    (@build_struct_decl",
  c!"        {",
  c!"            $(#[$attr:meta])*",
  c!"            $name:ident",
  c!"            [ $($generics:tt)* ]",
  c!"            $($field:ident : $type:ty)*",
  c!"        }",
  c!"        { }",
  c!"    ) => {",
  c!"        $(#[$attr])*",
  c!"        #[derive(Clone, Debug, Eq, PartialEq, Ord, PartialOrd, Hash)]",
  c!"        pub struct $name<$($generics)*> {",
  c!"            $(pub $field : $type,)*",
  c!"        }",
  c!"    };",
  c!"    (@build_struct_decl",
  c!"        { $($prev:tt)* }",
  c!"        { $field:ident : $type:ty, $($rest:tt)* }",
  c!"    ) => (",
  c!"        __ast_struct! {",
  c!"            @build_struct_decl",
  c!"            { $($prev)* $field : $type }",
  c!"            { $($rest)* }",
  c!"        }",
  c!"    );",
  c!"    (@build_struct_decl",
  c!"        { $($prev:tt)* }",
  c!"        { $field:ident : $type:ty = $submac:ident!( $($args:tt)* ), $($rest:tt)* }",
  c!"    ) => (",
  c!"        __ast_struct! {",
  c!"            @build_struct_decl",
  c!"            { $($prev)* $field : $type }",
  c!"            { $($rest)* }",
  c!"        }",
  c!"    );",
  c!"    (@build_struct_decl",
  c!"        { $($prev:tt)* }",
  c!"        { $field:ident : $type:ty = marker, $($rest:tt)* }",
  c!"    ) => (",
  c!"        __ast_struct! {",
  c!"            @build_struct_decl",
  c!"            { $($prev)* $field : $type }",
  c!"            { $($rest)* }",
  c!"        }",
  c!"    );",
  c!"",
  c!"    (@build_parser",
  c!"        { $i:expr, $($field:ident)* }",
  c!"        { }",
  c!"    ) => ({",
  c!"        use $crate::nom::lib::std::result::Result::Ok;",
  c!"        Ok(($i, Self { $($field,)* }))",
  c!"    });",
  c!"    (@build_parser",
  c!"        { $i:expr, $($prev:tt)* }",
  c!"        { $field:ident : $type:ty = $submac:ident!( $($args:tt)* ), $($rest:tt)* }",
  c!"    ) => ({",
  c!"        use $crate::nom::lib::std::result::Result::*;",
  c!"",
  c!"        match $submac!($i, $($args)*) {",
  c!"            Err(e) => Err(e),",
  c!"            Ok((i, $field)) => {",
  c!"                __ast_struct! {",
  c!"                    @build_parser",
  c!"                    { i, $($prev)* $field }",
  c!"                    { $($rest)* }",
  c!"                }",
  c!"            },",
  c!"        }",
  c!"    });",
  c!"    (@build_parser",
  c!"        { $($prev:tt)* }",
  c!"        { $field:ident : $type:ty = marker, $($rest:tt)* }",
  c!"    ) => ({",
  c!"        let $field = ::std::default::Default::default();",
  c!"        __ast_struct! {",
  c!"            @build_parser",
  c!"            { $($prev)* $field }",
  c!"            { $($rest)* }"]

/-- `/repo/src/macros.rs:301-400` -/
def macros_rs3 : List Str := [
  c!"        }",
  c!"    });",
  c!"    (@build_parser",
  c!"        { $($prev:tt)* }",
  c!"        { $field:ident : $type:ty, $($rest:tt)* }",
  c!"    ) => (",
  c!"        __ast_struct! {",
  c!"            @build_parser",
  c!"            { $($prev)* }",
  c!"            { $field : $type = weedle!($type), $($rest)* }",
  c!"        }",
  c!"    );",
  c!"",
  c!"    (",
  c!"        @launch_pad",
  c!"        $(#[$attr:meta])*",
  c!"        $name:ident",
  c!"        [ ]",
  c!"        [ ]",
  c!"        { $($fields:tt)* }",
  c!"    ) => {",
  c!"        __ast_struct! {",
  c!"            @build_struct_decl",
  c!"            {",
  c!"                $(#[$attr])*",
  c!"                $name",
  c!"                [ ]",
  c!"            }",
  c!"            { $($fields)* }",
  c!"        }",
  c!"",
  c!"        impl<'a> $crate::Parse<'a> for $name {",
  c!"            fn parse(input: &'a str) -> $crate::IResult<&'a str, Self> {",
  c!"                __ast_struct! {",
  c!"                    @build_parser",
  c!"                    { input, }",
  c!"                    { $($fields)* }",
  c!"                }",
  c!"            }",
  c!"        }",
  c!"    };",
  c!"    (",
  c!"        @launch_pad",
  c!"        $(#[$attr:meta])*",
  c!"        $name:ident",
  c!"        [ 'a ]",
  c!"        [ ]",
  c!"        { $($fields:tt)* }",
  c!"    ) => {",
  c!"        __ast_struct! {",
  c!"            @build_struct_decl",
  c!"            {",
  c!"                $(#[$attr])*",
  c!"                $name",
  c!"                [ 'a ]",
  c!"            }",
  c!"            { $($fields)* }",
  c!"        }",
  c!"",
  c!"        impl<'a> $crate::Parse<'a> for $name<'a> {",
  c!"            fn parse(input: &'a str) -> $crate::IResult<&'a str, Self> {",
  c!"                __ast_struct! {",
  c!"                    @build_parser",
  c!"                    { input, }",
  c!"                    { $($fields)* }",
  c!"                }",
  c!"            }",
  c!"        }",
  c!"    };",
  c!"    (",
  c!"        @launch_pad",
  c!"        $(#[$attr:meta])*",
  c!"        $name:ident",
  c!"        [$($generics:ident)+]",
  c!"        [$($bounds:tt)+]",
  c!"        { $($fields:tt)* }",
  c!"    ) => {",
  c!"        __ast_struct! {",
  c!"            @build_struct_decl",
  c!"            {",
  c!"                $(#[$attr])*",
  c!"                $name",
  c!"                [$($generics),+]",
  c!"            }",
  c!"            { $($fields)* }",
  c!"        }",
  c!"",
  c!"        impl<'a, $($generics),+> $crate::Parse<'a> for $name<$($generics),+> where $($bounds)+ {",
  c!"            fn parse(input: &'a str) -> $crate::IResult<&'a str, Self> {",
  c!"                __ast_struct! {",
  c!"                    @build_parser",
  c!"                    { input, }",
  c!"                    { $($fields)* }",
  c!"                }",
  c!"            }",
  c!"        }",
  c!"    };",
  c!"}",
  c!"",
  c!"macro_rules! __ast_enum {"]

/-- `/repo/src/macros.rs:401-500` -/
def macros_rs4 : List Str := [
  c!"    (@build_enum_decl",
  c!"        {",
  c!"            $(#[$attr:meta])*",
  c!"            $name:ident",
  c!"            [ $($maybe_a:tt)* ]",
  c!"            $($variant:ident($member:ty))*",
  c!"        }",
  c!"        { }",
  c!"    ) => (",
  c!"        $(#[$attr])*",
  c!"        #[derive(Clone, Debug, Eq, PartialEq, Ord, PartialOrd, Hash)]",
  c!"        pub enum $name<$($maybe_a)*> {",
  c!"            $($variant($member),)*",
  c!"        }",
  c!"    );",
  c!"    (@build_enum_decl",
  c!"        { $($prev:tt)* }",
  c!"        { $variant:ident($member:ty), $($rest:tt)* }",
  c!"    ) => (",
  c!"        __ast_enum! {",
  c!"            @build_enum_decl",
  c!"            { $($prev)* $variant($member) }",
  c!"            { $($rest)* }",
  c!"        }",
  c!"    );",
  c!"    (@build_enum_decl",
  c!"        { $($prev:tt)* }",
  c!"        { $(#[$attr:meta])* $variant:ident( $($member:tt)* ), $($rest:tt)* }",
  c!"    ) => (",
  c!"        __ast_enum! {",
  c!"            @build_enum_decl",
  c!"            { $($prev)* $variant(ast_types! { @extract_type $($member)* }) }",
  c!"            { $($rest)* }",
  c!"        }",
  c!"    );",
  c!"",
  c!"    (@build_sub_types { }) => ();",
  c!"    (@build_sub_types",
  c!"        { $variant:ident($member:ty), $($rest:tt)* }",
  c!"    ) => (",
  c!"        __ast_enum! {",
  c!"            @build_sub_types",
  c!"            { $($rest)* }",
  c!"        }",
  c!"    );",
  c!"    (@build_sub_types",
  c!"        { $(#[$attr:meta])* $variant:ident( $($member:tt)* ), $($rest:tt)* }",
  c!"    ) => (",
  c!"        ast_types! {",
  c!"            $(#[$attr])*",
  c!"            $($member)*",
  c!"        }",
  c!"        __ast_enum! {",
  c!"            @build_sub_types",
  c!"            { $($rest)* }",
  c!"        }",
  c!"    );",
  c!"",
  c!"",
  c!"    (@build_conversions $name:ident [ $($maybe_a:tt)* ] { }) => ();",
  c!"    (@build_conversions",
  c!"        $name:ident",
  c!"        [ $($maybe_a:tt)* ]",
  c!"        { $variant:ident($member:ty), $($rest:tt)* }",
  c!"    ) => (",
  c!"        impl<$($maybe_a)*> From<$member> for $name<$($maybe_a)*> {",
  c!"            fn from(x: $member) -> Self {",
  c!"                $name::$variant(x)",
  c!"            }",
  c!"        }",
  c!"        __ast_enum! {",
  c!"            @build_conversions",
  c!"            $name",
  c!"            [ $($maybe_a)* ]",
  c!"            { $($rest)* }",
  c!"        }",
  c!"    );",
  c!"    (@build_conversions",
  c!"        $name:ident",
  c!"        [ $($maybe_a:tt)* ]",
  c!"        { $(#[$attr:meta])* $variant:ident( $($member:tt)* ), $($rest:tt)* }",
  c!"    ) => (",
  c!"        __ast_enum! {",
  c!"            @build_conversions",
  c!"            $name",
  c!"            [ $($maybe_a)* ]",
  c!"            { $variant(ast_types! { @extract_type $($member)* }), $($rest)* }",
  c!"        }",
  c!"    );",
  c!"",
  c!"    (@build_parse",
  c!"        { $name:ident [ $($maybe_a:tt)* ] $($member:ty)* }",
  c!"        { }",
  c!"    ) => (",
  c!"        impl<'a> $crate::Parse<'a> for $name<$($maybe_a)*> {",
  c!"            parser!(alt!(",
  c!"                $(weedle!($member) => {From::from})|*",
  c!"            ));",
  c!"        }",
  c!"    );"]

/-- `/repo/src/macros.rs:501-552` -/
def macros_rs5 : List Str := [
  c!"    (@build_parse",
  c!"        { $($prev:tt)* }",
  c!"        { $variant:ident($member:ty), $($rest:tt)* }",
  c!"    ) => (",
  c!"        __ast_enum! {",
  c!"            @build_parse",
  c!"            { $($prev)* $member }",
  c!"            { $($rest)* }",
  c!"        }",
  c!"    );",
  c!"    (@build_parse",
  c!"        { $($prev:tt)* }",
  c!"        { $(#[$attr:meta])* $variant:ident( $($member:tt)* ), $($rest:tt)* }",
  c!"    ) => (",
  c!"        __ast_enum! {",
  c!"            @build_parse",
  c!"            { $($prev)* ast_types! { @extract_type $($member)* } }",
  c!"            { $($rest)* }",
  c!"        }",
  c!"    );",
  c!"",
  c!"    (@launch_pad",
  c!"        $(#[$attr:meta])*",
  c!"        $name:ident",
  c!"        [ $($maybe_a:tt)* ]",
  c!"        { $($variants:tt)* }",
  c!"    ) => (",
  c!"        __ast_enum! {",
  c!"            @build_enum_decl",
  c!"            { $(#[$attr])* $name [ $($maybe_a)* ] }",
  c!"            { $($variants)* }",
  c!"        }",
  c!"",
  c!"        __ast_enum! {",
  c!"            @build_sub_types",
  c!"            { $($variants)* }",
  c!"        }",
  c!"",
  c!"        __ast_enum! {",
  c!"            @build_conversions",
  c!"            $name",
  c!"            [ $($maybe_a)* ]",
  c!"            { $($variants)* }",
  c!"        }",
  c!"",
  c!"        __ast_enum! {",
  c!"            @build_parse",
  c!"            { $name [ $($maybe_a)* ] }",
  c!"            { $($variants)* }",
  c!"        }",
  c!"    );",
  c!"}"]

/-- `/repo/src/macros.rs:1-552` -/
def macros_rs : List Str := macros_rs0 ++ macros_rs1 ++ macros_rs2 ++ macros_rs3 ++ macros_rs4 ++ macros_rs5

/-- `/repo/src/mixin.rs:1-37` -/
def mixin_rs0 : List Str := [
  c!"use crate::argument::ArgumentList;",
  c!"use crate::attribute::ExtendedAttributeList;",
  c!"use crate::common::{Identifier, Parenthesized};",
  c!"use crate::interface::{ConstMember, StringifierMember};",
  c!"use crate::types::{AttributedType, ReturnType};",
  c!"",
  c!"/// Parses the members declarations of a mixin",
  c!"pub type MixinMembers<'a> = Vec<MixinMember<'a>>;",
  c!"",
  c!"ast_types! {",
  c!"    /// Parses one of the variants of a mixin member",
  c!"    enum MixinMember<'a> {",
  c!"        Const(ConstMember<'a>),",
  c!"        /// Parses `[attributes]? stringifier? returntype identifier? (( args ));`",
  c!"        ///",
  c!"        /// (( )) means ( ) chars",
  c!"        Operation(struct OperationMixinMember<'a> {",
  c!"            attributes: Option<ExtendedAttributeList<'a>>,",
  c!"            stringifier: Option<term!(stringifier)>,",
  c!"            return_type: ReturnType<'a>,",
  c!"            identifier: Option<Identifier<'a>>,",
  c!"            args: Parenthesized<ArgumentList<'a>>,",
  c!"            semi_colon: term!(;),",
  c!"        }),",
  c!"        /// Parses `[attributes]? stringifier? readonly? attribute attributedtype identifier;`",
  c!"        Attribute(struct AttributeMixinMember<'a> {",
  c!"            attributes: Option<ExtendedAttributeList<'a>>,",
  c!"            stringifier: Option<term!(stringifier)>,",
  c!"            readonly: Option<term!(readonly)>,",
  c!"            attribute: term!(attribute),",
  c!"            type_: AttributedType<'a>,",
  c!"            identifier: Identifier<'a>,",
  c!"            semi_colon: term!(;),",
  c!"        }),",
  c!"        Stringifier(StringifierMember<'a>),",
  c!"    }",
  c!"}"]

/-- `/repo/src/mixin.rs:1-37` -/
def mixin_rs : List Str := mixin_rs0

/-- `/repo/src/namespace.rs:1-43` -/
def namespace_rs0 : List Str := [
  c!"use crate::argument::ArgumentList;",
  c!"use crate::attribute::ExtendedAttributeList;",
  c!"use crate::common::{Identifier, Parenthesized};",
  c!"use crate::literal::ConstValue;",
  c!"use crate::types::{AttributedType, ConstType, ReturnType};",
  c!"",
  c!"/// Parses namespace members declaration",
  c!"pub type NamespaceMembers<'a> = Vec<NamespaceMember<'a>>;",
  c!"",
  c!"ast_types! {",
  c!"    /// Parses namespace member declaration",
  c!"    enum NamespaceMember<'a> {",
  c!"        /// Parses a const interface member `[attributes]? const type identifier = value;`",
  c!"        Const(struct ConstNamespaceMember<'a> {",
  c!"            attributes: Option<ExtendedAttributeList<'a>>,",
  c!"            const_: term!(const),",
  c!"            const_type: ConstType<'a>,",
  c!"            identifier: Identifier<'a>,",
  c!"            assign: term!(=),",
  c!"            const_value: ConstValue<'a>,",
  c!"            semi_colon: term!(;),",
  c!"        }),",
  c!"        /// Parses `[attributes]? returntype identifier? (( args ));`",
  c!"        ///",
  c!"        /// (( )) means ( ) chars",
  c!"        Operation(struct OperationNamespaceMember<'a> {",
  c!"            attributes: Option<ExtendedAttributeList<'a>>,",
  c!"            return_type: ReturnType<'a>,",
  c!"            identifier: Option<Identifier<'a>>,",
  c!"            args: Parenthesized<ArgumentList<'a>>,",
  c!"            semi_colon: term!(;),",
  c!"        }),",
  c!"        /// Parses `[attribute]? readonly attributetype type identifier;`",
  c!"        Attribute(struct AttributeNamespaceMember<'a> {",
  c!"            attributes: Option<ExtendedAttributeList<'a>>,",
  c!"            readonly: term!(readonly),",
  c!"            attribute: term!(attribute),",
  c!"            type_: AttributedType<'a>,",
  c!"            identifier: Identifier<'a>,",
  c!"            semi_colon: term!(;),",
  c!"        }),",
  c!"    }",
  c!"}"]

/-- `/repo/src/namespace.rs:1-43` -/
def namespace_rs : List Str := namespace_rs0

/-- `/repo/src/term.rs:1-100` -/
def term_rs0 : List Str := [
  c!"macro_rules! generate_terms {",
  c!"    ($( $(#[$attr:meta])* $typ:ident => $tok:expr ),*) => {",
  c!"        $(",
  c!"            $(#[$attr])*",
  c!"            #[derive(Clone, Copy, Debug, Default, Eq, Hash, Ord, PartialEq, PartialOrd)]",
  c!"            pub struct $typ;",
  c!"",
  c!"            impl<'a> $crate::Parse<'a> for $typ {",
  c!"                parser!(do_parse!(",
  c!"                    ws!(tag!($tok)) >>",
  c!"                    ($typ)",
  c!"                ));",
  c!"            }",
  c!"        )*",
  c!"    };",
  c!"}",
  c!"",
  c!"macro_rules! ident_tag (",
  c!"    ($i:expr, $tok:expr) => (",
  c!"        {",
  c!"            match tag!($i, $tok) {",
  c!"                Err(e) => Err(e),",
  c!"                Ok((i, o)) => {",
  c!"                    use nom::{character::is_alphanumeric, Err as NomErr, error::ErrorKind};",
  c!"                    let mut res = Ok((i, o));",
  c!"                    if let Some(&c) = i.as_bytes().first() {",
  c!"                        if is_alphanumeric(c) || c == b'_' || c == b'-' {",
  c!"                            res = Err(NomErr::Error(($i, ErrorKind::Tag)));",
  c!"                        }",
  c!"                    }",
  c!"                    res",
  c!"                },",
  c!"            }",
  c!"        }",
  c!"    )",
  c!");",
  c!"",
  c!"macro_rules! generate_terms_for_names {",
  c!"    ($( $(#[$attr:meta])* $typ:ident => $tok:expr,)*) => {",
  c!"        $(",
  c!"            $(#[$attr])*",
  c!"            #[derive(Clone, Copy, Debug, Default, Eq, Hash, Ord, PartialEq, PartialOrd)]",
  c!"            pub struct $typ;",
  c!"",
  c!"            impl<'a> $crate::Parse<'a> for $typ {",
  c!"                parser!(do_parse!(",
  c!"                    ws!(ident_tag!($tok)) >>",
  c!"                    ($typ)",
  c!"                ));",
  c!"            }",
  c!"        )*",
  c!"    };",
  c!"}",
  c!"",
  c!"generate_terms! {",
  c!"    /// Represents the terminal symbol `(`",
  c!"    OpenParen => \"(\",",
  c!"",
  c!"    /// Represents the terminal symbol `)`",
  c!"    CloseParen => \")\",",
  c!"",
  c!"    /// Represents the terminal symbol `[`",
  c!"    OpenBracket => \"[\",",
  c!"",
  c!"    /// Represents the terminal symbol `]`",
  c!"    CloseBracket => \"]\",",
  c!"",
  c!"    /// Represents the terminal symbol `{`",
  c!"    OpenBrace => \"{\",",
  c!"",
  c!"    /// Represents the terminal symbol `}`",
  c!"    CloseBrace => \"}\",",
  c!"",
  c!"    /// Represents the terminal symbol `,`",
  c!"    Comma => \",\",",
  c!"",
  c!"    /// Represents the terminal symbol `-`",
  c!"    Minus => \"-\",",
  c!"",
  c!"    /// Represents the terminal symbol `.`",
  c!"    Dot => \".\",",
  c!"",
  c!"    /// Represents the terminal symbol `...`",
  c!"    Ellipsis => \"...\",",
  c!"",
  c!"    /// Represents the terminal symbol `:`",
  c!"    Colon => \":\",",
  c!"",
  c!"    /// Represents the terminal symbol `;`",
  c!"    SemiColon => \";\",",
  c!"",
  c!"    /// Represents the terminal symbol `<`",
  c!"    LessThan => \"<\",",
  c!"",
  c!"    /// Represents the terminal symbol `=`",
  c!"    Assign => \"=\",",
  c!"",
  c!"    /// Represents the terminal symbol `>`",
  c!"    GreaterThan => \">\",",
  c!""]

/-- `/repo/src/term.rs:101-200` -/
def term_rs1 : List Str := [
  c!"    /// Represents the terminal symbol `?`",
  c!"    QMark => \"?\",",
  c!"",
  c!"    /// Represents the asterisk symbol `*`",
  c!"    Asterisk => \"*\"",
  c!"}",
  c!"",
  c!"generate_terms_for_names! {",
  c!"    /// Represents the terminal symbol `or`",
  c!"    Or => \"or\",",
  c!"",
  c!"    /// Represents the terminal symbol `optional`",
  c!"    Optional => \"optional\",",
  c!"",
  c!"    /// Represents the terminal symbol `async`",
  c!"    Async => \"async\",",
  c!"",
  c!"    /// Represents the terminal symbol `attribute`",
  c!"    Attribute => \"attribute\",",
  c!"",
  c!"    /// Represents the terminal symbol `callback`",
  c!"    Callback => \"callback\",",
  c!"",
  c!"    /// Represents the terminal symbol `const`",
  c!"    Const => \"const\",",
  c!"",
  c!"    /// Represents the terminal symbol `deleter`",
  c!"    Deleter => \"deleter\",",
  c!"",
  c!"    /// Represents the terminal symbol `dictionary`",
  c!"    Dictionary => \"dictionary\",",
  c!"",
  c!"    /// Represents the terminal symbol `enum`",
  c!"    Enum => \"enum\",",
  c!"",
  c!"    /// Represents the terminal symbol `getter`",
  c!"    Getter => \"getter\",",
  c!"",
  c!"    /// Represents the terminal symbol `includes`",
  c!"    Includes => \"includes\",",
  c!"",
  c!"    /// Represents the terminal symbol `inherit`",
  c!"    Inherit => \"inherit\",",
  c!"",
  c!"    /// Represents the terminal symbol `interface`",
  c!"    Interface => \"interface\",",
  c!"",
  c!"    /// Represents the terminal symbol `iterable`",
  c!"    Iterable => \"iterable\",",
  c!"",
  c!"    /// Represents the terminal symbol `maplike`",
  c!"    Maplike => \"maplike\",",
  c!"",
  c!"    /// Represents the terminal symbol `namespace`",
  c!"    Namespace => \"namespace\",",
  c!"",
  c!"    /// Represents the terminal symbol `partial`",
  c!"    Partial => \"partial\",",
  c!"",
  c!"    /// Represents the terminal symbol `required`",
  c!"    Required => \"required\",",
  c!"",
  c!"    /// Represents the terminal symbol `setlike`",
  c!"    Setlike => \"setlike\",",
  c!"",
  c!"    /// Represents the terminal symbol `setter`",
  c!"    Setter => \"setter\",",
  c!"",
  c!"    /// Represents the terminal symbol `static`",
  c!"    Static => \"static\",",
  c!"",
  c!"    /// Represents the terminal symbol `stringifier`",
  c!"    Stringifier => \"stringifier\",",
  c!"",
  c!"    /// Represents the terminal symbol `typedef`",
  c!"    Typedef => \"typedef\",",
  c!"",
  c!"    /// Represents the terminal symbol `unrestricted`",
  c!"    Unrestricted => \"unrestricted\",",
  c!"",
  c!"    /// Represents the terminal symbol `symbol`",
  c!"    Symbol => \"symbol\",",
  c!"",
  c!"    /// Represents the terminal symbol `Infinity`",
  c!"    NegInfinity => \"-Infinity\",",
  c!"",
  c!"    /// Represents the terminal symbol `ByteString`",
  c!"    ByteString => \"ByteString\",",
  c!"",
  c!"    /// Represents the terminal symbol `DOMString`",
  c!"    DOMString => \"DOMString\",",
  c!"",
  c!"    /// Represents the terminal symbol `FrozenArray`",
  c!"    FrozenArray => \"FrozenArray\",",
  c!"",
  c!"    /// Represents the terminal symbol `Infinity`",
  c!"    Infinity => \"Infinity\",",
  c!"",
  c!"    /// Represents the terminal symbol `NaN`",
  c!"    NaN => \"NaN\","]

/-- `/repo/src/term.rs:201-300` -/
def term_rs2 : List Str := [
  c!"",
  c!"    /// Represents the terminal symbol `USVString`",
  c!"    USVString => \"USVString\",",
  c!"",
  c!"    /// Represents the terminal symbol `any`",
  c!"    Any => \"any\",",
  c!"",
  c!"    /// Represents the terminal symbol `boolean`",
  c!"    Boolean => \"boolean\",",
  c!"",
  c!"    /// Represents the terminal symbol `byte`",
  c!"    Byte => \"byte\",",
  c!"",
  c!"    /// Represents the terminal symbol `double`",
  c!"    Double => \"double\",",
  c!"",
  c!"    /// Represents the terminal symbol `false`",
  c!"    False => \"false\",",
  c!"",
  c!"    /// Represents the terminal symbol `float`",
  c!"    Float => \"float\",",
  c!"",
  c!"    /// Represents the terminal symbol `long`",
  c!"    Long => \"long\",",
  c!"",
  c!"    /// Represents the terminal symbol `null`",
  c!"    Null => \"null\",",
  c!"",
  c!"    /// Represents the terminal symbol `object`",
  c!"    Object => \"object\",",
  c!"",
  c!"    /// Represents the terminal symbol `octet`",
  c!"    Octet => \"octet\",",
  c!"",
  c!"    /// Represents the terminal symbol `sequence`",
  c!"    Sequence => \"sequence\",",
  c!"",
  c!"    /// Represents the terminal symbol `short`",
  c!"    Short => \"short\",",
  c!"",
  c!"    /// Represents the terminal symbol `true`",
  c!"    True => \"true\",",
  c!"",
  c!"    /// Represents the terminal symbol `unsigned`",
  c!"    Unsigned => \"unsigned\",",
  c!"",
  c!"    /// Represents the terminal symbol `undefined`",
  c!"    Undefined => \"undefined\",",
  c!"",
  c!"    /// Represents the terminal symbol `record`",
  c!"    Record => \"record\",",
  c!"",
  c!"    /// Represents the terminal symbol `ArrayBuffer`",
  c!"    ArrayBuffer => \"ArrayBuffer\",",
  c!"",
  c!"    /// Represents the terminal symbol `DataView`",
  c!"    DataView => \"DataView\",",
  c!"",
  c!"    /// Represents the terminal symbol `Int8Array`",
  c!"    Int8Array => \"Int8Array\",",
  c!"",
  c!"    /// Represents the terminal symbol `Int16Array`",
  c!"    Int16Array => \"Int16Array\",",
  c!"",
  c!"    /// Represents the terminal symbol `Int32Array`",
  c!"    Int32Array => \"Int32Array\",",
  c!"",
  c!"    /// Represents the terminal symbol `Uint8Array`",
  c!"    Uint8Array => \"Uint8Array\",",
  c!"",
  c!"    /// Represents the terminal symbol `Uint16Array`",
  c!"    Uint16Array => \"Uint16Array\",",
  c!"",
  c!"    /// Represents the terminal symbol `Uint32Array`",
  c!"    Uint32Array => \"Uint32Array\",",
  c!"",
  c!"    /// Represents the terminal symbol `Uint8ClampedArray`",
  c!"    Uint8ClampedArray => \"Uint8ClampedArray\",",
  c!"",
  c!"    /// Represents the terminal symbol `Float32Array`",
  c!"    Float32Array => \"Float32Array\",",
  c!"",
  c!"    /// Represents the terminal symbol `Float64Array`",
  c!"    Float64Array => \"Float64Array\",",
  c!"",
  c!"    /// Represents the terminal symbol `ArrayBufferView`",
  c!"    ArrayBufferView => \"ArrayBufferView\",",
  c!"",
  c!"    /// Represents the terminal symbol `BufferSource",
  c!"    BufferSource => \"BufferSource\",",
  c!"",
  c!"    /// Represents the terminal symbol `Promise`",
  c!"    Promise => \"Promise\",",
  c!"",
  c!"    /// Represents the terminal symbol `Error`",
  c!"    Error => \"Error\",",
  c!"",
  c!"    /// Represents the terminal symbol `readonly`",
  c!"    ReadOnly => \"readonly\",",
  c!""]

/-- `/repo/src/term.rs:301-400` -/
def term_rs3 : List Str := [
  c!"    /// Represents the terminal symbol `mixin`",
  c!"    Mixin => \"mixin\",",
  c!"",
  c!"    /// Represents the terminal symbol `implements`",
  c!"    Implements => \"implements\",",
  c!"",
  c!"    /// Represents the terminal symbol `legacycaller`",
  c!"    LegacyCaller => \"legacycaller\",",
  c!"",
  c!"    /// Represents the terminal symbol `constructor`",
  c!"    Constructor => \"constructor\",",
  c!"}",
  c!"",
  c!"#[macro_export]",
  c!"macro_rules! term {",
  c!"    (OpenParen) => {",
  c!"        $crate::term::OpenParen",
  c!"    };",
  c!"    (CloseParen) => {",
  c!"        $crate::term::CloseParen",
  c!"    };",
  c!"    (OpenBracket) => {",
  c!"        $crate::term::OpenBracket",
  c!"    };",
  c!"    (CloseBracket) => {",
  c!"        $crate::term::CloseBracket",
  c!"    };",
  c!"    (OpenBrace) => {",
  c!"        $crate::term::OpenBrace",
  c!"    };",
  c!"    (CloseBrace) => {",
  c!"        $crate::term::CloseBrace",
  c!"    };",
  c!"    (,) => {",
  c!"        $crate::term::Comma",
  c!"    };",
  c!"    (-) => {",
  c!"        $crate::term::Minus",
  c!"    };",
  c!"    (.) => {",
  c!"        $crate::term::Dot",
  c!"    };",
  c!"    (...) => {",
  c!"        $crate::term::Ellipsis",
  c!"    };",
  c!"    (:) => {",
  c!"        $crate::term::Colon",
  c!"    };",
  c!"    (;) => {",
  c!"        $crate::term::SemiColon",
  c!"    };",
  c!"    (<) => {",
  c!"        $crate::term::LessThan",
  c!"    };",
  c!"    (=) => {",
  c!"        $crate::term::Assign",
  c!"    };",
  c!"    (>) => {",
  c!"        $crate::term::GreaterThan",
  c!"    };",
  c!"    (?) => {",
  c!"        $crate::term::QMark",
  c!"    };",
  c!"    (*) => {",
  c!"        $crate::term::Asterisk",
  c!"    };",
  c!"    (or) => {",
  c!"        $crate::term::Or",
  c!"    };",
  c!"    (optional) => {",
  c!"        $crate::term::Optional",
  c!"    };",
  c!"    (async) => {",
  c!"        $crate::term::Async",
  c!"    };",
  c!"    (attribute) => {",
  c!"        $crate::term::Attribute",
  c!"    };",
  c!"    (callback) => {",
  c!"        $crate::term::Callback",
  c!"    };",
  c!"    (const) => {",
  c!"        $crate::term::Const",
  c!"    };",
  c!"    (deleter) => {",
  c!"        $crate::term::Deleter",
  c!"    };",
  c!"    (dictionary) => {",
  c!"        $crate::term::Dictionary",
  c!"    };",
  c!"    (enum) => {",
  c!"        $crate::term::Enum",
  c!"    };",
  c!"    (getter) => {",
  c!"        $crate::term::Getter",
  c!"    };",
  c!"    (includes) => {",
  c!"        $crate::term::Includes",
  c!"    };",
  c!"    (inherit) => {"]

/-- `/repo/src/term.rs:401-500` -/
def term_rs4 : List Str := [
  c!"        $crate::term::Inherit",
  c!"    };",
  c!"    (interface) => {",
  c!"        $crate::term::Interface",
  c!"    };",
  c!"    (iterable) => {",
  c!"        $crate::term::Iterable",
  c!"    };",
  c!"    (maplike) => {",
  c!"        $crate::term::Maplike",
  c!"    };",
  c!"    (namespace) => {",
  c!"        $crate::term::Namespace",
  c!"    };",
  c!"    (partial) => {",
  c!"        $crate::term::Partial",
  c!"    };",
  c!"    (required) => {",
  c!"        $crate::term::Required",
  c!"    };",
  c!"    (setlike) => {",
  c!"        $crate::term::Setlike",
  c!"    };",
  c!"    (setter) => {",
  c!"        $crate::term::Setter",
  c!"    };",
  c!"    (static) => {",
  c!"        $crate::term::Static",
  c!"    };",
  c!"    (stringifier) => {",
  c!"        $crate::term::Stringifier",
  c!"    };",
  c!"    (typedef) => {",
  c!"        $crate::term::Typedef",
  c!"    };",
  c!"    (unrestricted) => {",
  c!"        $crate::term::Unrestricted",
  c!"    };",
  c!"    (symbol) => {",
  c!"        $crate::term::Symbol",
  c!"    };",
  c!"    (- Infinity) => {",
  c!"        $crate::term::NegInfinity",
  c!"    };",
  c!"    (ByteString) => {",
  c!"        $crate::term::ByteString",
  c!"    };",
  c!"    (DOMString) => {",
  c!"        $crate::term::DOMString",
  c!"    };",
  c!"    (FrozenArray) => {",
  c!"        $crate::term::FrozenArray",
  c!"    };",
  c!"    (Infinity) => {",
  c!"        $crate::term::Infinity",
  c!"    };",
  c!"    (NaN) => {",
  c!"        $crate::term::NaN",
  c!"    };",
  c!"    (USVString) => {",
  c!"        $crate::term::USVString",
  c!"    };",
  c!"    (any) => {",
  c!"        $crate::term::Any",
  c!"    };",
  c!"    (boolean) => {",
  c!"        $crate::term::Boolean",
  c!"    };",
  c!"    (byte) => {",
  c!"        $crate::term::Byte",
  c!"    };",
  c!"    (double) => {",
  c!"        $crate::term::Double",
  c!"    };",
  c!"    (false) => {",
  c!"        $crate::term::False",
  c!"    };",
  c!"    (float) => {",
  c!"        $crate::term::Float",
  c!"    };",
  c!"    (long) => {",
  c!"        $crate::term::Long",
  c!"    };",
  c!"    (null) => {",
  c!"        $crate::term::Null",
  c!"    };",
  c!"    (object) => {",
  c!"        $crate::term::Object",
  c!"    };",
  c!"    (octet) => {",
  c!"        $crate::term::Octet",
  c!"    };",
  c!"    (sequence) => {",
  c!"        $crate::term::Sequence",
  c!"    };",
  c!"    (short) => {",
  c!"        $crate::term::Short",
  c!"    };",
  c!"    (true) => {",
  c!"        $crate::term::True"]

/-- `/repo/src/term.rs:501-571` -/
def term_rs5 : List Str := [
  c!"    };",
  c!"    (unsigned) => {",
  c!"        $crate::term::Unsigned",
  c!"    };",
  c!"    (undefined) => {",
  c!"        $crate::term::Undefined",
  c!"    };",
  c!"    (record) => {",
  c!"        $crate::term::Record",
  c!"    };",
  c!"    (ArrayBuffer) => {",
  c!"        $crate::term::ArrayBuffer",
  c!"    };",
  c!"    (DataView) => {",
  c!"        $crate::term::DataView",
  c!"    };",
  c!"    (Int8Array) => {",
  c!"        $crate::term::Int8Array",
  c!"    };",
  c!"    (Int16Array) => {",
  c!"        $crate::term::Int16Array",
  c!"    };",
  c!"    (Int32Array) => {",
  c!"        $crate::term::Int32Array",
  c!"    };",
  c!"    (Uint8Array) => {",
  c!"        $crate::term::Uint8Array",
  c!"    };",
  c!"    (Uint16Array) => {",
  c!"        $crate::term::Uint16Array",
  c!"    };",
  c!"    (Uint32Array) => {",
  c!"        $crate::term::Uint32Array",
  c!"    };",
  c!"    (Uint8ClampedArray) => {",
  c!"        $crate::term::Uint8ClampedArray",
  c!"    };",
  c!"    (Float32Array) => {",
  c!"        $crate::term::Float32Array",
  c!"    };",
  c!"    (Float64Array) => {",
  c!"        $crate::term::Float64Array",
  c!"    };",
  c!"    (ArrayBufferView) => {",
  c!"        $crate::term::ArrayBufferView",
  c!"    };",
  c!"    (BufferSource) => {",
  c!"        $crate::term::BufferSource",
  c!"    };",
  c!"    (Promise) => {",
  c!"        $crate::term::Promise",
  c!"    };",
  c!"    (Error) => {",
  c!"        $crate::term::Error",
  c!"    };",
  c!"    (readonly) => {",
  c!"        $crate::term::ReadOnly",
  c!"    };",
  c!"    (mixin) => {",
  c!"        $crate::term::Mixin",
  c!"    };",
  c!"    (implements) => {",
  c!"        $crate::term::Implements",
  c!"    };",
  c!"    (legacycaller) => {",
  c!"        $crate::term::LegacyCaller",
  c!"    };",
  c!"    (constructor) => {",
  c!"        $crate::term::Constructor",
  c!"    };",
  c!"}"]

/-- `/repo/src/term.rs:1-571` -/
def term_rs : List Str := term_rs0 ++ term_rs1 ++ term_rs2 ++ term_rs3 ++ term_rs4 ++ term_rs5

/-- `/repo/src/types.rs:1-100` -/
def types_rs0 : List Str := [
  c!"use crate::attribute::ExtendedAttributeList;",
  c!"use crate::common::{Generics, Identifier, Parenthesized, Punctuated};",
  c!"use crate::term;",
  c!"use crate::Parse;",
  c!"",
  c!"/// Parses a union of types",
  c!"pub type UnionType<'a> = Parenthesized<Punctuated<UnionMemberType<'a>, term!(or)>>;",
  c!"",
  c!"ast_types! {",
  c!"    /// Parses either single type or a union type",
  c!"    enum Type<'a> {",
  c!"        /// Parses one of the single types",
  c!"        Single(enum SingleType<'a> {",
  c!"            Any(term!(any)),",
  c!"            NonAny(NonAnyType<'a>),",
  c!"        }),",
  c!"        Union(MayBeNull<UnionType<'a>>),",
  c!"    }",
  c!"",
  c!"    // Parses any single non-any type",
  c!"    enum NonAnyType<'a> {",
  c!"        Promise(PromiseType<'a>),",
  c!"        Integer(MayBeNull<IntegerType>),",
  c!"        FloatingPoint(MayBeNull<FloatingPointType>),",
  c!"        Boolean(MayBeNull<term!(boolean)>),",
  c!"        Byte(MayBeNull<term!(byte)>),",
  c!"        Octet(MayBeNull<term!(octet)>),",
  c!"        ByteString(MayBeNull<term!(ByteString)>),",
  c!"        DOMString(MayBeNull<term!(DOMString)>),",
  c!"        USVString(MayBeNull<term!(USVString)>),",
  c!"        Sequence(MayBeNull<SequenceType<'a>>),",
  c!"        Object(MayBeNull<term!(object)>),",
  c!"        Symbol(MayBeNull<term!(symbol)>),",
  c!"        Error(MayBeNull<term!(Error)>),",
  c!"        ArrayBuffer(MayBeNull<term!(ArrayBuffer)>),",
  c!"        DataView(MayBeNull<term!(DataView)>),",
  c!"        Int8Array(MayBeNull<term!(Int8Array)>),",
  c!"        Int16Array(MayBeNull<term!(Int16Array)>),",
  c!"        Int32Array(MayBeNull<term!(Int32Array)>),",
  c!"        Uint8Array(MayBeNull<term!(Uint8Array)>),",
  c!"        Uint16Array(MayBeNull<term!(Uint16Array)>),",
  c!"        Uint32Array(MayBeNull<term!(Uint32Array)>),",
  c!"        Uint8ClampedArray(MayBeNull<term!(Uint8ClampedArray)>),",
  c!"        Float32Array(MayBeNull<term!(Float32Array)>),",
  c!"        Float64Array(MayBeNull<term!(Float64Array)>),",
  c!"        ArrayBufferView(MayBeNull<term!(ArrayBufferView)>),",
  c!"        BufferSource(MayBeNull<term!(BufferSource)>),",
  c!"        FrozenArrayType(MayBeNull<FrozenArrayType<'a>>),",
  c!"        RecordType(MayBeNull<RecordType<'a>>),",
  c!"        Identifier(MayBeNull<Identifier<'a>>),",
  c!"    }",
  c!"",
  c!"    /// Parses `sequence<Type>`",
  c!"    struct SequenceType<'a> {",
  c!"        sequence: term!(sequence),",
  c!"        generics: Generics<Box<Type<'a>>>,",
  c!"    }",
  c!"",
  c!"    /// Parses `FrozenArray<Type>`",
  c!"    struct FrozenArrayType<'a> {",
  c!"        frozen_array: term!(FrozenArray),",
  c!"        generics: Generics<Box<Type<'a>>>,",
  c!"    }",
  c!"",
  c!"    /// Parses a nullable type. Ex: `object | object??`",
  c!"    ///",
  c!"    /// `??` means an actual ? not an optional requirement",
  c!"    #[derive(Copy)]",
  c!"    struct MayBeNull<T> where [T: Parse<'a>] {",
  c!"        type_: T,",
  c!"        q_mark: Option<term::QMark>,",
  c!"    }",
  c!"",
  c!"    /// Parses a `Promise<Type|undefined>` type",
  c!"    struct PromiseType<'a> {",
  c!"        promise: term!(Promise),",
  c!"        generics: Generics<Box<ReturnType<'a>>>,",
  c!"    }",
  c!"",
  c!"    /// Parses `unsigned? short|long|(long long)`",
  c!"    #[derive(Copy)]",
  c!"    enum IntegerType {",
  c!"        /// Parses `unsigned? long long`",
  c!"        #[derive(Copy)]",
  c!"        LongLong(struct LongLongType {",
  c!"            unsigned: Option<term!(unsigned)>,",
  c!"            long_long: (term!(long), term!(long)),",
  c!"        }),",
  c!"        /// Parses `unsigned? long`",
  c!"        #[derive(Copy)]",
  c!"        Long(struct LongType {",
  c!"            unsigned: Option<term!(unsigned)>,",
  c!"            long: term!(long),",
  c!"        }),",
  c!"        /// Parses `unsigned? short`",
  c!"        #[derive(Copy)]",
  c!"        Short(struct ShortType {",
  c!"            unsigned: Option<term!(unsigned)>,",
  c!"            short: term!(short),",
  c!"        }),"]

/-- `/repo/src/types.rs:101-167` -/
def types_rs1 : List Str := [
  c!"    }",
  c!"",
  c!"    /// Parses `unrestricted? float|double`",
  c!"    #[derive(Copy)]",
  c!"    enum FloatingPointType {",
  c!"        /// Parses `unrestricted? float`",
  c!"        #[derive(Copy)]",
  c!"        Float(struct FloatType {",
  c!"            unrestricted: Option<term!(unrestricted)>,",
  c!"            float: term!(float),",
  c!"        }),",
  c!"        /// Parses `unrestricted? double`",
  c!"        #[derive(Copy)]",
  c!"        Double(struct DoubleType {",
  c!"            unrestricted: Option<term!(unrestricted)>,",
  c!"            double: term!(double),",
  c!"        }),",
  c!"    }",
  c!"",
  c!"    /// Parses `record<StringType, Type>`",
  c!"    struct RecordType<'a> {",
  c!"        record: term!(record),",
  c!"        generics: Generics<(Box<RecordKeyType<'a>>, term!(,), Box<Type<'a>>)>,",
  c!"    }",
  c!"",
  c!"    /// Parses one of the string types `ByteString|DOMString|USVString` or any other type.",
  c!"    enum RecordKeyType<'a> {",
  c!"        Byte(term!(ByteString)),",
  c!"        DOM(term!(DOMString)),",
  c!"        USV(term!(USVString)),",
  c!"        NonAny(NonAnyType<'a>),",
  c!"    }",
  c!"",
  c!"    /// Parses one of the member of a union type",
  c!"    enum UnionMemberType<'a> {",
  c!"        Single(AttributedNonAnyType<'a>),",
  c!"        Union(MayBeNull<UnionType<'a>>),",
  c!"    }",
  c!"",
  c!"    /// Parses a const type",
  c!"    enum ConstType<'a> {",
  c!"        Integer(MayBeNull<IntegerType>),",
  c!"        FloatingPoint(MayBeNull<FloatingPointType>),",
  c!"        Boolean(MayBeNull<term!(boolean)>),",
  c!"        Byte(MayBeNull<term!(byte)>),",
  c!"        Octet(MayBeNull<term!(octet)>),",
  c!"        Identifier(MayBeNull<Identifier<'a>>),",
  c!"    }",
  c!"",
  c!"    /// Parses the return type which may be `undefined` or any given Type",
  c!"    enum ReturnType<'a> {",
  c!"        Undefined(term!(undefined)),",
  c!"        Type(Type<'a>),",
  c!"    }",
  c!"",
  c!"    /// Parses `[attributes]? type`",
  c!"    struct AttributedType<'a> {",
  c!"        attributes: Option<ExtendedAttributeList<'a>>,",
  c!"        type_: Type<'a>,",
  c!"    }",
  c!"",
  c!"    /// Parses `[attributes]? type` where the type is a single non-any type",
  c!"    struct AttributedNonAnyType<'a> {",
  c!"        attributes: Option<ExtendedAttributeList<'a>>,",
  c!"        type_: NonAnyType<'a>,",
  c!"    }",
  c!"}"]

/-- `/repo/src/types.rs:1-167` -/
def types_rs : List Str := types_rs0 ++ types_rs1

/-- `/repo/src/whitespace.rs:1-31` -/
def whitespace_rs0 : List Str := [
  c!"use crate::IResult;",
  c!"",
  c!"pub(crate) fn sp(input: &str) -> IResult<&str, &str> {",
  c!"    recognize!(",
  c!"        input,",
  c!"        many0!(alt!(",
  c!"            // ignores line comments",
  c!"            do_parse!(tag!(\"//\") >> take_until!(\"\\n\") >> char!('\\n') >> (()))",
  c!"            |",
  c!"            // ignores whitespace",
  c!"            map!(take_while1!(|c| c == '\\t' || c == '\\n' || c == '\\r' || c == ' '), |_| ())",
  c!"            |",
  c!"            // ignores block comments",
  c!"            do_parse!(tag!(\"/*\") >> take_until!(\"*/\") >> tag!(\"*/\") >> (()))",
  c!"        ))",
  c!"    )",
  c!"}",
  c!"",
  c!"/// ws! also ignores line & block comments",
  c!"macro_rules! ws (",
  c!"    ($i:expr, $($args:tt)*) => ({",
  c!"        use $crate::whitespace::sp;",
  c!"",
  c!"        do_parse!($i,",
  c!"            sp >>",
  c!"            s: $($args)* >>",
  c!"            sp >>",
  c!"            (s)",
  c!"        )",
  c!"    });",
  c!");"]

/-- `/repo/src/whitespace.rs:1-31` -/
def whitespace_rs : List Str := whitespace_rs0

end Verif.Source
