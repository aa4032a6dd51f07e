import Verif.Source.Text

/-!
# The documentation in the source

The lines of `Verif/Source/Text.lean` include the comments. `docOf lines n` is the form in the documentation of the
type `n`: what stands between the first two backquotes of the comment above its declaration. The definitions read the comments of `/repo/src/*.rs`; they model no code.
-/

namespace Verif.Source

/-- A comment or an attribute of the declaration below. -/
def isDoc (l : Str) : Bool :=
  let l := l.dropWhile (· = ' ')
  c!"///".isPrefixOf l || c!"#[".isPrefixOf l

/-- What stands between the first two backquotes. -/
def quote (l : Str) : Option Str :=
  let r := (l.dropWhile (· ≠ '`')).drop 1
  if '`' ∈ r then some (r.takeWhile (· ≠ '`')) else none

/-- `n` and then no letter, digit or underscore. -/
def nameFirst (n s : Str) : Bool :=
  n.isPrefixOf s && !((s.drop n.length).head?.any fun c => c.isAlphanum || c = '_')

/-- `struct n` or `enum n` -/
def declaresIn (n : Str) : Str → Bool
  | [] => false
  | c :: s => (c!"struct ".isPrefixOf (c :: s) && nameFirst n ((c :: s).drop 7)) ||
      (c!"enum ".isPrefixOf (c :: s) && nameFirst n ((c :: s).drop 5)) || declaresIn n s

/-- The line declares `n`, as a struct or an enum, or as a terminal: `n => "..."`. -/
def declares (n l : Str) : Bool :=
  !isDoc l && (declaresIn n l || (n ++ c!" => ").isPrefixOf (l.dropWhile (· = ' ')))

def docFrom (n : Str) (above : List Str) : List Str → Option Str
  | [] => none
  | l :: ls => if declares n l then ((above.takeWhile isDoc).reverse).findSome? quote else docFrom n (l :: above) ls

/-- The form in the documentation of the type `n`. -/
def docOf (lines : List Str) (n : Str) : Option Str := docFrom n [] lines

/-- The source files with declarations. -/
def files : List (List Str) :=
  [argument_rs, attribute_rs, common_rs, dictionary_rs, interface_rs, lib_rs, literal_rs, mixin_rs, namespace_rs,
   term_rs, types_rs]

/-- Without spaces. -/
def squeeze (s : Str) : Str := s.filter (· ≠ ' ')

/-- The documentation of the type `n` says `p`, apart from spaces. -/
def Says (n p : Str) : Prop := ∃ f ∈ files, (docOf f n).map squeeze = some p

theorem says {n p : Str} (i : Fin 11) (h : (docOf (files.get i) n).map squeeze = some p) : Says n p :=
  ⟨_, List.get_mem files i, h⟩

end Verif.Source
