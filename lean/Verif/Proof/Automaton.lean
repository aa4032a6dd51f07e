import Verif.Proof.CharStep

/-!
# Documents as words of an automaton

The items of every document are accepted by a nondeterministic automaton that reads a whole group in brackets as one letter (`next`).
Its states say what has been read since the last opening bracket. It is used for C68.
-/

namespace Verif.Auto
open Nom Spec

/-- The fixed items. -/
inductive Wd where
  | comma | semi | colon | eq | query | dots | star
  | any | async | attr_ | callback | const | constructor | deleter | dictionary | double | enum | float | frozenArray
  | getter | implements | includes | inherit | interface | iterable | legacycaller | long | maplike | mixin | nspace
  | optional | or | part | promise | readonly | record | required | sequence | setlike | setter | short | static
  | stringifier | typedef | unrestricted | unsigned
  | tru | fls | null | infinity | negInfinity | nan
  deriving DecidableEq, Repr

def Wd.text : Wd → Str
  | .comma => c!"," | .semi => c!";" | .colon => c!":" | .eq => c!"=" | .query => c!"?" | .dots => c!"..." | .star => c!"*"
  | .any => c!"any" | .async => c!"async" | .attr_ => c!"attribute" | .callback => c!"callback" | .const => c!"const"
  | .constructor => c!"constructor" | .deleter => c!"deleter" | .dictionary => c!"dictionary" | .double => c!"double"
  | .enum => c!"enum" | .float => c!"float" | .frozenArray => c!"FrozenArray" | .getter => c!"getter"
  | .implements => c!"implements" | .includes => c!"includes" | .inherit => c!"inherit" | .interface => c!"interface"
  | .iterable => c!"iterable" | .legacycaller => c!"legacycaller" | .long => c!"long" | .maplike => c!"maplike"
  | .mixin => c!"mixin" | .nspace => c!"namespace" | .optional => c!"optional" | .or => c!"or" | .part => c!"partial"
  | .promise => c!"Promise" | .readonly => c!"readonly" | .record => c!"record" | .required => c!"required"
  | .sequence => c!"sequence" | .setlike => c!"setlike" | .setter => c!"setter" | .short => c!"short" | .static => c!"static"
  | .stringifier => c!"stringifier" | .typedef => c!"typedef" | .unrestricted => c!"unrestricted" | .unsigned => c!"unsigned"
  | .tru => c!"true" | .fls => c!"false" | .null => c!"null" | .infinity => c!"Infinity" | .negInfinity => c!"-Infinity"
  | .nan => c!"NaN"

inductive Br where
  | round | square | curly | angle
  deriving DecidableEq, Repr

def Br.opening : Br → Str
  | .round => c!"(" | .square => c!"[" | .curly => c!"{" | .angle => c!"<"

def Br.closing : Br → Str
  | .round => c!")" | .square => c!"]" | .curly => c!"}" | .angle => c!">"

/-- Where members are. -/
inductive Body where
  | iface | mixin | nspace
  deriving DecidableEq, Repr

/-- What comes after a type. -/
inductive K where
  | union | one | recKey | it | pair | arg | var | argOpt | const (b : Body) | attr (b : Body) | op (b : Body) | dict | typedef | callback
  deriving DecidableEq, Repr

/-- How far a type has been read. -/
inductive TP where
  | start | u | ul | r | l | uid | rid | recd | gen | d | e
  deriving DecidableEq, Repr

inductive St where
  | ty (p : TP) (k : K)
  | atty (k : K)
  | fin
  | unS
  | mem (b : Body) | mem1 (b : Body) | semi (b : Body)
  | ro | roA (b : Body) | strf | strfM | inh | stat | ctor | itr | asy | asy2 | asy3 | mpl | stl | constEq (b : Body)
  | constVal (b : Body) | opArgs (b : Body)
  | dmem | dmem1 | dictDef | dictVal | dictSemi
  | argS | argN | arg1 | argDef | argVal | argEnd | argVar
  | eaS | eaN | ea1 | eaEq | ea2 | eaE
  | idS | idN | idE
  | enS | enE | enC
  | doc | def1 | cb | cbEq | ifc | ifcN | ifcI | ifcX | ifcB | mix | mixB | par | nsp | nspB | dic | dicN | dicI | dicB | enu | enuB | inc1 | inc2 | docSemi
  deriving DecidableEq, Repr

/-- What a group contains. -/
inductive Role where
  | union | args | idents | attrs | empty | iface | mixin | nspace | dict | enum | one | recd | it | pair | att
  deriving DecidableEq, Repr

/-- Letters. -/
inductive Hd where
  | w (k : Wd)
  | name (ex : List Wd)
  | str
  | num
  | grp (b : Br) (r : Role)
  deriving DecidableEq, Repr

/-- A letter that stands for an item. Names, numbers and strings are told by their first character. The word `z` is not a name. -/
def Hd.has (z : Str) : Hd → Str → Prop
  | .w k, x => x = k.text
  | .name ex, x => (∃ c v, x = c :: v ∧ (c.isAlpha = Bool.true ∨ c = '_')) ∧ (∀ k ∈ ex, x ≠ k.text) ∧ x ≠ z
  | .str, x => ∃ v, x = '"' :: v
  | .num, x => ∃ c v, x = c :: v ∧ (IsDig c ∨ c = '.' ∨ c = '-')
  | .grp _ _, _ => False

def start : Role → St
  | .union => .unS
  | .args => .argS
  | .idents => .idS
  | .attrs => .eaS
  | .empty => .fin
  | .iface => .mem .iface
  | .mixin => .mem .mixin
  | .nspace => .mem .nspace
  | .dict => .dmem
  | .enum => .enS
  | .one => .ty .start .one
  | .recd => .ty .start .recKey
  | .it => .atty .it
  | .pair => .atty .pair
  | .att => .atty .one

def kFinal : K → Bool
  | .union | .one | .it => true
  | _ => false

def final : St → Bool
  | .ty .d k | .ty .ul k | .ty .l k | .ty .uid k | .ty .rid k | .ty .e k => kFinal k
  | .fin | .unS | .mem _ | .dmem | .argS | .argDef | .argEnd | .eaS | .ea1 | .ea2 | .eaE | .idS | .idE | .enE | .enC | .doc => true
  | _ => false

/-- After a type; a name is not one of `ex`. -/
def kNext (ex : List Wd) : K → List (Hd × St)
  | .union => [(.w .or, .atty .union)]
  | .one => []
  | .recKey => [(.w .comma, .ty .start .one)]
  | .it => [(.w .comma, .atty .one)]
  | .pair => [(.w .comma, .atty .one)]
  | .arg => [(.name ex, .argEnd)]
  | .var => [(.w .dots, .argVar)]
  | .argOpt => [(.name ex, .argDef)]
  | .const b => [(.name ex, .constEq b)]
  | .attr b => [(.name ex, .semi b)]
  | .op b => [(.name ex, .opArgs b), (.grp .round .args, .semi b)]
  | .dict => [(.name ex, .dictDef)]
  | .typedef => [(.name ex, .docSemi)]
  | .callback => [(.grp .round .args, .docSemi)]

def tyStart (ex : List Wd) (k : K) : List (Hd × St) :=
  [(.w .unsigned, .ty .u k), (.w .unrestricted, .ty .r k), (.w .long, .ty .l k), (.w .short, .ty .d k), (.w .float, .ty .d k),
   (.w .double, .ty .d k), (.w .unsigned, .ty .uid k), (.w .unrestricted, .ty .rid k), (.w .record, .ty .recd k),
   (.w .promise, .ty .gen k), (.w .sequence, .ty .gen k), (.w .frozenArray, .ty .gen k), (.grp .round .union, .ty .d k),
   (.name (ex ++ [.long, .short, .float, .double, .unsigned, .unrestricted]), .ty .d k)]

def special : List Wd := [.getter, .setter, .deleter, .legacycaller]

def tyNext (k : K) : TP → List (Hd × St)
  | .u => [(.w .long, .ty .ul k), (.w .short, .ty .d k)]
  | .ul => (.w .long, .ty .d k) :: (.w .query, .ty .e k) :: kNext [.long] k
  | .r => [(.w .float, .ty .d k), (.w .double, .ty .d k)]
  | .l => (.w .long, .ty .d k) :: (.w .query, .ty .e k) :: kNext [.long] k
  | .uid => (.w .query, .ty .e k) :: kNext [.long, .short] k
  | .rid => (.w .query, .ty .e k) :: kNext [.float, .double] k
  | .recd => [(.grp .angle .recd, .ty .d k)]
  | .gen => [(.grp .angle .one, .ty .d k)]
  | .d => (.w .query, .ty .e k) :: kNext [] k
  | .e => kNext [] k
  | .start => tyStart [] k

def attyNext (k : K) : List (Hd × St) := (.grp .square .attrs, .ty .start k) :: tyStart [] k

def value (q : St) : List (Hd × St) :=
  [(.w .tru, q), (.w .fls, q), (.w .null, q), (.w .infinity, q), (.w .negInfinity, q), (.w .nan, q), (.num, q)]

def value' (q : St) : List (Hd × St) := (.str, q) :: (.grp .square .empty, q) :: (.grp .curly .empty, q) :: value q

def specials : List (Hd × St) := special.map fun k => (.w k, .ty .start (.op .iface))

def roNext (b : Body) : List (Hd × St) := [(.w .attr_, .atty (.attr b)), (.w .readonly, .roA b)]

def mem1Next : Body → List (Hd × St)
  | .iface => [(.w .const, .ty .start (.const .iface)), (.w .attr_, .atty (.attr .iface)), (.w .readonly, .ro), (.w .stringifier, .strf),
      (.w .inherit, .inh), (.w .static, .stat), (.w .constructor, .ctor), (.w .iterable, .itr), (.w .async, .asy), (.w .maplike, .mpl),
      (.w .setlike, .stl)] ++ specials ++ tyStart (.stringifier :: .static :: special) (.op .iface)
  | .mixin => [(.w .const, .ty .start (.const .mixin)), (.w .attr_, .atty (.attr .mixin)), (.w .readonly, .roA .mixin), (.w .stringifier, .strfM)] ++
      tyStart [.stringifier] (.op .mixin)
  | .nspace => [(.w .const, .ty .start (.const .nspace)), (.w .readonly, .roA .nspace)] ++ tyStart [] (.op .nspace)

def argNext : List (Hd × St) := (.w .optional, .atty .argOpt) :: tyStart [.optional] .arg ++ tyStart [] .var

def def1Next : List (Hd × St) :=
  [(.w .callback, .cb), (.w .interface, .ifc), (.w .part, .par), (.w .nspace, .nsp), (.w .dictionary, .dic), (.w .enum, .enu),
   (.w .typedef, .atty .typedef), (.name [.typedef], .inc1)]

def next : St → List (Hd × St)
  | .ty p k => tyNext k p
  | .atty k => attyNext k
  | .fin => []
  | .unS => attyNext .union
  | .mem b => (.grp .square .attrs, .mem1 b) :: mem1Next b
  | .mem1 b => mem1Next b
  | .semi b => [(.w .semi, .mem b)]
  | .ro => [(.w .attr_, .atty (.attr .iface)), (.w .maplike, .mpl), (.w .setlike, .stl)]
  | .roA b => [(.w .attr_, .atty (.attr b))]
  | .strf => (.w .semi, .mem .iface) :: roNext .iface ++ specials ++ tyStart special (.op .iface)
  | .strfM => (.w .semi, .mem .mixin) :: roNext .mixin ++ tyStart [] (.op .mixin)
  | .inh => roNext .iface
  | .stat => roNext .iface ++ specials ++ tyStart special (.op .iface)
  | .ctor => [(.grp .round .args, .semi .iface)]
  | .itr => [(.grp .angle .it, .semi .iface)]
  | .asy => [(.w .iterable, .asy2)]
  | .asy2 => [(.grp .angle .it, .asy3)]
  | .asy3 => [(.w .semi, .mem .iface), (.grp .round .args, .semi .iface)]
  | .mpl => [(.grp .angle .pair, .semi .iface)]
  | .stl => [(.grp .angle .att, .semi .iface)]
  | .constEq b => [(.w .eq, .constVal b)]
  | .constVal b => value (.semi b)
  | .opArgs b => [(.grp .round .args, .semi b)]
  | .dmem => (.grp .square .attrs, .dmem1) :: (.w .required, .ty .start .dict) :: tyStart [.required] .dict
  | .dmem1 => (.w .required, .ty .start .dict) :: tyStart [.required] .dict
  | .dictDef => [(.w .eq, .dictVal), (.w .semi, .dmem)]
  | .dictVal => value' .dictSemi
  | .dictSemi => [(.w .semi, .dmem)]
  | .argS => (.grp .square .attrs, .arg1) :: argNext
  | .argN => (.grp .square .attrs, .arg1) :: argNext
  | .arg1 => (.grp .square .attrs, .ty .start .arg) :: argNext
  | .argDef => [(.w .eq, .argVal), (.w .comma, .argN)]
  | .argVal => value' .argEnd
  | .argEnd => [(.w .comma, .argN)]
  | .argVar => [(.name [], .argEnd)]
  | .eaS => [(.name [], .ea1)]
  | .eaN => [(.name [], .ea1)]
  | .ea1 => [(.w .comma, .eaN), (.grp .round .args, .eaE), (.w .eq, .eaEq)]
  | .eaEq => [(.grp .round .idents, .eaE), (.name [], .ea2), (.str, .eaE), (.w .star, .eaE)]
  | .ea2 => [(.w .comma, .eaN), (.grp .round .args, .eaE)]
  | .eaE => [(.w .comma, .eaN)]
  | .idS => [(.name [], .idE)]
  | .idN => [(.name [], .idE)]
  | .idE => [(.w .comma, .idN)]
  | .enS => [(.str, .enE)]
  | .enE => [(.w .comma, .enC)]
  | .enC => [(.str, .enE)]
  | .doc => (.grp .square .attrs, .def1) :: def1Next
  | .def1 => def1Next
  | .cb => [(.w .interface, .ifcI), (.name [], .cbEq)]
  | .cbEq => [(.w .eq, .ty .start .callback)]
  | .ifc => [(.w .mixin, .mix), (.name [], .ifcN)]
  | .ifcI => [(.name [], .ifcN)]
  | .ifcN => [(.w .colon, .ifcX), (.grp .curly .iface, .docSemi)]
  | .ifcX => [(.name [], .ifcB)]
  | .ifcB => [(.grp .curly .iface, .docSemi)]
  | .mix => [(.name [], .mixB)]
  | .mixB => [(.grp .curly .mixin, .docSemi)]
  | .par => [(.w .interface, .ifc), (.w .dictionary, .dic), (.w .nspace, .nsp)]
  | .nsp => [(.name [], .nspB)]
  | .nspB => [(.grp .curly .nspace, .docSemi)]
  | .dic => [(.name [], .dicN)]
  | .dicN => [(.w .colon, .dicI), (.grp .curly .dict, .docSemi)]
  | .dicI => [(.name [], .dicB)]
  | .dicB => [(.grp .curly .dict, .docSemi)]
  | .enu => [(.name [], .enuB)]
  | .enuB => [(.grp .curly .enum, .docSemi)]
  | .inc1 => [(.w .includes, .inc2), (.w .implements, .inc2)]
  | .inc2 => [(.name [], .docSemi)]
  | .docSemi => [(.w .semi, .doc)]

/-- The words that the automaton accepts from a state, where `z` is not read as a name. -/
inductive Acc (z : Str) : St → List Str → Prop where
  | done {q : St} (h : final q = Bool.true) : Acc z q []
  | item {q q' : St} {h : Hd} {w : Str} {ls : List Str} (hm : (h, q') ∈ next q) (hw : h.has z w) (hs : Acc z q' ls) : Acc z q (w :: ls)
  | group {q q' : St} {b : Br} {r : Role} {c ls : List Str} (hm : (.grp b r, q') ∈ next q) (hc : Acc z (start r) c) (hs : Acc z q' ls) :
      Acc z q (b.opening :: c ++ b.closing :: ls)

end Verif.Auto
