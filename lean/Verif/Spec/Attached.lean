import Verif.Model.Parse

/-!
# The extended attributes of definitions and members
-/

namespace Verif.Spec

/-- A value with its attributes, and the same value with other attributes. -/
class Attributed (α : Type) where
  attributesOf : α → Attrs
  withAttributes : Attrs → α → α

export Attributed (attributesOf withAttributes)

instance : Attributed Definition where
  attributesOf
    | .callback as .. => as
    | .callbackInterface as .. => as
    | .interface as .. => as
    | .interfaceMixin as .. => as
    | .namespace as .. => as
    | .dictionary as .. => as
    | .partialInterface as .. => as
    | .partialInterfaceMixin as .. => as
    | .partialDictionary as .. => as
    | .partialNamespace as .. => as
    | .enum as .. => as
    | .typedef as .. => as
    | .includesStatement as .. => as
    | .implements as .. => as
  withAttributes as
    | .callback _ i r args => .callback as i r args
    | .callbackInterface _ i inh ms => .callbackInterface as i inh ms
    | .interface _ i inh ms => .interface as i inh ms
    | .interfaceMixin _ i ms => .interfaceMixin as i ms
    | .namespace _ i ms => .namespace as i ms
    | .dictionary _ i inh ms => .dictionary as i inh ms
    | .partialInterface _ i ms => .partialInterface as i ms
    | .partialInterfaceMixin _ i ms => .partialInterfaceMixin as i ms
    | .partialDictionary _ i ms => .partialDictionary as i ms
    | .partialNamespace _ i ms => .partialNamespace as i ms
    | .enum _ i vs => .enum as i vs
    | .typedef _ t i => .typedef as t i
    | .includesStatement _ l r => .includesStatement as l r
    | .implements _ l r => .implements as l r

instance : Attributed InterfaceMember where
  attributesOf
    | .const m => m.attributes
    | .attribute m => m.attributes
    | .constructor m => m.attributes
    | .operation m => m.attributes
    | .iterable (.single as _) => as
    | .iterable (.double as _) => as
    | .asyncIterable (.single as _ _) => as
    | .asyncIterable (.double as _ _) => as
    | .maplike m => m.attributes
    | .setlike m => m.attributes
    | .stringifier m => m.attributes
  withAttributes as
    | .const m => .const { m with attributes := as }
    | .attribute m => .attribute { m with attributes := as }
    | .constructor m => .constructor { m with attributes := as }
    | .operation m => .operation { m with attributes := as }
    | .iterable (.single _ t) => .iterable (.single as t)
    | .iterable (.double _ p) => .iterable (.double as p)
    | .asyncIterable (.single _ t args) => .asyncIterable (.single as t args)
    | .asyncIterable (.double _ p args) => .asyncIterable (.double as p args)
    | .maplike m => .maplike { m with attributes := as }
    | .setlike m => .setlike { m with attributes := as }
    | .stringifier _ => .stringifier { attributes := as }

instance : Attributed MixinMember where
  attributesOf
    | .const m => m.attributes
    | .operation m => m.attributes
    | .attribute m => m.attributes
    | .stringifier m => m.attributes
  withAttributes as
    | .const m => .const { m with attributes := as }
    | .operation m => .operation { m with attributes := as }
    | .attribute m => .attribute { m with attributes := as }
    | .stringifier _ => .stringifier { attributes := as }

instance : Attributed NamespaceMember where
  attributesOf
    | .const m => m.attributes
    | .operation m => m.attributes
    | .attribute m => m.attributes
  withAttributes as
    | .const m => .const { m with attributes := as }
    | .operation m => .operation { m with attributes := as }
    | .attribute m => .attribute { m with attributes := as }

instance : Attributed DictionaryMember where
  attributesOf m := m.attributes
  withAttributes as m := { m with attributes := as }

end Verif.Spec
