import Verif.Proof.Places
import Verif.Properties.Parts

/-!
# C56: a part of a text can be replaced, and only this part of the result changes
-/

namespace Verif.Properties
open Nom Spec Places

/-- The types of the parts that can be replaced, with the spellings of their values. -/
inductive Readable : {α : Type} → G α → (α → Lang) → Prop where
  | part {α : Type} {g : G α} {L : α → Lang} : PartOf g L → Readable g L
  | whole {α : Type} {g : G α} {L : α → Lang} : WholeOf g L → Readable g L
  /-- `Option<ExtendedAttributeList>` -/
  | attributes : Readable G.attrs attributes
  /-- `Vec<T>` -/
  | vec {α : Type} {g : G α} {L : α → Lang} : WholeOf g L → Readable (G.many0 g) (all L)

theorem WholeOf.isType {α : Type} {g : G α} {L : α → Lang} (h : WholeOf g L) : IsType g true := by
  cases h <;> constructor

theorem vec_reads {α : Type} {g : G α} {L : α → Lang} (h : Whole g L) {s : Str} {as : List α}
    (hc : Chain g.parse s as []) : ∃ ls, all L as ls ∧ Around ls s := by
  generalize hr : ([] : Str) = r at hc
  induction hc with
  | nil => subst hr; exact ⟨[], rfl, [], [], rfl, .nil, .nil⟩
  | @cons s m r a as h1 hne rest ih =>
    obtain ⟨ls, h2, t', b', rfl, h3, h4⟩ := ih hr
    obtain ⟨⟨t, l, b, rfl, h5, h6, h7⟩, h8⟩ := h.iff.1 h1
    obtain ⟨c, rfl⟩ := h.semi a l h6
    obtain ⟨b1, rfl, h9⟩ := textThen_text h7
    refine ⟨_, ⟨_, ls, rfl, h6, h2⟩, t, _, rfl, h5, ?_⟩
    rw [textThen_nil] at h4 ⊢
    exact (text_append h9 h3 h4).2

theorem vec_parses {α : Type} {g : G α} {L : α → Lang} (h : Whole g L) {s : Str} {as : List α} {ls : List Str}
    (h1 : all L as ls) (h2 : Text ls s) : Chain g.parse s as [] := by
  induction as generalizing ls s with
  | nil => cases h1; cases h2; exact .nil
  | cons a as ih =>
    obtain ⟨x, y, rfl, h3, h4⟩ := h1
    rw [textThen_nil] at h2
    obtain ⟨r, h5, h6⟩ := textThen_split h2
    rw [← textThen_nil] at h6
    refine .cons (m := r) (h.iff.2 ⟨⟨[], x, s, rfl, .nil, h3, h5⟩, ?_⟩) ?_ (ih h4 h6)
    · cases h6 with
      | nil => rfl
      | @cons w ws t s ht hs ha =>
        refine lexeme_strip ?_
        rcases (AllGood.concat h.good as _ h4).1 with h | h
        · exact .inl h
        · exact .inr h.1
    · rintro rfl
      obtain ⟨c, rfl⟩ := h.semi a x h3
      obtain ⟨p, t, h7, -⟩ := textThen_semi h5
      have := congrArg List.length h7
      simp at this
      omega

theorem fails_nil {α : Type} {g : G α} (h : IsType g true) : Fails g.parse [] := by
  have := h.fine []
  revert this
  cases hr : g.parse [] with
  | ok r a => intro h; exact absurd (h.2 rfl) (by simp)
  | err e => cases e <;> intro h <;> first | exact ⟨_, _, hr⟩ | cases h
  | diverge => intro h; cases h

theorem Readable.reads {α : Type} {g : G α} {L : α → Lang} (h : Readable g L) {s : Str} {a : α} (hs : g.parse s = .ok [] a) :
    ∃ ls, L a ls ∧ Around ls s := by
  cases h with
  | part h =>
    obtain ⟨t, ls, b, h1, h2, h3, h4⟩ := (C47_text (.inl h) s a).1 hs
    exact ⟨ls, h3, t, b, h1, h2, h4⟩
  | whole h =>
    obtain ⟨t, ls, b, h1, h2, h3, h4⟩ := (C47_text (.inr h) s a).1 hs
    exact ⟨ls, h3, t, b, h1, h2, h4⟩
  | attributes =>
    change opt G.extAttrList.parse s = _ at hs
    simp only [opt] at hs
    split at hs
    · next r as e =>
      cases hs
      obtain ⟨t, ls, b, h1, h2, h3, h4⟩ := (C47_text (.inl .extAttrList) s as).1 e
      exact ⟨ls, by simp only [Spec.attributes, extAttrs_eq]; exact h3, t, b, h1, h2, h4⟩
    · cases hs
      exact ⟨[], by simp only [Spec.attributes]; rfl, [], [], rfl, .nil, .nil⟩
    all_goals cases hs
  | vec h =>
    exact vec_reads h.whole ((many0_ok_iff (suff_of_fine h.isType.fine)).1 hs).1

theorem Readable.parses {α : Type} {g : G α} {L : α → Lang} (h : Readable g L) {s : Str} {a : α} {ls : List Str} (hl : L a ls)
    (hs : Text ls s) : g.parse s = .ok [] a := by
  cases h with
  | part h => exact (C47_text (.inl h) s a).2 ⟨[], ls, s, rfl, .nil, hl, hs⟩
  | whole h => exact (C47_text (.inr h) s a).2 ⟨[], ls, s, rfl, .nil, hl, hs⟩
  | attributes =>
    cases a with
    | none =>
      simp only [Spec.attributes] at hl
      cases hl
      cases hs
      rfl
    | some as =>
      have h := (C47_text (.inl .extAttrList) s as).2 ⟨[], ls, s, rfl, .nil, by
        simp only [Spec.attributes, extAttrs_eq] at hl; exact hl, hs⟩
      change opt G.extAttrList.parse s = _
      simp [opt, h]
  | vec h => exact (many0_ok_iff (suff_of_fine h.isType.fine)).2 ⟨vec_parses h.whole hl hs, fails_nil h.isType⟩

/-- Putting the part itself back gives the same value. -/
theorem C56_put {α β : Type} {L : α → Lang} {M : β → Lang} {a : α} {b : β} {put : β → α} {ok : β → Prop}
    (h : Place L M a b put ok) : put b = a := by
  induction h with
  | inside _ _ ih ih' => simp only [ih', ih]
  | definitionAttributes d => cases d <;> rfl
  | definitionName d => cases d <;> rfl
  | attributeName a => cases a <;> rfl
  | interfaceMemberAttributes m => cases m with
    | iterable m => cases m <;> rfl
    | asyncIterable m => cases m <;> rfl
    | _ => rfl
  | mixinMemberAttributes m => cases m <;> rfl
  | namespaceMemberAttributes m => cases m <;> rfl
  | _ => rfl

/-- Whitespace and comments, at least one character. -/
def Gap (u : Str) : Prop := Trivia u ∧ u ≠ []

theorem gap_space : Gap c!" " := ⟨.white (by decide) .nil, by simp⟩

/-- The part of the text at a place can be replaced by every text of the same type, with a gap on both sides. The result is
the value with the replaced part. -/
theorem C56_part {α β : Type} {g : G α} {h : G β} {L : α → Lang} {M : β → Lang} (hg : PartOf g L ∨ WholeOf g L)
    (hh : Readable h M) {s : Str} {a : α} {b : β} {put : β → α} {ok : β → Prop} (hs : g.parse s = .ok [] a)
    (hp : Place L M a b put ok) :
    ∃ x m y, s = x ++ m ++ y ∧ h.parse m = .ok [] b ∧ ∀ m' b' u v, h.parse m' = .ok [] b' → ok b' → Gap u → Gap v →
      g.parse (x ++ u ++ m' ++ v ++ y) = .ok [] (put b') := by
  obtain ⟨t, ls, e, h1, h2, h3, h4⟩ := (C47_text hg s a).1 hs
  obtain ⟨x, m, y, l2, h5, h6, h7, h8⟩ := place_text hp h3 ⟨t, e, h1, h2, h4⟩
  refine ⟨x, m, y, h5, hh.parses h6 h7, fun m' b' u v hm hok hu hv => ?_⟩
  obtain ⟨l2', h9, h10⟩ := hh.reads hm
  obtain ⟨ls', h11, t', e', h12, h13, h14⟩ := h8 b' l2' m' u v hok h9 h10 hu.1 hu.2 hv.1 hv.2
  exact (C47_text hg _ _).2 ⟨t', ls', e', h12, h13, h11, h14⟩

example : ∃ x m y, c!"sequence<A>?" = x ++ m ++ y ∧ G.type.parse m = .ok [] (.single (.nonAny (.identifier c!"A" false))) ∧
    ∀ m' t u v, G.type.parse m' = .ok [] t → True → Gap u → Gap v →
      G.nonAnyType.parse (x ++ u ++ m' ++ v ++ y) = .ok [] (.sequence t true) :=
  C56_part (.inl .nonAnyType) (.part .type) rfl (.sequence _ true)

/-- The same for a document, if at least one definition remains. -/
theorem C56_document {β : Type} {h : G β} {M : β → Lang} (hh : Readable h M) {s : Str} {ds : List Definition} {b : β}
    {put : β → List Definition} {ok : β → Prop} (hs : weedleParse s = .ok ds) (hp : Place definitions M ds b put ok) :
    ∃ x m y, s = x ++ m ++ y ∧ h.parse m = .ok [] b ∧ ∀ m' b' u v, h.parse m' = .ok [] b' → ok b' → put b' ≠ [] → Gap u → Gap v →
      weedleParse (x ++ u ++ m' ++ v ++ y) = .ok (put b') := by
  have : ∃ ls, definitions ds ls ∧ Around ls s := by
    rcases document_iff.1 hs with ⟨rfl, rfl⟩ | ⟨-, t, ls, e, h1, h2, h3, h4⟩
    · exact ⟨[], rfl, [], [], rfl, .nil, .nil⟩
    · exact ⟨ls, h3, t, e, h1, h2, h4⟩
  obtain ⟨ls, h3, h4⟩ := this
  obtain ⟨x, m, y, l2, h5, h6, h7, h8⟩ := place_text hp h3 h4
  refine ⟨x, m, y, h5, hh.parses h6 h7, fun m' b' u v hm hok hne hu hv => ?_⟩
  obtain ⟨l2', h9, h10⟩ := hh.reads hm
  obtain ⟨ls', h11, t', e', h12, h13, h14⟩ := h8 b' l2' m' u v hok h9 h10 hu.1 hu.2 hv.1 hv.2
  exact document_iff.2 (.inr ⟨hne, t', ls', e', h12, h13, h11, h14⟩)

/-- The type of an attribute in an interface in a document. -/
theorem attribute_place (m : AttributeInterfaceMember) (hm : m.identifier ∉ lastWords) (as : Attrs) (i : Str) (inh : Option Str)
    (ds ds' : List Definition) (ms ms' : List InterfaceMember) : ∃ ok, (∀ t, ok t) ∧
    Place definitions attributedType (ds ++ .interface as i inh (ms ++ .attribute m :: ms') :: ds') m.type_
      (fun t => ds ++ .interface as i inh (ms ++ .attribute { m with type_ := t } :: ms') :: ds') ok := by
  have h1 := Place.inside (.item interfaceMember ms _ ms') (.interfaceAttributeType m hm)
  have h2 := Place.inside (.interfaceBody as i inh _) h1
  have h3 := Place.inside (.document _) (.inside (.item definition ds _ ds') h2)
  exact ⟨_, fun _ => by simp, h3⟩

example : ∃ x m y, c!"interface A{};interface B:A{attribute/**/long x;b();};" = x ++ m ++ y ∧
    G.attributedType.parse m = .ok [] (.mk none (.single (.nonAny (.integer (.long false) false)))) ∧
    weedleParse (x ++ c!"//\n" ++ c!"sequence<any>? " ++ c!" " ++ y) = .ok
      [.interface none c!"A" none [],
       .interface none c!"B" (some c!"A") [
        .attribute ⟨none, none, false, .mk none (.single (.nonAny (.sequence (.single .any) true))), c!"x"⟩,
        .operation ⟨none, none, none, .type (.single (.nonAny (.identifier c!"b" false))), none, []⟩]] := by
  obtain ⟨ok, h1, h2⟩ := attribute_place
    ⟨none, none, false, .mk none (.single (.nonAny (.integer (.long false) false))), c!"x"⟩ (by decide) none c!"B" (some c!"A")
    [.interface none c!"A" none []] [] []
    [.operation ⟨none, none, none, .type (.single (.nonAny (.identifier c!"b" false))), none, []⟩]
  obtain ⟨x, m, y, h3, h4, h5⟩ := C56_document (.part .attributedType)
    (s := c!"interface A{};interface B:A{attribute/**/long x;b();};") rfl h2
  exact ⟨x, m, y, h3, h4, h5 c!"sequence<any>? " _ c!"//\n" c!" " rfl (h1 _) (by simp)
    ⟨.line (body := []) (t := []) (by simp) .nil, by simp⟩ gap_space⟩

/-! The conditions are needed. -/

/-- `long x` with the name `long` is another type. -/
example : G.typedefDefinition.parse c!"typedef long x;" =
    .ok [] (.typedef none (.mk none (.single (.nonAny (.integer (.long false) false)))) c!"x") ∧
    ∀ r d, G.typedefDefinition.parse c!"typedef long long ;" ≠ .ok r d := by
  refine ⟨rfl, fun r d h => ?_⟩
  cases h

/-- A type called `required`. -/
example : G.dictionaryMember.parse c!"A x;" =
    .ok [] ⟨none, false, .single (.nonAny (.identifier c!"A" false)), c!"x", none⟩ ∧
    ∀ r d, G.dictionaryMember.parse c!"required x;" ≠ .ok r d := by
  refine ⟨rfl, fun r d h => ?_⟩
  cases h

/-- An operation that returns a `constructor`. -/
example : G.interfaceMember.parse c!"A();" =
    .ok [] (.operation ⟨none, none, none, .type (.single (.nonAny (.identifier c!"A" false))), none, []⟩) ∧
    G.interfaceMember.parse c!"constructor();" = .ok [] (.constructor ⟨none, []⟩) := ⟨rfl, rfl⟩

end Verif.Properties
