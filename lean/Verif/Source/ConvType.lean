import Verif.Source.ConvLeaf

/-! # Literals, types, attributes, arguments

The definitions serve the proof only, they model no code. -/

namespace Verif.Source
open Nom

theorem length_le {α : Type} {g : G α} {b : Bool} [hg : Guarded true g b] {s r : Str} {a : α} (h : g.parse s = .ok r a) :
    r.length ≤ s.length := by
  have := G.parse_fine hg s
  rw [h] at this
  exact this.1.length_le

theorem length_lt {α : Type} {g : G α} [hg : Guarded true g true] {s r : Str} {a : α} (h : g.parse s = .ok r a) :
    r.length < s.length := by
  have := G.parse_fine hg s
  rw [h] at this
  exact this.2 rfl

theorem short_parse {α : Type} {g : G α} {b : Bool} [Guarded true g b] : Short g.parse := fun _ _ _ => length_le

/-- The parser of a type at a rest of the input. -/
abbrev C {α : Type} (T : RTy) (g : G α) (tr : α → Val) (s : Str) : Prop := Conv id (fun n => parse decls n T) g.parse tr s

section
variable {α β γ : Type} {V : Val → γ} {w : Nat → RTy → P Char Val} {d : RTy → Val} {nm x : Str} {t : RTy}
  {fs : List Field} {env : Env} {m : Mac} {s : Str} {tr0 : α → Val} {tr : β → γ} {g : G α} {f : α → G β} {b : Bool}

theorem conv_struct {T : RTy} {ps : List Str} {q : P Char β} (hd : find decls T.name = some (.struct nm ps fs))
    (h : Conv V (fun n => fields (fun t => parse decls n (t.subst (assign ps T.args)))
      (fun t => marker (t.subst (assign ps T.args))) nm fs []) q tr s) : Conv V (fun n => parse decls n T) q tr s :=
  conv_step hd h

theorem conv_enum {T : RTy} {vs : List (Str × RTy)} {q : P Char β} (hd : find decls T.name = some (.enum nm vs))
    (h : Conv V (fun n => variants (parse decls n) nm vs) q tr s) : Conv V (fun n => parse decls n T) q tr s :=
  conv_step hd h

theorem conv_alias {T : RTy} {q : P Char β} (hd : find decls T.name = some (.alias nm t))
    (h : Conv V (fun n => parse decls n t) q tr s) : Conv V (fun n => parse decls n T) q tr s :=
  conv_step hd h

theorem g_ret {a : β} (h : V (.struct nm env) = tr a) : Conv V (fun n => fields (w n) d nm [] env) (G.ret a).parse tr s :=
  conv_ret h

/-- a field -/
theorem g_field [Guarded true g b] (h : Conv id (fun n => w n t) g.parse tr0 s)
    (h' : ∀ r a, r.length ≤ s.length → Conv V (fun n => fields (w n) d nm fs (env ++ [(x, tr0 a)])) (f a).parse tr r) :
    Conv V (fun n => fields (w n) d nm (⟨x, t, .weedle⟩ :: fs) env) (G.bind g f).parse tr s :=
  conv_field h fun r a e => h' r a (length_le e)

/-- a field after which the input is shorter -/
theorem g_fieldLt [Guarded true g true] (h : Conv id (fun n => w n t) g.parse tr0 s)
    (h' : ∀ r a, r.length < s.length → Conv V (fun n => fields (w n) d nm fs (env ++ [(x, tr0 a)])) (f a).parse tr r) :
    Conv V (fun n => fields (w n) d nm (⟨x, t, .weedle⟩ :: fs) env) (G.bind g f).parse tr s :=
  conv_field h fun r a e => h' r a (length_lt e)

/-- the last field, when it is the result -/
theorem g_last {tr : α → γ} (h : Conv id (fun n => w n t) g.parse tr0 s)
    (e : ∀ a, V (.struct nm (env ++ [(x, tr0 a)])) = tr a) :
    Conv V (fun n => fields (w n) d nm [⟨x, t, .weedle⟩] env) g.parse tr s := by
  refine Conv.of_eq (q := seq g.parse Nom.ret) (conv_field h fun r a _ => conv_fieldsNil (e a)) ?_
  simp only [seq, Nom.ret]
  cases g.parse s <;> rfl

theorem g_variants {vs : List (Str × RTy)} {g : G β} {gs : List (G β)}
    (h : Conv (fun v => V (.variant nm x v)) (fun n => w n t) g.parse tr s)
    (h' : Conv V (fun n => variants (w n) nm vs) (G.alts gs).parse tr s) :
    Conv V (fun n => variants (w n) nm ((x, t) :: vs)) (G.alts (g :: gs)).parse tr s := conv_variant h h'

theorem g_variantsNil : Conv V (fun n => variants (w n) nm []) (G.alts []).parse tr s := conv_altEnd

theorem g_variant {f : α → β} (h : Conv id (fun n => w n t) g.parse tr0 s) (e : ∀ a, V (tr0 a) = tr (f a)) :
    Conv V (fun n => w n t) (G.variant f g).parse tr s := conv_mapR (h.congr e)

theorem g_kwAs {k : Kw} {a : β} (e : V (kwVal k) = tr a) :
    Conv V (fun n => parse decls n (.path0 (kwType k))) (G.kwAs k a).parse tr s :=
  conv_mapR (f := fun _ => a) ((c_kw k s).congr fun _ => e)

end

section
variable {α β : Type} {T U W : RTy} {g : G α} {tr : α → Val} {s : Str}

theorem c_opt (h : C T g tr s) : C (.path1 c!"Option" T) (.opt g) (optVal tr) s := by
  refine conv_step find_Option ?_
  exact conv_opt h (fun v a e => by cases e; rfl) rfl

theorem c_optKw (k : Kw) (s : Str) :
    C (.path1 c!"Option" (.path0 (kwType k))) (G.optKw k) (flagVal (kwVal k)) s :=
  conv_mapR ((c_opt (c_kw k s)).congr fun a => by cases a <;> rfl)

theorem c_optPunct (k : Punct) (s : Str) :
    C (.path1 c!"Option" (.path0 (punctType k))) (G.optPunct k) (flagVal (punctVal k)) s :=
  conv_mapR ((c_opt (c_punct k s)).congr fun a => by cases a <;> rfl)

theorem c_box (h : C T g tr s) : C (.path1 c!"Box" T) g (fun a => .box (tr a)) s := by
  refine conv_step find_Box ?_
  refine Conv.of_eq (q := seq g.parse fun a => Nom.ret a) (m_bind (t := tr) h fun _ _ => m_ret rfl) ?_
  simp only [seq, Nom.ret]
  cases g.parse s <;> rfl

theorem c_vec {b : Bool} [Guarded true g b] (h : Below (C T g tr) s) :
    C (.path1 c!"Vec" T) (.many0 g) (fun as => .list (as.map tr)) s := by
  refine conv_step find_Vec ?_
  refine conv_many0 (V0 := id) (tr0 := tr) short_parse h fun vs as e => ?_
  simp at e
  rw [e]
  rfl

theorem map_id_eq {vs : List Val} {as : List α} (e : vs.map id = as.map tr) : vs = as.map tr := by simpa using e

theorem c_punctuated {n : Str} {sep : G β} {v : Val} {b b' : Bool} [Guarded true g b] [Guarded true sep b']
    (h : Below (C T g tr) s) (h' : Below (C (.path0 n) sep fun _ => v) s) :
    C (.path2 c!"Punctuated" T (.path0 n)) (G.punctuated g sep) (fun as => punctuatedVal (.token n) (as.map tr)) s := by
  refine conv_struct find_Punctuated ?_
  refine Conv.of_eq (q := seq (G.separatedList sep g).parse fun a => Nom.ret a)
    (conv_fieldMac (t := .path1 c!"Vec" (.path0 c!"T")) (tr0 := fun as => .list (as.map tr)) ?_ fun r a _ => conv_marker (conv_fieldsNil rfl)) ?_
  · refine conv_separatedList (V0 := id) (tr0 := tr) short_parse short_parse (fun r hr => (h' r hr).unit) h
      fun vs as e => ?_
    rw [map_id_eq e]
    rfl
  · simp only [seq, Nom.ret, G.punctuated]
    cases (G.separatedList sep g).parse s <;> rfl

theorem c_punctuatedNonEmpty {n : Str} {sep : G β} {v : Val} {b b' : Bool} [Guarded true g b] [Guarded true sep b']
    (h : Below (C T g tr) s) (h' : ∀ s, C (.path0 n) sep (fun _ => v) s) :
    C (.path2 c!"PunctuatedNonEmpty" T (.path0 n)) (G.punctuatedNonEmpty g sep)
      (fun as => punctuatedNonEmptyVal (.token n) (as.map tr)) s := by
  refine conv_struct find_PunctuatedNonEmpty ?_
  refine Conv.of_eq (q := seq (seq (G.separatedNonemptyList sep g).parse fun a => seq (G.opt sep).parse fun _ => Nom.ret a)
    fun a => Nom.ret a)
    (conv_fieldMac (t := .path1 c!"Vec" (.path0 c!"T")) (tr0 := fun as => .list (as.map tr)) ?_ fun r a _ => conv_marker (conv_fieldsNil rfl)) ?_
  · refine conv_seq (t := fun as => .list (as.map tr)) ?_ fun r a _ =>
      conv_seq' (conv_opt (h' _).unit (fun _ _ _ => rfl) rfl) fun _ _ _ => conv_ret rfl
    refine conv_separatedNonemptyList (V0 := id) (tr0 := tr) short_parse short_parse (fun r _ => (h' r).unit) h
      fun vs as e => ?_
    rw [map_id_eq e]
    rfl
  · rw [seq_assoc]
    simp only [seq_assoc]
    rfl

/-- `h` for shorter inputs -/
def Shorter (P : Str → Prop) (s : Str) : Prop := ∀ r, r.length < s.length → P r

theorem Shorter.mono {P : Str → Prop} {r : Str} (h : Shorter P s) (hr : r.length ≤ s.length) : Shorter P r :=
  fun r' h' => h r' (by omega)

theorem Shorter.below {P : Str → Prop} {r : Str} (h : Shorter P s) (hr : r.length < s.length) : Below P r :=
  fun r' h' => h r' (by omega)

theorem Below.shorter {P : Str → Prop} (h : Below P s) : Shorter P s := fun r hr => h r (by omega)

theorem c_paren {b : Bool} [Guarded true g b] (h : Shorter (C T g tr) s) :
    C (.path1 c!"Parenthesized" T) (G.parenthesized g) (fun a => parenVal (tr a)) s := by
  refine conv_struct find_Parenthesized ?_
  exact g_fieldLt (c_punct .openParen _) fun r _ hr => g_field (h r hr) fun _ _ _ => g_field (c_punct .closeParen _) fun _ _ _ => g_ret rfl

theorem c_bracket {b : Bool} [Guarded true g b] (h : Shorter (C T g tr) s) :
    C (.path1 c!"Bracketed" T) (G.bracketed g) (fun a => bracketVal (tr a)) s := by
  refine conv_struct find_Bracketed ?_
  exact g_fieldLt (c_punct .openBracket _) fun r _ hr => g_field (h r hr) fun _ _ _ => g_field (c_punct .closeBracket _) fun _ _ _ => g_ret rfl

theorem c_brace {b : Bool} [Guarded true g b] (h : Shorter (C T g tr) s) :
    C (.path1 c!"Braced" T) (G.braced g) (fun a => braceVal (tr a)) s := by
  refine conv_struct find_Braced ?_
  exact g_fieldLt (c_punct .openBrace _) fun r _ hr => g_field (h r hr) fun _ _ _ => g_field (c_punct .closeBrace _) fun _ _ _ => g_ret rfl

theorem c_generics {b : Bool} [Guarded true g b] (h : Shorter (C T g tr) s) :
    C (.path1 c!"Generics" T) (G.generics g) (fun a => genericsVal (tr a)) s := by
  refine conv_struct find_Generics ?_
  exact g_fieldLt (c_punct .lessThan _) fun r _ hr => g_field (h r hr) fun _ _ _ => g_field (c_punct .greaterThan _) fun _ _ _ => g_ret rfl

end

/-! ## `/repo/src/literal.rs` -/

theorem c_integerLit (s : Str) : C (.path0 c!"IntegerLit") G.integerLit integerLitVal s :=
  conv_enum find_IntegerLit <| g_variants (g_variant (c_dec s) fun _ => rfl) <|
    g_variants (g_variant (c_hex s) fun _ => rfl) <| g_variants (g_variant (c_oct s) fun _ => rfl) g_variantsNil

theorem c_floatLit (s : Str) : C (.path0 c!"FloatLit") G.floatLit floatLitVal s :=
  conv_enum find_FloatLit <| g_variants (g_variant (c_float s) fun _ => rfl) <|
    g_variants (g_kwAs (k := .negInfinity) rfl) <| g_variants (g_kwAs (k := .infinity) rfl) <|
    g_variants (g_kwAs (k := .nan) rfl) g_variantsNil

theorem c_booleanLit (s : Str) : C (.path0 c!"BooleanLit") G.booleanLit booleanVal s := by
  refine conv_step find_BooleanLit (conv_mapL ?_)
  refine m_alt (m_map ?_) (m_alt (m_map ?_) m_altEnd)
  · show Conv _ (fun n => parse decls n (.path0 (kwType .true))) (G.kwAs .true true).parse _ _
    exact g_kwAs rfl
  · show Conv _ (fun n => parse decls n (.path0 (kwType .false))) (G.kwAs .false false).parse _ _
    exact g_kwAs rfl

theorem c_emptyArrayLit (s : Str) : C (.path0 c!"EmptyArrayLit") G.emptyArrayLit (fun _ => emptyArrayVal) s :=
  conv_struct find_EmptyArrayLit <| g_field (c_punct .openBracket _) fun _ _ _ =>
    g_field (c_punct .closeBracket _) fun _ _ _ => g_ret rfl

theorem c_emptyDictionaryLit (s : Str) :
    C (.path0 c!"EmptyDictionaryLit") G.emptyDictionaryLit (fun _ => emptyDictionaryVal) s :=
  conv_struct find_EmptyDictionaryLit <| g_field (c_punct .openBrace _) fun _ _ _ =>
    g_field (c_punct .closeBrace _) fun _ _ _ => g_ret rfl

theorem c_defaultValue (s : Str) : C (.path0 c!"DefaultValue") G.defaultValue defaultValueVal s :=
  conv_enum find_DefaultValue <|
    g_variants (g_variant (c_booleanLit s) fun _ => rfl) <|
    g_variants (g_variant (c_emptyArrayLit s) fun _ => rfl) <|
    g_variants (g_variant (c_emptyDictionaryLit s) fun _ => rfl) <|
    g_variants (g_variant (c_floatLit s) fun _ => rfl) <|
    g_variants (g_variant (c_integerLit s) fun _ => rfl) <|
    g_variants (g_kwAs (k := .null) rfl) <|
    g_variants (g_variant (c_string s) fun _ => rfl) g_variantsNil

theorem c_constValue (s : Str) : C (.path0 c!"ConstValue") G.constValue constValueVal s :=
  conv_enum find_ConstValue <|
    g_variants (g_variant (c_booleanLit s) fun _ => rfl) <|
    g_variants (g_variant (c_floatLit s) fun _ => rfl) <|
    g_variants (g_variant (c_integerLit s) fun _ => rfl) <|
    g_variants (g_kwAs (k := .null) rfl) g_variantsNil

theorem c_default (s : Str) : C (.path0 c!"Default") G.default defaultVal s :=
  conv_struct find_Default <| g_field (c_punct .assign _) fun _ _ _ => g_last (c_defaultValue _) fun _ => rfl

/-! ## Recursion -/

def ntType : {α : Type} → NT α → Str
  | _, .type => c!"Type"
  | _, .nonAny => c!"NonAnyType"
  | _, .unionMember => c!"UnionMemberType"
  | _, .argument => c!"Argument"

def ntVal : {α : Type} → NT α → α → Val
  | _, .type => typeVal
  | _, .nonAny => nonAnyTypeVal
  | _, .unionMember => unionMemberVal
  | _, .argument => argumentVal

/-- The recursive parsers agree on `s`. -/
def Rec (s : Str) : Prop := ∀ (α : Type) (N : NT α), C (.path0 (ntType N)) (.call N) (ntVal N) s

theorem unionMemberVals_eq (ms : List UnionMember) : unionMemberVals ms = ms.map unionMemberVal := by
  induction ms with
  | nil => rfl
  | cons m ms ih => rw [unionMemberVals, ih]; rfl

theorem extAttrVals_eq (ms : List ExtAttr) : extAttrVals ms = ms.map extAttrVal := by
  induction ms with
  | nil => rfl
  | cons m ms ih => rw [extAttrVals, ih]; rfl

theorem argumentVals_eq (ms : List Argument) : argumentVals ms = ms.map argumentVal := by
  induction ms with
  | nil => rfl
  | cons m ms ih => rw [argumentVals, ih]; rfl

section
variable {s : Str}

/-! ## `/repo/src/attribute.rs` -/

theorem c_argumentList (h : Below Rec s) :
    C (.path0 c!"ArgumentList") G.argumentList (fun as => punctuatedVal (punctVal .comma) (argumentVals as)) s := by
  simp only [argumentVals_eq]
  exact conv_alias find_ArgumentList <| c_punctuated (fun r hr => h r hr _ .argument) fun r _ => c_punct .comma r

theorem c_args (h : Shorter Rec s) :
    C (.path1 c!"Parenthesized" (.path0 c!"ArgumentList")) (G.parenthesized G.argumentList) argsVal s :=
  c_paren fun _ hr => c_argumentList (h.below hr)

theorem c_identifierList (s : Str) :
    C (.path0 c!"IdentifierList") G.identifierList (fun as => punctuatedVal (punctVal .comma) (as.map identVal)) s :=
  conv_alias find_IdentifierList <| c_punctuated (fun r _ => c_ident r) fun r _ => c_punct .comma r

theorem c_identifierOrString (s : Str) :
    C (.path0 c!"IdentifierOrString") G.identifierOrString identifierOrStringVal s :=
  conv_enum find_IdentifierOrString <| g_variants (g_variant (c_ident s) fun _ => rfl) <|
    g_variants (g_variant (c_string s) fun _ => rfl) g_variantsNil

theorem c_extAttr (h : Shorter Rec s) : C (.path0 c!"ExtendedAttribute") G.extAttr extAttrVal s := by
  refine conv_enum find_ExtendedAttribute <| g_variants ?_ <| g_variants ?_ <| g_variants ?_ <| g_variants ?_ <|
    g_variants ?_ <| g_variants ?_ g_variantsNil
  · exact conv_struct find_ExtendedAttributeArgList <| g_field (c_ident _) fun _ _ h1 =>
      g_field (c_args (h.mono h1)) fun _ _ _ => g_ret rfl
  · exact conv_struct find_ExtendedAttributeNamedArgList <| g_field (c_ident _) fun _ _ h1 =>
      g_field (c_punct .assign _) fun _ _ h2 => g_field (c_ident _) fun _ _ h3 =>
      g_field (c_args (((h.mono h1).mono h2).mono h3)) fun _ _ _ => g_ret rfl
  · exact conv_struct find_ExtendedAttributeIdentList <| g_field (c_ident _) fun _ _ _ =>
      g_field (c_punct .assign _) fun _ _ _ => g_field (c_paren fun r _ => c_identifierList r) fun _ _ _ => g_ret rfl
  · exact conv_struct find_ExtendedAttributeIdent <| g_field (c_ident _) fun _ _ _ =>
      g_field (c_punct .assign _) fun _ _ _ => g_field (c_identifierOrString _) fun _ _ _ => g_ret rfl
  · exact conv_struct find_ExtendedAttributeWildCard <| g_field (c_ident _) fun _ _ _ =>
      g_field (c_punct .assign _) fun _ _ _ => g_field (c_punct .asterisk _) fun _ _ _ => g_ret rfl
  · refine conv_step find_ExtendedAttributeNoArgs (conv_mapL ?_)
    exact conv_mapR ((c_ident s).congr fun _ => rfl)

theorem c_extAttrList (h : Shorter Rec s) :
    C (.path0 c!"ExtendedAttributeList") G.extAttrList
      (fun as => bracketVal (punctuatedVal (punctVal .comma) (extAttrVals as))) s := by
  simp only [extAttrVals_eq]
  exact conv_alias find_ExtendedAttributeList <| c_bracket fun r hr =>
    c_punctuated (fun r' hr' => c_extAttr (h.mono (by omega))) fun r _ => c_punct .comma r

theorem c_attrs (h : Shorter Rec s) : C (.path1 c!"Option" (.path0 c!"ExtendedAttributeList")) G.attrs attrsVal s :=
  (c_opt (c_extAttrList h)).congr fun a => by cases a <;> rfl

end

end Verif.Source
