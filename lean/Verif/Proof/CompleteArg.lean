import Verif.Proof.CompleteType

/-!
# Completeness: types, attributes and arguments
-/

set_option linter.unusedSectionVars false

namespace Verif
open Nom Spec

variable {σ α β : Type} [DecidableEq σ] {leaf : ∀ α, Leaf α → P σ α}
  {Step : List σ → Str → List σ → Prop} {s m r : List σ}

/-- The words that begin types of more than one lexeme, apart from `?`. -/
def longStarts : List Str :=
  [c!"Promise", c!"unsigned", c!"long", c!"short", c!"unrestricted", c!"float", c!"double",
    c!"sequence", c!"FrozenArray", c!"record"]

theorem nonAnyType_word {t : NonAnyType} {w : Str} {ls : List Str} (h : nonAnyType t (w :: ls))
    (hw : w ∉ longStarts) : ls = [] ∨ ls = [c!"?"] := by
  have q : ∀ {q : Bool} {l : List Str}, optTok q c!"?" l → l = [] ∨ l = [c!"?"] := by
    intro q l h
    cases q
    · exact .inl h
    · exact .inr h
  simp only [longStarts, List.mem_cons, not_or] at hw
  cases t with
  | promise r => simp only [nonAnyType] at h; obtain ⟨_, _, h, rfl, -⟩ := h; simp at h; simp [h] at hw
  | integer t q =>
    simp only [nonAnyType] at h
    obtain ⟨_, _, h, h', -⟩ := h
    cases t with
    | longLong u =>
      obtain ⟨_, _, rfl, h', _, _, rfl, rfl, -⟩ := h'
      cases u <;> cases h' <;> simp at h <;> simp [h] at hw
    | long u => obtain ⟨_, _, rfl, h', rfl⟩ := h'; cases u <;> cases h' <;> simp at h <;> simp [h] at hw
    | short u => obtain ⟨_, _, rfl, h', rfl⟩ := h'; cases u <;> cases h' <;> simp at h <;> simp [h] at hw
  | floatingPoint t q =>
    simp only [nonAnyType] at h
    obtain ⟨_, _, h, h', -⟩ := h
    cases t with
    | float u => obtain ⟨_, _, rfl, h', rfl⟩ := h'; cases u <;> cases h' <;> simp at h <;> simp [h] at hw
    | double u => obtain ⟨_, _, rfl, h', rfl⟩ := h'; cases u <;> cases h' <;> simp at h <;> simp [h] at hw
  | builtin b q' =>
    simp only [nonAnyType] at h
    obtain ⟨_, _, h, rfl, h'⟩ := h
    simp at h
    rw [h.2]
    exact q h'
  | sequence t q =>
    simp only [nonAnyType] at h
    obtain ⟨_, _, h, ⟨_, _, rfl, rfl, -⟩, -⟩ := h
    simp at h; simp [h] at hw
  | frozenArray t q =>
    simp only [nonAnyType] at h
    obtain ⟨_, _, h, ⟨_, _, rfl, rfl, -⟩, -⟩ := h
    simp at h; simp [h] at hw
  | record k t q =>
    simp only [nonAnyType] at h
    obtain ⟨_, _, h, ⟨_, _, rfl, rfl, -⟩, -⟩ := h
    simp at h; simp [h] at hw
  | identifier i q' =>
    simp only [nonAnyType] at h
    obtain ⟨_, _, h, ⟨-, h1⟩, h2⟩ := h
    rcases h1 with ⟨rfl, -⟩ | rfl <;> simp at h <;> rw [h.2] <;> exact q h2

theorem type_word {t : Ty} {w : Str} {ls : List Str} (h : type t (w :: ls))
    (hw : w ∉ longStarts) (h' : w ≠ c!"(") : ls = [] ∨ ls = [c!"?"] := by
  cases t with
  | union ms q =>
    simp only [type] at h
    obtain ⟨_, _, h, ⟨_, _, rfl, rfl, -⟩, -⟩ := h
    simp at h
    exact absurd h.1 h'
  | single t =>
    simp only [type] at h
    cases t with
    | any => simp only [singleType] at h; cases h; exact .inl rfl
    | nonAny t => simp only [singleType] at h; exact nonAnyType_word h.1 hw

section
variable (hE : Exact leaf Step)
include hE

theorem tf_named {i w : Str} {ls : List Str} (hw : name i [w]) (h : Step m w r)
    (hn : ls ++ [w] ∉ twoWordTypes) : TF Step ls m := by
  have hs : Solid w := .inl ⟨i, hw⟩
  refine ⟨fun w' r' h1 h2 => ?_, notNext hE hs h (solid_continuer _ (by decide)) ?_,
    notNext hE hs h (solid_continuer _ (by decide)) ?_⟩
  · have := hE.uniq h h1 (.inl hs) (.inl (solid_continuer _ (List.mem_of_mem_drop (twoWord_last h2))))
    exact hn (this ▸ h2)
  · rintro rfl; exact name_ne_punct (p := .qMark) hw
  · rintro rfl; exact name_ne_punct (p := .lessThan) hw

/-- A type and a name. -/
theorem named_split {T : Lang} {i : Str} {ls : List Str} (h : named T i ls) (hr : Reads Step s ls r) :
    ∃ a w m, T a ∧ Reads Step s a m ∧ TF Step a m ∧ name i [w] ∧ Step m w r := by
  obtain ⟨a, b, rfl, h1, h2, h3⟩ := h
  obtain ⟨w, rfl, h2⟩ := name_single h2
  obtain ⟨m, h4, h5⟩ := hr.split
  have h5 := reads_one.1 h5
  exact ⟨a, w, m, h1, h4, tf_named hE h2 h5 h3, h2, h5⟩

theorem notBracket {w : Str} (h : Step s w r) (hw : w = c!"(" ∨ ∃ i, name i [w]) :
    NotNext Step s c!"[" := by
  have hb : Solid c!"[" := solid_punct (p := .openBracket) (by decide) (by decide)
  rcases hw with rfl | ⟨i, hw⟩
  · exact notNext hE (solid_punct (p := .openParen) (by decide) (by decide)) h hb (by decide)
  · exact notNext hE (.inl ⟨i, hw⟩) h hb (by rintro rfl; exact name_ne_punct (p := .openBracket) hw)

theorem type_notBracket {t : Ty} {ls : List Str} (h : type t ls) (hr : Reads Step s ls r) :
    NotNext Step s c!"[" := by
  obtain ⟨w, ls', rfl, h1⟩ := type_head h
  cases hr with
  | cons h2 _ => exact notBracket hE h2 h1

theorem nonAny_notBracket {t : NonAnyType} {ls : List Str} (h : nonAnyType t ls)
    (hr : Reads Step s ls r) : NotNext Step s c!"[" := by
  obtain ⟨i, w, ls', rfl, h1⟩ := nonAnyType_head h
  cases hr with
  | cons h2 _ => exact notBracket hE h2 (.inr ⟨i, h1⟩)

/-- The first lexeme is not `w`. -/
theorem avoid_notNext {ls : List Str} {w w' : Str} {ls' : List Str} (hl : ls = w' :: ls')
    (hw' : Solid w') (hw : Solid w) (hr : Reads Step s ls r) (h : ¬ [w] <+: ls) : NotNext Step s w := by
  subst hl
  cases hr with
  | cons h2 _ =>
    refine notNext hE hw' h2 hw ?_
    rintro rfl
    exact h ⟨ls', rfl⟩

theorem solid_type_head {t : Ty} {ls : List Str} (h : type t ls) : ∃ w ls', ls = w :: ls' ∧ Solid w := by
  obtain ⟨w, ls', rfl, h1⟩ := type_head h
  refine ⟨w, ls', rfl, ?_⟩
  rcases h1 with rfl | h1
  · exact solid_punct (p := .openParen) (by decide) (by decide)
  · exact .inl h1

theorem okParens {g : G α} {a : α} {n : List σ} (h1 : Step s c!"(" m) (h2 : Ok leaf g m n a)
    (h3 : Step n c!")" r) : Ok leaf (G.parenthesized g) s r a :=
  .bind (okPunct hE (p := .openParen) h1) (.bind h2 (.bind (okPunct hE (p := .closeParen) h3) .pure))

theorem okAngles {g : G α} {a : α} {n : List σ} (h1 : Step s c!"<" m) (h2 : Ok leaf g m n a)
    (h3 : Step n c!">" r) : Ok leaf (G.generics g) s r a :=
  .bind (okPunct hE (p := .lessThan) h1) (.bind h2 (.bind (okPunct hE (p := .greaterThan) h3) .pure))

theorem okBrackets {g : G α} {a : α} {n : List σ} (h1 : Step s c!"[" m) (h2 : Ok leaf g m n a)
    (h3 : Step n c!"]" r) : Ok leaf (G.bracketed g) s r a :=
  .bind (okPunct hE (p := .openBracket) h1) (.bind h2 (.bind (okPunct hE (p := .closeBracket) h3) .pure))

theorem okBraces {g : G α} {a : α} {n : List σ} (h1 : Step s c!"{" m) (h2 : Ok leaf g m n a)
    (h3 : Step n c!"}" r) : Ok leaf (G.braced g) s r a :=
  .bind (okPunct hE (p := .openBrace) h1) (.bind h2 (.bind (okPunct hE (p := .closeBrace) h3) .pure))

omit hE in
/-- The alternatives of `NonAnyType` in front of the identifier. -/
theorem okNonAnySelect {g : G NonAnyType} {t : NonAnyType} (hg : Ok leaf g s r t)
    (h : g = G.mayBeNull .identifier G.ident ∨
      g = G.mayBeNull (fun kv q => .record kv.1 kv.2 q) G.recordType ∨
      g = G.mayBeNull .frozenArray G.frozenArrayType ∨
      g = G.mayBeNull .sequence G.sequenceType ∨ ∃ b, g = G.builtin b)
    (kp : Ko leaf G.promiseType s) (ki : Ko leaf G.integerType s) (kf : Ko leaf G.floatingPointType s)
    (kb : ∀ b, g = G.builtin b ∨ Ko leaf (G.builtin b) s)
    (ks : g = G.mayBeNull .sequence G.sequenceType ∨ Ko leaf G.sequenceType s)
    (kfa : g = G.mayBeNull .frozenArray G.frozenArrayType ∨ Ko leaf G.frozenArrayType s)
    (kr : g = G.mayBeNull (fun kv q => .record kv.1 kv.2 q) G.recordType ∨ Ko leaf G.recordType s)
    : Ok leaf G.nonAnyType s r t := by
  have sel : ∀ {g' : G NonAnyType} {gs : List (G NonAnyType)}, (g = g' ∨ Ko leaf g' s) →
      (g ≠ g' → Ok leaf (G.alts gs) s r t) → Ok leaf (G.alts (g' :: gs)) s r t := by
    intro g' gs h1 h2
    by_cases h3 : g = g'
    · subst h3; exact .here hg
    · exact .next (h1.resolve_left h3) (h2 h3)
  refine .next kp <| .next (.mayBeNull ki) <| .next (.mayBeNull kf) <|
    sel (kb _) fun _ => sel (kb _) fun _ => sel (kb _) fun _ => sel (kb _) fun _ => sel (kb _) fun _ =>
    sel (kb _) fun _ => sel (ks.imp_right (.mayBeNull ·)) fun n1 => sel (kb _) fun _ => sel (kb _) fun _ =>
    sel (kb _) fun _ => sel (kb _) fun _ => sel (kb _) fun _ => sel (kb _) fun _ => sel (kb _) fun _ =>
    sel (kb _) fun _ => sel (kb _) fun _ => sel (kb _) fun _ => sel (kb _) fun _ => sel (kb _) fun _ =>
    sel (kb _) fun _ => sel (kb _) fun _ => sel (kb _) fun _ => sel (kb _) fun _ =>
    sel (kfa.imp_right (.mayBeNull ·)) fun n2 => sel (kr.imp_right (.mayBeNull ·)) fun n3 =>
    sel ?_ ?_
  · rcases h with h | h | h | h | ⟨b, h⟩
    · exact .inl h
    · exact absurd h n3
    · exact absurd h n2
    · exact absurd h n1
    · exfalso; cases b <;> contradiction
  · intro n4
    rcases h with h | h | h | h | ⟨b, h⟩
    · exact absurd h n4
    · exact absurd h n3
    · exact absurd h n2
    · exact absurd h n1
    · exfalso; cases b <;> contradiction

/-- The lexeme in front of `?`, or the last one, is not followed by `<`. -/
theorem tf_notLess {ls : List Str} {q : Bool} (h : TF Step ls r) (hq : RL Step (optTok q c!"?") m r) :
    NotNext Step m c!"<" := by
  cases q with
  | true =>
    exact notNext hE (solid_punct (p := .qMark) (by decide) (by decide)) (rl_tok.1 hq)
      (solid_punct (p := .lessThan) (by decide) (by decide)) (by decide)
  | false => cases rl_eps.1 hq; exact h.2.2

theorem builtin_kw (b : Builtin) : builtinWord b = (G.builtinKw b).text := by cases b <;> rfl

omit hE in
theorem builtinKw_inj {b b' : Builtin} (h : builtinWord b = builtinWord b') : b = b' := by
  revert h; cases b <;> cases b' <;> first | exact fun _ => rfl | (intro h; simp [builtinWord] at h)

omit hE in
theorem builtin_typeWord (b : Builtin) : builtinWord b ∈ typeWords := by cases b <;> decide

omit hE in
theorem typeWord_kw : ∀ w ∈ typeWords, ∀ v, w ≠ '_' :: v := by
  intro w hw v
  simp [typeWords] at hw
  rintro rfl
  simp at hw

theorem okSequence {t : NonAnyType} {h' : G NonAnyType} {k : Kw} (h : Step s k.text m)
    (hk : k = .sequence ∧ h' = G.mayBeNull .sequence G.sequenceType ∨
      k = .frozenArray ∧ h' = G.mayBeNull .frozenArray G.frozenArrayType ∨
      k = .record ∧ h' = G.mayBeNull (fun kv q => .record kv.1 kv.2 q) G.recordType ∨
      ∃ b, k = G.builtinKw b ∧ h' = G.builtin b)
    (hg : Ok leaf h' s r t) : Ok leaf G.nonAnyType s r t := by
  have hw := solid_kw k
  have ne : ∀ {k'}, k ≠ k' → k.text ≠ k'.text := fun h h' => h (kw_inj h')
  refine okNonAnySelect hg ?_
    (koGeneric hE hw h fun e => absurd (kw_inj e) ?_)
    (koInteger hE hw h (ne (k' := .long) ?_) (ne (k' := .short) ?_) fun e =>
      absurd (kw_inj (k' := .unsigned) e) ?_)
    (koFloating hE hw h (ne (k' := .float) ?_) (ne (k' := .double) ?_) fun e =>
      absurd (kw_inj (k' := .unrestricted) e) ?_)
    (fun b => ?_) ?_ ?_ ?_
  · rcases hk with ⟨-, rfl⟩ | ⟨-, rfl⟩ | ⟨-, rfl⟩ | ⟨b, -, rfl⟩
    · exact .inr (.inr (.inr (.inl rfl)))
    · exact .inr (.inr (.inl rfl))
    · exact .inr (.inl rfl)
    · exact .inr (.inr (.inr (.inr ⟨b, rfl⟩)))
  iterate 7 (rcases hk with ⟨rfl, -⟩ | ⟨rfl, -⟩ | ⟨rfl, -⟩ | ⟨b, rfl, -⟩ <;>
    first | decide | (cases b <;> decide))
  · by_cases hb : k.text = builtinWord b
    · refine .inl ?_
      rw [builtin_kw hE] at hb
      have := kw_inj hb
      subst this
      rcases hk with ⟨hk, -⟩ | ⟨hk, -⟩ | ⟨hk, -⟩ | ⟨b', hk, rfl⟩
      · cases b <;> cases hk
      · cases b <;> cases hk
      · cases b <;> cases hk
      · have : b = b' := by cases b <;> cases b' <;> first | rfl | cases hk
        rw [this]
    · exact .inr (koBuiltin hE hw h hb)
  · rcases hk with ⟨-, rfl⟩ | hk
    · exact .inl rfl
    · refine .inr (koGeneric' hE hw h fun e => absurd (kw_inj e) ?_)
      rcases hk with ⟨rfl, -⟩ | ⟨rfl, -⟩ | ⟨b, rfl, -⟩ <;> first | decide | (cases b <;> decide)
  · rcases hk with hk | ⟨-, rfl⟩ | hk
    · refine .inr (koGeneric' hE hw h fun e => absurd (kw_inj e) ?_)
      rw [hk.1]; decide
    · exact .inl rfl
    · refine .inr (koGeneric' hE hw h fun e => absurd (kw_inj e) ?_)
      rcases hk with ⟨rfl, -⟩ | ⟨b, rfl, -⟩ <;> first | decide | (cases b <;> decide)
  · rcases hk with hk | hk | ⟨-, rfl⟩ | hk
    · refine .inr (koGeneric' hE hw h fun e => absurd (kw_inj e) ?_)
      rw [hk.1]; decide
    · refine .inr (koGeneric' hE hw h fun e => absurd (kw_inj e) ?_)
      rw [hk.1]; decide
    · exact .inl rfl
    · refine .inr (koGeneric' hE hw h fun e => absurd (kw_inj e) ?_)
      obtain ⟨b, rfl, -⟩ := hk
      cases b <;> decide

/-- A type name. -/
theorem okTypeName {i w : Str} {q : Bool} (hw : name i [w]) (h : Step s w m) (hn : w ∉ typeWords)
    (hq : RL Step (optTok q c!"?") m r) (h1 : NoJoin Step [w] m) (h2 : NotNext Step m c!"<")
    (h3 : NotNext Step r c!"?") : Ok leaf G.nonAnyType s r (.identifier i q) := by
  have hs : Solid w := .inl ⟨i, hw⟩
  have nj : ∀ {k : Kw} {w' : Str}, [k.text, w'] ∈ twoWordTypes → w = k.text → NotNext Step m w' := by
    rintro k w' h4 rfl r' h5
    exact h1 w' r' h5 h4
  have nw : ∀ w' ∈ typeWords, w ≠ w' := by rintro w' h1 rfl; exact hn h1
  refine okNonAnySelect (okNull hE (f := NonAnyType.identifier) (okIdent hE hw h) hq h3) (.inl rfl)
    (koGeneric hE hs h fun _ => h2)
    (koInteger hE hs h (nw _ (by decide)) (nw _ (by decide)) fun e =>
      ⟨nj (k := .unsigned) (by decide) e, nj (k := .unsigned) (by decide) e⟩)
    (koFloating hE hs h (nw _ (by decide)) (nw _ (by decide)) fun e =>
      ⟨nj (k := .unrestricted) (by decide) e, nj (k := .unrestricted) (by decide) e⟩)
    (fun b => .inr (koBuiltin hE hs h (nw _ (builtin_typeWord b))))
    (.inr (koGeneric' hE hs h fun _ => h2)) (.inr (koGeneric' hE hs h fun _ => h2))
    (.inr (koGeneric' hE hs h fun _ => h2))

theorem okIntegerType {t : IntegerType} {q : Bool} {ls : List Str}
    (h : (integerType t ⨾ optTok q c!"?") ls) (hr : Reads Step s ls r) (hf : TF Step ls r) :
    Ok leaf (G.mayBeNull (f : IntegerType → Bool → α) G.integerType) s r (f t q) := by
  obtain ⟨a, b, rfl, h1, h2⟩ := h
  obtain ⟨m, h3, h4⟩ := hr.split
  exact okNull hE (okInteger hE h1 h3 (tf_inner hE hf h4 h2)) ⟨b, h2, h4⟩ hf.2.1

theorem okFloatingType {t : FloatingPointType} {q : Bool} {ls : List Str}
    (h : (floatingPointType t ⨾ optTok q c!"?") ls) (hr : Reads Step s ls r) (hf : TF Step ls r) :
    Ok leaf (G.mayBeNull (f : FloatingPointType → Bool → α) G.floatingPointType) s r (f t q) := by
  obtain ⟨a, b, rfl, h1, h2⟩ := h
  obtain ⟨m, h3, h4⟩ := hr.split
  exact okNull hE (okFloating hE h1 h3) ⟨b, h2, h4⟩ hf.2.1

theorem integer_head {t : IntegerType} {q : Bool} {ls : List Str}
    (h : (integerType t ⨾ optTok q c!"?") ls) :
    ∃ k ls', ls = Kw.text k :: ls' ∧ k ∈ [.unsigned, .long, .short] := by
  obtain ⟨a, b, rfl, h1, h2⟩ := h
  cases t with
  | longLong u =>
    obtain ⟨_, _, rfl, h', _, _, rfl, rfl, rfl⟩ := h1
    cases u <;> cases h'
    · exact ⟨.long, _, rfl, by decide⟩
    · exact ⟨.unsigned, _, rfl, by decide⟩
  | long u =>
    obtain ⟨_, _, rfl, h', rfl⟩ := h1
    cases u <;> cases h'
    · exact ⟨.long, _, rfl, by decide⟩
    · exact ⟨.unsigned, _, rfl, by decide⟩
  | short u =>
    obtain ⟨_, _, rfl, h', rfl⟩ := h1
    cases u <;> cases h'
    · exact ⟨.short, _, rfl, by decide⟩
    · exact ⟨.unsigned, _, rfl, by decide⟩

theorem floating_head {t : FloatingPointType} {q : Bool} {ls : List Str}
    (h : (floatingPointType t ⨾ optTok q c!"?") ls) :
    ∃ k ls', ls = Kw.text k :: ls' ∧ k ∈ [.unrestricted, .float, .double] := by
  obtain ⟨a, b, rfl, h1, h2⟩ := h
  cases t with
  | float u =>
    obtain ⟨_, _, rfl, h', rfl⟩ := h1
    cases u <;> cases h'
    · exact ⟨.float, _, rfl, by decide⟩
    · exact ⟨.unrestricted, _, rfl, by decide⟩
  | double u =>
    obtain ⟨_, _, rfl, h', rfl⟩ := h1
    cases u <;> cases h'
    · exact ⟨.double, _, rfl, by decide⟩
    · exact ⟨.unrestricted, _, rfl, by decide⟩

end

end Verif
