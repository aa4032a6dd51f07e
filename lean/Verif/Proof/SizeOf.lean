import Verif.Proof.Size
import Verif.Properties.Parts
import Verif.Proof.GuardedAll
import Verif.Source.Agree

/-! # The size of the result of every type -/

namespace Verif.Sizes
open Nom Spec Source Properties

/-- The result is not larger than `c` times the text read, and one more `c`. -/
def SizedBy {α : Type} (c : Nat) (g : G α) (v : α → Val) : Prop :=
  ∀ s r a, g.parse s = .ok r a → ∃ d, s.length = r.length + d ∧ (v a).size ≤ c * d + c

def Sized {α : Type} (g : G α) (v : α → Val) : Prop := ∃ c, SizedBy c g v

theorem SizedBy.mono {α : Type} {c c' : Nat} {g : G α} {v : α → Val} (h : SizedBy c g v) (hc : c ≤ c') : SizedBy c' g v :=
  fun s r a e => by
    obtain ⟨d, h1, h2⟩ := h s r a e
    have := Nat.mul_le_mul_right d hc
    exact ⟨d, h1, by omega⟩

theorem strip_length (s : Str) : (strip s).length ≤ s.length := by
  obtain ⟨t, h, -⟩ := skips_strip s
  have := congrArg List.length h
  simp at this
  omega

theorem step_length {s w r : Str} (h : CStep s w r) (hw : w ≠ []) : r.length + 1 ≤ s.length := by
  obtain ⟨e, h1, -, rfl⟩ := h
  have h2 := strip_length s
  have h3 := strip_length e
  have h4 := congrArg List.length h1
  have h5 := List.length_pos_iff.2 hw
  simp at h4
  omega

theorem reads_length {s r : Str} {ls : List Str} (h : Reads CStep s ls r) (hl : ∀ w ∈ ls, w ≠ []) :
    r.length + ls.length ≤ s.length := by
  induction h with
  | nil => simp
  | cons h _ ih =>
    have := step_length h (hl _ (by simp))
    have := ih fun w hw => hl w (List.mem_cons_of_mem _ hw)
    simp
    omega

theorem nonempty_of_good {ls : List Str} (h : Good ls) : ∀ w ∈ ls, w ≠ [] := fun w hw => by
  rcases h.lexemes w hw with (⟨i, h⟩ | rfl | ⟨v, h⟩ | ⟨p, -, -, rfl⟩) | h
  · obtain ⟨c, v, rfl, -⟩ := name_chars h
    simp
  · simp
  · obtain ⟨-, h⟩ := h
    simp at h
    simp [h]
  · cases p <;> simp [Punct.text]
  · obtain ⟨c, v, rfl, -⟩ := h.first
    simp

theorem sized_of {α : Type} {g : G α} {L : α → Lang} {v : α → Val} (hs : Snd charLeaf CStep (ntLim charLeaf) g L)
    (hn : ∀ a ls, L a ls → ∀ w ∈ ls, w ≠ []) (h : ∀ a ls, L a ls → (v a).size ≤ 10 * ls.length + 10) : Sized g v :=
  ⟨10, fun s r a e => by
    obtain ⟨ls, h1, h2⟩ := hs s r a e
    have h3 := reads_length h1 (hn a ls h2)
    have h4 := h a ls h2
    exact ⟨s.length - r.length, by omega, by omega⟩⟩

theorem sized_part {α : Type} {g : G α} {L : α → Lang} {v : α → Val} (hp : PartOf g L)
    (h : ∀ a, Heavy ((v a).size - 10) (L a)) : Sized g v :=
  sized_of hp.part.snd (fun a ls hl => fun w hw =>
    nonempty_of_good ((hp.part.loose a ls hl).1 c!";" (by simp [Stop]) [] trivial) w (by simp [hw])) fun a ls hl => by
      have := h a ls hl
      omega

theorem sized_whole {α : Type} {g : G α} {L : α → Lang} {v : α → Val} (hp : WholeOf g L)
    (h : ∀ a, Heavy ((v a).size - 10) (L a)) : Sized g v :=
  sized_of hp.whole.snd (fun a ls hl => nonempty_of_good (hp.whole.good a ls hl)) fun a ls hl => by
    have := h a ls hl
    omega

theorem payload_size (v : Val) : v.payload.size ≤ v.size := by
  cases v <;> simp [Val.payload]

theorem Heavy.only {α : Type} {n : Nat} {p : α → Prop} {L : α → Lang} {a : α} (h : Heavy n (L a)) : Heavy n (only p L a) :=
  fun ls hl => h ls hl.2

/-! ## Types with parameters -/

section
variable {α β γ : Type} {g : G α} {g' : G β} {g'' : G γ} {v : α → Val} {v' : β → Val} {v'' : γ → Val}

theorem parse_bind {f : α → G β} {s r : Str} {b : β} :
    (g >>= f).parse s = .ok r b ↔ ∃ m a, g.parse s = .ok m a ∧ (f a).parse m = .ok r b := run_bind_ok

theorem parse_opt {s r : Str} {o : Option α} (h : (G.opt g).parse s = .ok r o) :
    (o = none ∧ r = s) ∨ ∃ a, o = some a ∧ g.parse s = .ok r a := by
  change Nom.opt g.parse s = _ at h
  unfold Nom.opt at h
  split at h <;> simp_all

theorem SizedBy.two {c : Nat} {f : α → β → γ} (h : SizedBy c g v) (h' : SizedBy c g' v') {s r : Str} {x : γ}
    (e : (do let x ← g; let y ← g'; pure (f x y) : G γ).parse s = .ok r x) :
    ∃ a b d, x = f a b ∧ s.length = r.length + d ∧ (v a).size + (v' b).size ≤ c * d + c + c := by
  obtain ⟨m, a, e1, e⟩ := parse_bind.1 e
  obtain ⟨n, b, e2, e⟩ := parse_bind.1 e
  cases e
  obtain ⟨d, h1, h2⟩ := h _ _ _ e1
  obtain ⟨d', h3, h4⟩ := h' _ _ _ e2
  exact ⟨a, b, d + d', rfl, by omega, by rw [Nat.mul_add]; omega⟩

theorem Sized.option (h : Sized g v) : Sized (.opt g) (optVal v) := by
  obtain ⟨c, h⟩ := h
  refine ⟨c + 1, fun s r o e => ?_⟩
  rcases parse_opt e with ⟨rfl, rfl⟩ | ⟨a, rfl, e'⟩
  · exact ⟨0, rfl, by simp [optVal]⟩
  · obtain ⟨d, h1, h2⟩ := h _ _ _ e'
    exact ⟨d, h1, by simp only [optVal, size_some, Nat.add_mul]; omega⟩

theorem Sized.box (h : Sized g v) : Sized g (fun a => .box (v a)) := by
  obtain ⟨c, h⟩ := h
  refine ⟨c + 1, fun s r a e => ?_⟩
  obtain ⟨d, h1, h2⟩ := h _ _ _ e
  exact ⟨d, h1, by simp only [size_box, Nat.add_mul]; omega⟩

theorem SizedBy.chain {c : Nat} (h : SizedBy c g v) (hp : Suff g.parse) {s r : Str} {as : List α}
    (hc : Chain g.parse s as r) : ∃ d, s.length = r.length + d ∧ Val.sizes (as.map v) ≤ 2 * (c * d) := by
  induction hc with
  | nil => exact ⟨0, rfl, by simp [Val.sizes]⟩
  | cons e hne _ ih =>
    obtain ⟨d, h1, h2⟩ := ih
    obtain ⟨d', h3, h4⟩ := h _ _ _ e
    have h5 := suffix_ne_length (hp _ _ _ e) hne
    have h6 := Nat.mul_le_mul_left c (show 1 ≤ d' by omega)
    exact ⟨d + d', by omega, by simp only [List.map_cons, Val.sizes, Nat.mul_add]; omega⟩

theorem Sized.vec (h : Sized g v) (hp : Suff g.parse) : Sized (.many0 g) (fun as => .list (as.map v)) := by
  obtain ⟨c, h⟩ := h
  refine ⟨2 * c + 1, fun s r as e => ?_⟩
  obtain ⟨d, h1, h2⟩ := h.chain hp ((many0_ok_iff hp).1 e).1
  exact ⟨d, h1, by simp only [size_list, Nat.add_mul, Nat.mul_assoc]; omega⟩

theorem SizedBy.sepChain {c : Nat} {sep : G β} (h : SizedBy c g v) (hp : Suff g.parse) (hsep : Suff sep.parse) {s r : Str}
    {as : List α} (hc : SepChain sep.parse g.parse s as r) :
    ∃ d, s.length = r.length + d ∧ Val.sizes (as.map v) ≤ 2 * (c * d) := by
  induction hc with
  | nil => exact ⟨0, rfl, by simp [Val.sizes]⟩
  | cons e' hne e _ ih =>
    obtain ⟨d, h1, h2⟩ := ih
    obtain ⟨d', h3, h4⟩ := h _ _ _ e
    have h5 := suffix_ne_length (hsep _ _ _ e') hne
    obtain ⟨k, h6⟩ := Nat.exists_eq_add_of_lt h5
    refine ⟨d + (d' + (k + 1)), by omega, ?_⟩
    simp only [List.map_cons, Val.sizes, Nat.mul_add]
    omega

theorem Sized.punctuated {sep : G β} (h : Sized g v) (hp : Suff g.parse) (hsep : Suff sep.parse) (k : Val) :
    Sized (G.punctuated g sep) (fun as => punctuatedVal k (as.map v)) := by
  obtain ⟨c, h⟩ := h
  refine ⟨2 * c + k.size + 2, fun s r as e => ?_⟩
  rcases (separatedList_ok_iff hsep hp).1 e with ⟨rfl, rfl, -⟩ | ⟨a, as, m, rfl, e1, hne, hc, -⟩
  · exact ⟨0, rfl, by simp [Val.sizes]⟩
  · obtain ⟨d, h1, h2⟩ := h.sepChain hp hsep hc
    obtain ⟨d', h3, h4⟩ := h _ _ _ e1
    refine ⟨d + d', by omega, ?_⟩
    simp only [size_punctuated, List.map_cons, Val.sizes, Nat.add_mul, Nat.mul_add, Nat.mul_assoc]
    omega

theorem Sized.punctuatedNonEmpty {sep : G β} (h : Sized g v) (hp : Suff g.parse) (hsep : Suff sep.parse) (k : Val) :
    Sized (G.punctuatedNonEmpty g sep) (fun as => punctuatedNonEmptyVal k (as.map v)) := by
  obtain ⟨c, h⟩ := h
  refine ⟨2 * c + k.size + 2, fun s r as e => ?_⟩
  obtain ⟨m, as', e1, e⟩ := parse_bind.1 e
  obtain ⟨n, o, e2, e⟩ := parse_bind.1 e
  cases e
  have h5 : ∃ d, m.length = r.length + d := by
    rcases parse_opt e2 with ⟨-, rfl⟩ | ⟨b, -, e2⟩
    · exact ⟨0, rfl⟩
    · have := (hsep _ _ _ e2).length_le
      exact ⟨m.length - r.length, by omega⟩
  obtain ⟨d'', h5⟩ := h5
  obtain ⟨a, as, m, rfl, e3, hne, hc, -⟩ := (separatedNonemptyList_ok_iff hsep hp).1 e1
  obtain ⟨d, h1, h2⟩ := h.sepChain hp hsep hc
  obtain ⟨d', h3, h4⟩ := h _ _ _ e3
  refine ⟨d + d' + d'', by omega, ?_⟩
  simp only [size_punctuatedNonEmpty, List.map_cons, Val.sizes, Nat.add_mul, Nat.mul_add, Nat.mul_assoc]
  omega

theorem punct_length {p : Punct} {s r : Str} {u : Unit} (h : (G.punct p).parse s = .ok r u) : ∃ d, s.length = r.length + d := by
  have := ((suff_of_fine (IsType.punct p).fine) _ _ _ h).length_le
  exact ⟨s.length - r.length, by omega⟩

theorem Sized.between {p q : Punct} {f : Val → Val} (hf : ∀ w, (f w).size = w.size + 3) (h : Sized g v) :
    Sized (do G.punct p; let x ← g; G.punct q; pure x : G α) (fun a => f (v a)) := by
  obtain ⟨c, h⟩ := h
  refine ⟨c + 3, fun s r a e => ?_⟩
  obtain ⟨m, u, e1, e⟩ := parse_bind.1 e
  obtain ⟨n, b, e2, e⟩ := parse_bind.1 e
  obtain ⟨k, u', e3, e⟩ := parse_bind.1 e
  cases e
  obtain ⟨d, h1⟩ := punct_length e1
  obtain ⟨d', h2, h3⟩ := h _ _ _ e2
  obtain ⟨d'', h4⟩ := punct_length e3
  refine ⟨d + d' + d'', by omega, ?_⟩
  simp only [hf, Nat.add_mul, Nat.mul_add]
  omega

theorem Sized.pair (h : Sized g v) (h' : Sized g' v') :
    Sized (do let x ← g; let y ← g'; pure (x, y)) (fun p => .pair (v p.1) (v' p.2)) := by
  obtain ⟨c, h⟩ := h
  obtain ⟨c', h'⟩ := h'
  refine ⟨c + c' + (c + c') + 1, fun s r x e => ?_⟩
  obtain ⟨a, b, d, rfl, h1, h2⟩ := (h.mono (Nat.le_add_right c c')).two (h'.mono (Nat.le_add_left c' c)) e
  refine ⟨d, h1, ?_⟩
  simp only [size_pair, Nat.add_mul] at h2 ⊢
  omega

theorem Sized.triple (h : Sized g v) (h' : Sized g' v') (h'' : Sized g'' v'') :
    Sized (do let x ← g; let y ← g'; let z ← g''; pure (x, y, z))
      (fun p => .triple (v p.1) (v' p.2.1) (v'' p.2.2)) := by
  obtain ⟨c, h⟩ := h
  obtain ⟨c', h'⟩ := h'
  obtain ⟨c'', h''⟩ := h''
  refine ⟨c + c' + c'' + 1, fun s r x e => ?_⟩
  obtain ⟨m, a, e1, e⟩ := parse_bind.1 e
  obtain ⟨n, b, e2, e⟩ := parse_bind.1 e
  obtain ⟨k, z, e3, e⟩ := parse_bind.1 e
  cases e
  obtain ⟨d, h1, h2⟩ := h _ _ _ e1
  obtain ⟨d', h3, h4⟩ := h' _ _ _ e2
  obtain ⟨d'', h5, h6⟩ := h'' _ _ _ e3
  refine ⟨d + d' + d'', by omega, ?_⟩
  simp only [size_triple, Nat.add_mul, Nat.mul_add]
  omega

theorem parse_optPunct {p : Punct} {s r : Str} {b : Bool} (h : (G.optPunct p).parse s = .ok r b) :
    ∃ d, s.length = r.length + d := by
  obtain ⟨m, o, e, h⟩ := parse_bind.1 h
  cases h
  rcases parse_opt e with ⟨-, rfl⟩ | ⟨u, -, e⟩
  · exact ⟨0, rfl⟩
  · exact punct_length e

theorem flag_size (w : Val) (q : Bool) : (flagVal w q).size ≤ w.size + 1 := by
  cases q <;> simp [flagVal]

theorem Sized.mayBeNull (h : Sized g v) : Sized (G.mayBeNull (fun a q => (a, q)) g) (fun p => nullVal (v p.1) p.2) := by
  obtain ⟨c, h⟩ := h
  refine ⟨c + 3, fun s r x e => ?_⟩
  obtain ⟨m, a, e1, e⟩ := parse_bind.1 e
  obtain ⟨n, q, e2, e⟩ := parse_bind.1 e
  cases e
  obtain ⟨d, h1, h2⟩ := h _ _ _ e1
  obtain ⟨d', h3⟩ := parse_optPunct e2
  have := flag_size (punctVal .qMark) q
  refine ⟨d + d', by omega, ?_⟩
  simp only [size_null, size_punct, Nat.add_mul, Nat.mul_add] at this ⊢
  omega

end

theorem call_parse {α : Type} (N : NT α) : (G.call N).parse = (G.body N).parse := funext fun _ => run_call exact_char N

theorem Sized.call {α : Type} {N : NT α} {v : α → Val} (h : Sized (G.body N) v) : Sized (.call N) v := by
  obtain ⟨c, h⟩ := h
  refine ⟨c, fun s r a e => ?_⟩
  rw [call_parse] at e
  exact h s r a e

theorem suff {α : Type} {g : G α} {b : Bool} (h : Guarded true g b) : Suff g.parse := suff_of_fine (G.parse_fine h)

set_option synthInstance.maxSize 2000 in
theorem guarded_of {α : Type} {T : RTy} {g : G α} {v : α → Val} (h : TypeOf T g v) : ∃ b, Guarded true g b := by
  induction h with
  | option _ ih => exact ih.elim fun _ h => ⟨_, inferInstance⟩
  | box _ ih => exact ih
  | vec _ ih => exact ih.elim fun _ h => ⟨_, inferInstance⟩
  | pair _ _ ih ih' =>
    exact ih.elim fun _ h => ih'.elim fun _ h' => ⟨_, .bindF h.toFalse fun _ => .bindF h'.toFalse fun _ => .ret⟩
  | triple _ _ _ ih ih' ih'' =>
    exact ih.elim fun _ h => ih'.elim fun _ h' => ih''.elim fun _ h'' =>
      ⟨_, .bindF h.toFalse fun _ => .bindF h'.toFalse fun _ => .bindF h''.toFalse fun _ => .ret⟩
  | parenthesized _ ih => exact ih.elim fun _ h => ⟨_, inferInstance⟩
  | bracketed _ ih => exact ih.elim fun _ h => ⟨_, inferInstance⟩
  | braced _ ih => exact ih.elim fun _ h => ⟨_, inferInstance⟩
  | generics _ ih => exact ih.elim fun _ h => ⟨_, inferInstance⟩
  | punctuatedPunct p _ ih => exact ih.elim fun _ h => ⟨_, inferInstance⟩
  | punctuatedKw p _ ih => exact ih.elim fun _ h => ⟨_, inferInstance⟩
  | punctuatedNonEmptyPunct p _ ih => exact ih.elim fun _ h => ⟨_, inferInstance⟩
  | punctuatedNonEmptyKw p _ ih => exact ih.elim fun _ h => ⟨_, inferInstance⟩
  | mayBeNull _ ih => exact ih.elim fun _ h => ⟨_, inferInstance⟩
  | _ => exact ⟨_, inferInstance⟩

theorem suff_of {α : Type} {T : RTy} {g : G α} {v : α → Val} (h : TypeOf T g v) : Suff g.parse :=
  (guarded_of h).elim fun _ h => suff h

section
variable {α : Type} {g : G α} {v : α → Val} {p : α → Prop} {L : α → Lang}

theorem sized_part' (hp : PartOf g L) (h : ∀ a, Heavy (v a).size (L a)) : Sized g v :=
  sized_part hp fun a => (h a).mono (by omega)

theorem sized_whole' (hp : WholeOf g L) (h : ∀ a, Heavy (v a).size (L a)) : Sized g v :=
  sized_whole hp fun a => (h a).mono (by omega)

theorem sized_partPayload (hp : PartOf g (only p L)) (h : ∀ a, Heavy (v a).size (L a)) :
    Sized g (fun a => (v a).payload) :=
  sized_part hp fun a => (h a).only.mono (by have := payload_size (v a); omega)

theorem sized_wholePayload (hp : WholeOf g (only p L)) (h : ∀ a, Heavy (v a).size (L a)) :
    Sized g (fun a => (v a).payload) :=
  sized_whole hp fun a => (h a).only.mono (by have := payload_size (v a); omega)

theorem sized_const {w : Val} (h : Suff g.parse) : Sized g (fun _ => w) :=
  ⟨w.size, fun s r a e => ⟨s.length - r.length, by have := (h _ _ _ e).length_le; omega, Nat.le_add_left _ _⟩⟩

end

theorem heavy_less {v : Val} {A : Lang} {k : Nat} (h : Heavy (v.size + k) A) : Heavy v.size A := h.mono (by omega)

theorem heavy_operationAlone (m : OperationInterfaceMember) :
    Heavy ((operationInterfaceMemberVal m).size + 4) (operationAlone m) :=
  ((heavy_attributes _).seq (heavy_modified _ (heavy_specialised _ ((heavy_returnNamed _ _).seq ((heavy_argumentList _).seq
    (.tok _)))))).mono (by simp [operationInterfaceMemberVal] <;> omega)

theorem heavy_includesAlone (d : Definition) : Heavy (definitionVal d).size (includesAlone d) := by
  cases d with
  | includesStatement as l r =>
    exact ((heavy_attributes _).seq ((Heavy.name _).seq ((Heavy.tok _).seq ((Heavy.name _).seq
      (.tok _))))).mono (by simp [definitionVal] <;> omega)
  | _ => exact fun _ h => h.elim

theorem heavy_implementsAlone (d : Definition) : Heavy (definitionVal d).size (implementsAlone d) := by
  cases d with
  | implements as l r =>
    exact ((heavy_attributes _).seq ((Heavy.name _).seq ((Heavy.tok _).seq ((Heavy.name _).seq
      (.tok _))))).mono (by simp [definitionVal] <;> omega)
  | _ => exact fun _ h => h.elim

theorem sized {α : Type} {T : RTy} {g : G α} {v : α → Val} (h : TypeOf T g v) : Sized g v := by
  induction h with
  | punct p => exact sized_const (suff_of (.punct p))
  | kw p => exact sized_const (suff_of (.kw p))
  | option _ ih => exact ih.option
  | box _ ih => exact ih.box
  | vec h ih => exact ih.vec (suff_of h)
  | pair _ _ ih ih' => exact ih.pair ih'
  | triple _ _ _ ih ih' ih'' => exact ih.triple ih' ih''
  | parenthesized _ ih => exact ih.between size_paren
  | bracketed _ ih => exact ih.between size_bracket
  | braced _ ih => exact ih.between size_brace
  | generics _ ih => exact ih.between size_generics
  | punctuatedPunct p h ih => exact ih.punctuated (suff_of h) (suff_of (.punct p)) _
  | punctuatedKw p h ih => exact ih.punctuated (suff_of h) (suff_of (.kw p)) _
  | punctuatedNonEmptyPunct p h ih => exact ih.punctuatedNonEmpty (suff_of h) (suff_of (.punct p)) _
  | punctuatedNonEmptyKw p h ih => exact ih.punctuatedNonEmpty (suff_of h) (suff_of (.kw p)) _
  | mayBeNull _ ih => exact ih.mayBeNull
  | argumentList =>
    exact (Sized.call (N := .argument) (sized_part' .argument heavy_argument)).punctuated (suff inferInstance) (suff_of (.punct .comma)) _
  | argument => exact sized_part' .argument heavy_argument
  | singleArgument => exact sized_partPayload .singleArgument heavy_argument
  | variadicArgument => exact sized_partPayload .variadicArgument heavy_argument
  | extendedAttributeList =>
    exact ((sized_part' .extAttr fun a => heavy_less (heavy_extAttr a)).punctuated (suff_of .extendedAttribute)
      (suff_of (.punct .comma)) _).between size_bracket
  | identifierList =>
    exact (sized_part' .ident fun a => (Heavy.name a).mono (by simp)).punctuated (suff_of .identifier)
      (suff_of (.punct .comma)) _
  | extendedAttribute => exact sized_part' .extAttr fun a => heavy_less (heavy_extAttr a)
  | extendedAttributeArgList => exact sized_partPayload .extAttrArgList fun a => heavy_less (heavy_extAttr a)
  | extendedAttributeNamedArgList => exact sized_partPayload .extAttrNamedArgList fun a => heavy_less (heavy_extAttr a)
  | extendedAttributeIdentList => exact sized_partPayload .extAttrIdentList fun a => heavy_less (heavy_extAttr a)
  | extendedAttributeIdent => exact sized_partPayload .extAttrIdent fun a => heavy_less (heavy_extAttr a)
  | extendedAttributeWildCard => exact sized_partPayload .extAttrWildcard fun a => heavy_less (heavy_extAttr a)
  | extendedAttributeNoArgs => exact sized_partPayload .extAttrNoArgs fun a => heavy_less (heavy_extAttr a)
  | identifierOrString => exact sized_part' .identifierOrString fun a => heavy_less (heavy_identifierOrString a)
  | identifier => exact sized_part' .ident fun a => (Heavy.name a).mono (by simp)
  | default =>
    exact sized_part' .default fun a => (heavy_default (some a)).mono (by simp [optVal])
  | dictionaryMembers => exact (sized_whole' .dictionaryMember heavy_dictionaryMember).vec (suff_of .dictionaryMember)
  | dictionaryMember => exact sized_whole' .dictionaryMember heavy_dictionaryMember
  | interfaceMembers => exact (sized_whole' .interfaceMember heavy_interfaceMember).vec (suff_of .interfaceMember)
  | inheritance => exact sized_part' .inheritance fun a => (heavy_inheritance (some a)).mono (by simp [optVal])
  | interfaceMember => exact sized_whole' .interfaceMember heavy_interfaceMember
  | constMember => exact sized_whole' .constMember fun a => heavy_less (heavy_constMember _ a)
  | attributeInterfaceMember =>
    exact sized_whole' .attributeInterfaceMember fun a => heavy_less (heavy_attributeInterfaceMember a)
  | constructorInterfaceMember =>
    exact sized_whole' .constructorInterfaceMember fun a => heavy_less (heavy_constructorInterfaceMember a)
  | operationInterfaceMember =>
    exact sized_whole' .operationInterfaceMember fun a => heavy_less (heavy_operationAlone a)
  | iterableInterfaceMember => exact sized_whole' .iterable fun a => heavy_less (heavy_iterableInterfaceMember a)
  | singleTypedIterable => exact sized_wholePayload .singleTypedIterable fun a => heavy_less (heavy_iterableInterfaceMember a)
  | doubleTypedIterable => exact sized_wholePayload .doubleTypedIterable fun a => heavy_less (heavy_iterableInterfaceMember a)
  | asyncIterableInterfaceMember =>
    exact sized_whole' .asyncIterable fun a => heavy_less (heavy_asyncIterableInterfaceMember a)
  | singleTypedAsyncIterable =>
    exact sized_wholePayload .singleTypedAsyncIterable fun a => heavy_less (heavy_asyncIterableInterfaceMember a)
  | doubleTypedAsyncIterable =>
    exact sized_wholePayload .doubleTypedAsyncIterable fun a => heavy_less (heavy_asyncIterableInterfaceMember a)
  | maplikeInterfaceMember => exact sized_whole' .maplike fun a => heavy_less (heavy_maplikeInterfaceMember a)
  | setlikeInterfaceMember => exact sized_whole' .setlike fun a => heavy_less (heavy_setlikeInterfaceMember a)
  | stringifierMember => exact sized_whole' .stringifier fun a => heavy_less (heavy_stringifierMember a)
  | special => exact sized_part .special fun a => Heavy.zero.mono (by cases a <;> simp [specialVal])
  | stringifierOrInheritOrStatic =>
    exact sized_part .stringifierOrInheritOrStatic fun a => Heavy.zero.mono (by
      cases a <;> simp [stringifierOrInheritOrStaticVal])
  | stringifierOrStatic =>
    exact sized_part .stringifierOrStatic fun a => Heavy.zero.mono (by cases a <;> simp [stringifierOrStaticVal])
  | definitions => exact (sized_whole' .definition heavy_definition).vec (suff_of .definition)
  | definition => exact sized_whole' .definition heavy_definition
  | callbackDefinition => exact sized_wholePayload .callback heavy_definition
  | callbackInterfaceDefinition => exact sized_wholePayload .callbackInterface heavy_definition
  | interfaceDefinition => exact sized_wholePayload .interface heavy_definition
  | interfaceMixinDefinition => exact sized_wholePayload .interfaceMixin heavy_definition
  | namespaceDefinition => exact sized_wholePayload .namespace heavy_definition
  | dictionaryDefinition => exact sized_wholePayload .dictionary heavy_definition
  | partialInterfaceDefinition => exact sized_wholePayload .partialInterface heavy_definition
  | partialInterfaceMixinDefinition => exact sized_wholePayload .partialInterfaceMixin heavy_definition
  | partialDictionaryDefinition => exact sized_wholePayload .partialDictionary heavy_definition
  | partialNamespaceDefinition => exact sized_wholePayload .partialNamespace heavy_definition
  | enumDefinition => exact sized_wholePayload .enum heavy_definition
  | typedefDefinition => exact sized_wholePayload .typedef heavy_definition
  | includesStatementDefinition =>
    exact sized_whole .includes fun a => (heavy_includesAlone a).mono (by have := payload_size (definitionVal a); omega)
  | implementsDefinition =>
    exact sized_whole .implements fun a => (heavy_implementsAlone a).mono (by have := payload_size (definitionVal a); omega)
  | enumValueList =>
    exact (sized_part' .stringLit fun a => (Heavy.string a).mono (by simp)).punctuatedNonEmpty (suff_of .stringLit)
      (suff_of (.punct .comma)) _
  | integerLit => exact sized_part' .integerLit fun a => heavy_less (heavy_integerLit a)
  | decLit => exact sized_part' .decLit fun a => (Heavy.literal _ a).mono (by simp [decVal])
  | hexLit => exact sized_part' .hexLit fun a => (Heavy.literal _ a).mono (by simp [hexVal])
  | octLit => exact sized_part' .octLit fun a => (Heavy.literal _ a).mono (by simp [octVal])
  | stringLit => exact sized_part' .stringLit fun a => (Heavy.string a).mono (by simp)
  | defaultValue => exact sized_part' .defaultValue fun a => heavy_less (heavy_defaultValue a)
  | emptyArrayLit => exact sized_const (suff_of .emptyArrayLit)
  | emptyDictionaryLit => exact sized_const (suff_of .emptyDictionaryLit)
  | constValue => exact sized_part' .constValue fun a => heavy_less (heavy_constValue a)
  | booleanLit => exact sized_part' .booleanLit fun a => heavy_less (heavy_booleanLit a)
  | floatLit => exact sized_part' .floatLit fun a => heavy_less (heavy_floatLit a)
  | floatValueLit => exact sized_part' .floatValueLit fun a => (Heavy.literal _ a).mono (by simp [floatValueVal])
  | mixinMembers => exact (sized_whole' .mixinMember heavy_mixinMember).vec (suff_of .mixinMember)
  | mixinMember => exact sized_whole' .mixinMember heavy_mixinMember
  | operationMixinMember => exact sized_whole' .operationMixinMember fun a => heavy_less (heavy_operationMixinMember a)
  | attributeMixinMember => exact sized_whole' .attributeMixinMember fun a => heavy_less (heavy_attributeMixinMember a)
  | namespaceMembers => exact (sized_whole' .namespaceMember heavy_namespaceMember).vec (suff_of .namespaceMember)
  | namespaceMember => exact sized_whole' .namespaceMember heavy_namespaceMember
  | constNamespaceMember => exact sized_whole' .constMember fun a => heavy_less (heavy_constMember _ a)
  | operationNamespaceMember =>
    exact sized_whole' .operationNamespaceMember fun a => heavy_less (heavy_operationNamespaceMember a)
  | attributeNamespaceMember =>
    exact sized_whole' .attributeNamespaceMember fun a => heavy_less (heavy_attributeNamespaceMember a)
  | unionType =>
    exact ((Sized.call (N := .unionMember) (sized_part' .unionMemberType heavy_unionMember)).punctuated (suff inferInstance)
      (suff_of (.kw .or)) _).between size_paren
  | type => exact sized_part' .type fun a => heavy_less (heavy_type a)
  | singleType => exact sized_part' .singleType fun a => heavy_less (heavy_singleType a)
  | nonAnyType => exact sized_part' .nonAnyType fun a => heavy_less (heavy_nonAnyType a)
  | sequenceType => exact sized_part' .sequenceType fun a => ((Heavy.tok _).seq (heavy_type a).angles).mono (by simp; omega)
  | frozenArrayType => exact sized_part' .frozenArrayType fun a => ((Heavy.tok _).seq (heavy_type a).angles).mono (by simp; omega)
  | promiseType => exact sized_partPayload .promiseType fun a => heavy_less (heavy_nonAnyType a)
  | integerType => exact sized_part' .integerType fun a => heavy_less (heavy_integerType a)
  | longLongType => exact sized_partPayload .longLongType fun a => heavy_less (heavy_integerType a)
  | longType => exact sized_partPayload .longType fun a => heavy_less (heavy_integerType a)
  | shortType => exact sized_partPayload .shortType fun a => heavy_less (heavy_integerType a)
  | floatingPointType => exact sized_part' .floatingPointType fun a => heavy_less (heavy_floatingPointType a)
  | floatType => exact sized_partPayload .floatType fun a => heavy_less (heavy_floatingPointType a)
  | doubleType => exact sized_partPayload .doubleType fun a => heavy_less (heavy_floatingPointType a)
  | recordType =>
    exact sized_part' .recordType fun a => ((Heavy.tok _).seq ((heavy_recordKeyType a.1).seq ((Heavy.tok _).seq
      (heavy_type a.2))).angles).mono (by simp; omega)
  | recordKeyType => exact sized_part' .recordKeyType heavy_recordKeyType
  | unionMemberType => exact sized_part' .unionMemberType heavy_unionMember
  | constType => exact sized_part' .constType fun a => heavy_less (heavy_constType a)
  | returnType => exact sized_part' .returnType heavy_returnType
  | attributedType => exact sized_part .attributedType fun a => (heavy_attributedType a).mono (by omega)
  | attributedNonAnyType => exact sized_partPayload .attributedNonAnyType heavy_unionMember

end Verif.Sizes
