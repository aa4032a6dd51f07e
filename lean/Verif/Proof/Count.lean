import Verif.Model.Count
import Verif.Proof.Leaf

/-! # Counting looks: the results are those of the terminals -/

namespace Verif.Count
open Nom Spec

variable {α β : Type}

/-- The result is that of the parser without counter. -/
def Same (p : C α) (q : P Char α) : Prop := ∀ i, (p i).2 = q i

theorem Same.seq {p : C α} {p' : P Char α} {f : α → C β} {f' : α → P Char β} (h : Same p p') (hf : ∀ a, Same (f a) (f' a)) :
    Same (seq p f) (Nom.seq p' f') := fun i => by
  simp only [Count.seq, Nom.seq, h i]
  cases p' i with
  | ok r a => exact hf a r
  | err e => rfl
  | diverge => rfl

theorem Same.ret (a : α) : Same (ret a) (Nom.ret a) := fun _ => rfl

theorem Same.map {p : C α} {p' : P Char α} (f : α → β) (h : Same p p') : Same (map f p) (Nom.map f p') := h.seq fun _ => .ret _

theorem Same.alt {p q : C α} {p' q' : P Char α} (h : Same p p') (h' : Same q q') : Same (alt [p, q]) (Nom.alt [p', q']) := fun i => by
  simp only [Count.alt, Nom.alt, Count.orElse, Nom.orElse, h i, h' i]
  repeat' split <;> simp_all [altEnd, Nom.altEnd]

theorem Same.alt3 {p q r : C α} {p' q' r' : P Char α} (h : Same p p') (h' : Same q q') (h'' : Same r r') :
    Same (Count.alt [p, q, r]) (Nom.alt [p', q', r']) := fun i => by
  simp only [Count.alt, Nom.alt, Count.orElse, Nom.orElse, h i, h' i, h'' i]
  repeat' split <;> simp_all [altEnd, Nom.altEnd]

theorem Same.opt {p : C α} {p' : P Char α} (h : Same p p') : Same (opt p) (Nom.opt p') := fun i => by
  simp only [Count.opt, Nom.opt, h i]
  repeat' split <;> simp_all

theorem Same.recognize {p : C α} {p' : P Char α} (h : Same p p') : Same (recognize p) (Nom.recognize p') := fun i => by
  simp only [Count.recognize, Nom.recognize, h i]
  cases p' i <;> rfl

theorem Same.many0 {p : C α} {p' : P Char α} (h : Same p p') : Same (many0 p) (Nom.many0 p') := by
  have : ∀ n, Same (many0Loop p n) (Nom.many0Loop p' n) := fun n => by
    induction n with
    | zero => exact fun _ => rfl
    | succ n ih =>
      intro i
      simp only [Count.many0Loop, Nom.many0Loop, h i]
      cases p' i with
      | ok r a =>
        dsimp only
        split
        · rfl
        · rw [ih r]
      | err e => cases e <;> rfl
      | diverge => rfl
  exact fun i => this _ i

theorem Same.tag (t : Str) : Same (tag t) (Nom.tag t) := fun _ => rfl
theorem Same.takeWhile (f : Char → Bool) : Same (takeWhile f) (Nom.takeWhile f) := fun _ => rfl
theorem Same.takeWhile1 (f : Char → Bool) : Same (takeWhile1 f) (Nom.takeWhile1 f) := fun _ => rfl
theorem Same.takeUntil (t : Str) : Same (takeUntil t) (Nom.takeUntil t) := fun _ => rfl
theorem Same.char (c : Char) : Same (char c) (Nom.char c) := fun _ => rfl
theorem Same.oneOf (t : Str) : Same (oneOf t) (Nom.oneOf t) := fun _ => rfl
theorem Same.identTag (t : Str) : Same (identTag t) (Verif.identTag t) := fun _ => rfl

theorem same_line : Same lineComment Verif.lineComment :=
  (Same.tag _).seq fun _ => (Same.takeUntil _).seq fun _ => (Same.char _).seq fun _ => .ret _
theorem same_white : Same whitespace Verif.whitespace := (Same.takeWhile1 _).map _
theorem same_block : Same blockComment Verif.blockComment :=
  (Same.tag _).seq fun _ => (Same.takeUntil _).seq fun _ => (Same.tag _).seq fun _ => .ret _
theorem same_step : Same (alt [lineComment, whitespace, blockComment]) step := .alt3 same_line same_white same_block
theorem same_sp : Same sp Verif.sp := same_step.many0.recognize

theorem Same.ws {p : C α} {p' : P Char α} (h : Same p p') : Same (ws p) (Verif.ws p') :=
  same_sp.seq fun _ => h.seq fun _ => same_sp.seq fun _ => .ret _

/-- The counting parser inside of `ws!(..)`, for each leaf. -/
def core : ∀ {α}, Leaf α → C α
  | _, .punct p => map (fun _ => ()) (tag p.text)
  | _, .kw k => map (fun _ => ()) (identTag k.text)
  | _, .ident => seq (opt (char '_')) fun _ =>
      seq (recognize (seq (takeWhile1 Char.isAlpha) fun _ =>
        seq (takeWhile isIdentChar) fun _ => ret ())) fun id => ret id
  | _, .dec => recognize (seq (opt (char '-')) fun _ =>
      seq (oneOf c!"123456789") fun _ =>
      seq (takeWhile Char.isDigit) fun _ => ret ())
  | _, .hex => recognize (seq (opt (char '-')) fun _ =>
      seq (char '0') fun _ =>
      seq (alt [char 'x', char 'X']) fun _ =>
      seq (takeWhile isHexDigit) fun _ => ret ())
  | _, .oct => recognize (seq (opt (char '-')) fun _ =>
      seq (char '0') fun _ =>
      seq (takeWhile isOctDigit) fun _ => ret ())
  | _, .float => recognize (seq (opt (char '-')) fun _ =>
      seq (alt [
        seq (alt [floatIntDot, floatDotInt]) fun _ =>
          seq (opt floatExp) fun _ => ret (),
        seq (takeWhile1 Char.isDigit) fun _ =>
          seq floatExp fun _ => ret ()]) fun _ => ret ())
  | _, .string => seq (char '"') fun _ =>
      seq (takeWhile fun c => c != '"') fun s =>
      seq (char '"') fun _ => ret s

theorem same_intDot : Same floatIntDot Verif.floatIntDot :=
  (Same.takeWhile1 _).seq fun _ => (Same.char _).seq fun _ => (Same.takeWhile _).seq fun _ => .ret _
theorem same_dotInt : Same floatDotInt Verif.floatDotInt :=
  (Same.takeWhile _).seq fun _ => (Same.char _).seq fun _ => (Same.takeWhile1 _).seq fun _ => .ret _
theorem same_exp : Same floatExp Verif.floatExp :=
  (Same.alt (.char _) (.char _)).seq fun _ => (Same.alt (.char _) (.char _)).opt.seq fun _ => (Same.takeWhile1 _).seq fun _ => .ret _

theorem same_core (l : Leaf α) : Same (core l) (Verif.core l) := by
  cases l with
  | punct p => exact (Same.tag _).map _
  | kw k => exact (Same.identTag _).map _
  | ident =>
    exact (Same.char _).opt.seq fun _ => ((Same.takeWhile1 _).seq fun _ => (Same.takeWhile _).seq fun _ => .ret _).recognize.seq
      fun _ => .ret _
  | dec => exact ((Same.char _).opt.seq fun _ => (Same.oneOf _).seq fun _ => (Same.takeWhile _).seq fun _ => .ret _).recognize
  | hex =>
    exact ((Same.char _).opt.seq fun _ => (Same.char _).seq fun _ => (Same.alt (.char _) (.char _)).seq fun _ =>
      (Same.takeWhile _).seq fun _ => .ret _).recognize
  | oct => exact ((Same.char _).opt.seq fun _ => (Same.char _).seq fun _ => (Same.takeWhile _).seq fun _ => .ret _).recognize
  | float =>
    exact ((Same.char _).opt.seq fun _ => (Same.alt ((Same.alt same_intDot same_dotInt).seq fun _ => same_exp.opt.seq fun _ => .ret _)
      ((Same.takeWhile1 _).seq fun _ => same_exp.seq fun _ => .ret _)).seq fun _ => .ret _).recognize
  | string => exact (Same.char _).seq fun _ => (Same.takeWhile _).seq fun _ => (Same.char _).seq fun _ => .ret _

/-- The terminals with counters return what the terminals return. -/
theorem same_leaf (l : Leaf α) : Same (leaf α l) (charLeaf α l) := by
  cases l with
  | punct p => exact (Same.tag _).ws.map _
  | kw k => exact (Same.identTag _).ws.map _
  | ident => exact (same_core .ident).ws
  | dec => exact (same_core .dec).ws
  | hex => exact (same_core .hex).ws
  | oct => exact (same_core .oct).ws
  | float => exact (same_core .float).ws
  | string => exact (same_core .string).ws

/-! ## What is counted -/

theorem seq_ok {p : C α} {f : α → C β} {i r : Str} {a : α} (h : (p i).2 = .ok r a) : (seq p f i).1 = (p i).1 + (f a r).1 := by
  simp [seq, h]

theorem seq_err {p : C α} {f : α → C β} {i : Str} {e : Err Char} (h : (p i).2 = .err e) : (seq p f i).1 = (p i).1 := by
  simp [seq, h]

theorem map_fst (f : α → β) (p : C α) (i : Str) : (map f p i).1 = (p i).1 := by
  unfold map seq
  split <;> simp [ret, *]

theorem ws_fst {p : C α} {p' : P Char α} (hp : Same p p') (s : Str) : (ws p s).1 = (sp s).1 + (p (strip s)).1 +
    match p' (strip s) with
    | .ok e _ => (sp e).1
    | _ => 0 := by
  unfold ws
  have h1 : (sp s).2 = _ := (same_sp s).trans (sp_eq s)
  rw [seq_ok h1, Nat.add_assoc]
  congr 1
  have h2 := hp (strip s)
  cases h3 : p' (strip s) with
  | ok e v =>
    rw [h3] at h2
    have h4 : (sp e).2 = _ := (same_sp e).trans (sp_eq e)
    rw [seq_ok h2, seq_ok h4]
    rfl
  | err e => rw [h3] at h2; rw [seq_err h2]; rfl
  | diverge => rw [h3] at h2; simp [seq, h2]

/-- The looks of a terminal: those at the trivia in front of it, those of the terminal itself, those at the trivia behind. -/
theorem leaf_fst (l : Leaf α) (s : Str) : (leaf α l s).1 = (sp s).1 + (core l (strip s)).1 +
    match Verif.core l (strip s) with
    | .ok e _ => (sp e).1
    | _ => 0 := by
  cases l with
  | punct p =>
    show (map _ _ s).1 = _
    rw [map_fst, ws_fst (Same.tag _)]
    simp only [core, map_fst, Verif.core, Nom.map, Nom.seq]
    cases Nom.tag p.text (strip s) <;> rfl
  | kw k =>
    show (map _ _ s).1 = _
    rw [map_fst, ws_fst (Same.identTag _)]
    simp only [core, map_fst, Verif.core, Nom.map, Nom.seq]
    cases Verif.identTag k.text (strip s) <;> rfl
  | ident => exact ws_fst (same_core .ident) s
  | dec => exact ws_fst (same_core .dec) s
  | hex => exact ws_fst (same_core .hex) s
  | oct => exact ws_fst (same_core .oct) s
  | float => exact ws_fst (same_core .float) s
  | string => exact ws_fst (same_core .string) s

end Verif.Count
