import Verif.Source.Find

/-! # The terminals -/

namespace Verif.Source
open Nom

section
variable {α β γ δ : Type} {V : Val → γ} {w : Nat → RTy → P Char Val} {env : Env} {m k : Mac} {q q' : P Char α}
  {f : α → P Char β} {tr : β → γ} {s : Str}

theorem m_bindNone (h : Conv (fun _ => ()) (fun n => m.run (w n) env) q (fun _ => ()) s)
    (h' : ∀ r a, Conv V (fun n => k.run (w n) env) (f a) tr r) :
    Conv V (fun n => (Mac.bind none m k).run (w n) env) (seq q f) tr s := conv_seq' h fun r a _ => h' r a

theorem m_bind {x : Str} {t : α → Val} (h : Conv id (fun n => m.run (w n) env) q t s)
    (h' : ∀ r a, Conv V (fun n => k.run (w n) ((x, t a) :: env)) (f a) tr r) :
    Conv V (fun n => (Mac.bind (some x) m k).run (w n) env) (seq q f) tr s :=
  conv_seq (k := fun n v => k.run (w n) ((x, v) :: env)) h fun r a _ => h' r a

theorem m_ret {e : Expr} {b : β} (h : V (e.eval env) = tr b) :
    Conv V (fun n => (Mac.ret e).run (w n) env) (Nom.ret b) tr s := conv_ret h

theorem m_alt {tr : α → γ} (h : Conv V (fun n => m.run (w n) env) q tr s)
    (h' : Conv V (fun n => k.run (w n) env) q' tr s) :
    Conv V (fun n => (Mac.alt m k).run (w n) env) (orElse q q') tr s := conv_orElse h h'

theorem m_altEnd : Conv V (fun n => Mac.altEnd.run (w n) env) altEnd tr s := conv_altEnd

theorem m_map {x : Str} {e : Expr} {tr : α → γ}
    (h : Conv (fun v => V (e.eval ((x, v) :: env))) (fun n => m.run (w n) env) q tr s) :
    Conv V (fun n => (Mac.map m x e).run (w n) env) q tr s := conv_mapL h

theorem m_optUnit (h : Conv (fun _ => ()) (fun n => m.run (w n) env) q (fun _ => ()) s) :
    Conv (fun _ => ()) (fun n => (Mac.opt m).run (w n) env) (Nom.opt q) (fun _ => ()) s :=
  conv_opt h (fun _ _ _ => rfl) rfl

theorem m_recognize {V : Val → Val} {tr : Str → Val} (h : Conv (fun _ => ()) (fun n => m.run (w n) env) q (fun _ => ()) s)
    (e : ∀ a, V (.str a) = tr a) : Conv V (fun n => (Mac.recognize m).run (w n) env) (Nom.recognize q) tr s :=
  conv_recognize h e

theorem m_tag {t : Str} {tr : Str → γ} (e : ∀ a, V (.str a) = tr a) :
    Conv V (fun n => (Mac.tag t).run (w n) env) (Nom.tag t) tr s := conv_prim e

theorem m_identTag {t : Str} {tr : Str → γ} (e : ∀ a, V (.str a) = tr a) :
    Conv V (fun n => (Mac.identTag t).run (w n) env) (Verif.identTag t) tr s := conv_prim e

theorem m_takeUntil {t : Str} {tr : Str → γ} (e : ∀ a, V (.str a) = tr a) :
    Conv V (fun n => (Mac.takeUntil t).run (w n) env) (Nom.takeUntil t) tr s := conv_prim e

theorem m_takeWhile {c : Cond} {f : Char → Bool} {tr : Str → γ} (hf : c.holds = f) (e : ∀ a, V (.str a) = tr a) :
    Conv V (fun n => (Mac.takeWhile c).run (w n) env) (Nom.takeWhile f) tr s := hf ▸ conv_prim e

theorem m_takeWhile1 {c : Cond} {f : Char → Bool} {tr : Str → γ} (hf : c.holds = f) (e : ∀ a, V (.str a) = tr a) :
    Conv V (fun n => (Mac.takeWhile1 c).run (w n) env) (Nom.takeWhile1 f) tr s := hf ▸ conv_prim e

theorem m_char {c : Char} {tr : Char → γ} (e : ∀ a, V (.char a) = tr a) :
    Conv V (fun n => (Mac.char c).run (w n) env) (Nom.char c) tr s := conv_prim e

theorem m_oneOf {cs : Str} {tr : Char → γ} (e : ∀ a, V (.char a) = tr a) :
    Conv V (fun n => (Mac.oneOf cs).run (w n) env) (Nom.oneOf cs) tr s := conv_prim e

end

theorem seq_assoc {α β γ : Type} (p : P Char α) (f : α → P Char β) (g : β → P Char γ) :
    seq (seq p f) g = seq p fun a => seq (f a) g := by
  funext s
  simp only [seq]
  cases p s <;> rfl

/-! ## White space -/

section
variable {α β : Type}

theorem short_tag {t : Str} : Short (tag t) := by
  intro s r a h
  simp only [tag] at h
  split at h <;> simp at h
  rw [← h.1]
  simp

theorem short_char {c : Char} : Short (char c) := by
  intro s r a h
  unfold char at h
  split at h
  · split at h <;> simp at h
    simp [h.1]
  · simp at h

theorem splitAtFirst_length {t : Str} : ∀ {s a b : Str}, splitAtFirst t s = some (a, b) → b.length ≤ s.length := by
  intro s
  induction s with
  | nil =>
    intro a b h
    simp only [splitAtFirst] at h
    split at h <;> simp at h
    simp [← h.2]
  | cons c s ih =>
    intro a b h
    simp only [splitAtFirst] at h
    split at h
    · simp at h
      simp [← h.2]
    · split at h
      · rename_i h'
        simp at h
        have := ih h'
        rw [← h.2]
        simp
        omega
      · simp at h

theorem short_takeUntil {t : Str} : Short (takeUntil t) := by
  intro s r a h
  simp only [takeUntil] at h
  split at h <;> simp at h
  rename_i h'
  rw [← h.1]
  exact splitAtFirst_length h'

theorem short_takeWhile1 {f : Char → Bool} : Short (takeWhile1 f) := by
  intro s r a h
  simp only [takeWhile1] at h
  split at h <;> simp at h
  rw [← h.1]
  exact (List.dropWhile_suffix f).length_le

theorem short_ret {a : α} : Short (Nom.ret a) := by
  intro s r a h
  simp [Nom.ret] at h
  simp [h.1]

theorem short_seq {q : P Char α} {f : α → P Char β} (h : Short q) (h' : ∀ a, Short (f a)) : Short (seq q f) := by
  intro s r b e
  simp only [seq] at e
  split at e
  · rename_i r' a e'
    have := h _ _ _ e'
    have := h' _ _ _ _ e
    omega
  · simp at e
  · simp at e

theorem short_orElse {q q' : P Char α} (h : Short q) (h' : Short q') : Short (orElse q q') := by
  intro s r b e
  simp only [orElse] at e
  split at e
  · exact h' _ _ _ e
  · exact h _ _ _ e

theorem short_altEnd : Short (altEnd : P Char α) := by
  intro s r b e
  simp [altEnd] at e

end

theorem c_sp (s : Str) : Conv (fun _ => ()) (fun n => parse decls n (.path0 c!"sp")) Verif.sp (fun _ => ()) s := by
  refine conv_step find_sp ?_
  refine conv_recognize (V := fun _ => ()) ?_ fun _ => rfl
  refine conv_many0 (V0 := fun _ => ()) (tr0 := fun _ => ()) ?_ ?_ fun _ _ _ => rfl
  · refine short_orElse ?_ (short_orElse ?_ (short_orElse ?_ short_altEnd))
    · exact short_seq short_tag fun _ => short_seq short_takeUntil fun _ => short_seq short_char fun _ => short_ret
    · exact short_seq short_takeWhile1 fun _ => short_ret
    · exact short_seq short_tag fun _ => short_seq short_takeUntil fun _ => short_seq short_tag fun _ => short_ret
  · intro r _
    refine m_alt ?_ (m_alt ?_ (m_alt ?_ m_altEnd))
    · exact m_bindNone (m_tag fun _ => rfl) fun _ _ => m_bindNone (m_takeUntil fun _ => rfl) fun _ _ =>
        m_bindNone (m_char fun _ => rfl) fun _ _ => m_ret rfl
    · refine m_map (conv_mapR (m_takeWhile1 ?_ fun _ => rfl))
      funext c
      simp [Cond.holds, isWs, Bool.or_assoc]
    · exact m_bindNone (m_tag fun _ => rfl) fun _ _ => m_bindNone (m_takeUntil fun _ => rfl) fun _ _ =>
        m_bindNone (m_tag fun _ => rfl) fun _ _ => m_ret rfl

section
variable {α β γ : Type} {V : Val → γ} {w : Nat → RTy → P Char Val} {m : Mac} {q : P Char α} {tr : α → γ} {s : Str}

theorem m_ws {t : α → Val} (hw : ∀ n, w n (.path0 c!"sp") = parse decls n (.path0 c!"sp"))
    (h : ∀ r, Conv id (fun n => m.run (w n) []) q t r) (e : ∀ a, V (t a) = tr a) :
    Conv V (fun n => m.ws.run (w n) []) (Verif.ws q) tr s := by
  have sp : ∀ s env, Conv (fun _ => ()) (fun n => Mac.sp.run (w n) env) Verif.sp (fun _ => ()) s := by
    intro s env
    simp only [Mac.run, hw]
    exact c_sp s
  exact m_bindNone (sp _ _) fun _ _ => m_bind (h _) fun _ a => m_bindNone (sp _ _) fun _ _ => m_ret (e a)

end

/-- `generate_terms!` -/
theorem c_punct (p : Punct) (s : Str) :
    Conv id (fun n => parse decls n (.path0 (punctType p))) (G.punct p).parse (fun _ => punctVal p) s := by
  have h : find decls (punctType p) =
      some (.fn (punctType p) [] (.bind none (.ws (.tag p.text)) (.ret (.token (punctType p))))) := by
    cases p <;> decide +kernel
  refine conv_step h ?_
  refine m_bindNone ?_ fun _ _ => m_ret rfl
  exact m_ws (fun _ => rfl) (fun _ => m_tag (V := id) fun _ => rfl) fun _ => rfl

/-- `generate_terms_for_names!` -/
theorem c_kw (k : Kw) (s : Str) :
    Conv id (fun n => parse decls n (.path0 (kwType k))) (G.kw k).parse (fun _ => kwVal k) s := by
  have h : find decls (kwType k) =
      some (.fn (kwType k) [] (.bind none (.ws (.identTag k.text)) (.ret (.token (kwType k))))) := by
    cases k <;> decide +kernel
  refine conv_step h ?_
  refine m_bindNone ?_ fun _ _ => m_ret rfl
  exact m_ws (fun _ => rfl) (fun _ => m_identTag (V := id) fun _ => rfl) fun _ => rfl

theorem c_ident (s : Str) : Conv id (fun n => parse decls n (.path0 c!"Identifier")) G.ident.parse identVal s := by
  refine conv_step find_Identifier (conv_mapL ?_)
  refine m_ws (fun _ => rfl) (t := Val.str) (fun _ => ?_) fun _ => rfl
  refine m_bindNone (m_optUnit (m_char fun _ => rfl)) fun _ _ => ?_
  refine m_bind (t := Val.str) (m_recognize ?_ fun _ => rfl) fun _ _ => m_ret rfl
  refine m_bindNone (m_takeWhile1 rfl fun _ => rfl) fun _ _ => m_bindNone (m_takeWhile ?_ fun _ => rfl) fun _ _ => m_ret rfl
  funext c
  simp [Cond.holds, isIdentChar, Bool.or_assoc]

theorem c_string (s : Str) : Conv id (fun n => parse decls n (.path0 c!"StringLit")) G.stringLit.parse stringVal s := by
  refine conv_step find_StringLit (conv_mapL ?_)
  refine m_ws (fun _ => rfl) (t := Val.str) (fun _ => ?_) fun _ => rfl
  exact m_bindNone (m_char fun _ => rfl) fun _ _ => m_bind (t := Val.str) (m_takeWhile rfl fun _ => rfl) fun _ _ =>
    m_bindNone (m_char fun _ => rfl) fun _ _ => m_ret rfl

theorem c_dec (s : Str) : Conv id (fun n => parse decls n (.path0 c!"DecLit")) (G.leaf .dec).parse decVal s := by
  refine conv_step find_DecLit (conv_mapL ?_)
  refine m_ws (fun _ => rfl) (t := Val.str) (fun _ => m_recognize ?_ fun _ => rfl) fun _ => rfl
  exact m_bindNone (m_optUnit (m_char fun _ => rfl)) fun _ _ => m_bindNone (m_oneOf fun _ => rfl) fun _ _ =>
    m_bindNone (m_takeWhile rfl fun _ => rfl) fun _ _ => m_ret rfl

theorem c_hex (s : Str) : Conv id (fun n => parse decls n (.path0 c!"HexLit")) (G.leaf .hex).parse hexVal s := by
  refine conv_step find_HexLit (conv_mapL ?_)
  refine m_ws (fun _ => rfl) (t := Val.str) (fun _ => m_recognize ?_ fun _ => rfl) fun _ => rfl
  exact m_bindNone (m_optUnit (m_char fun _ => rfl)) fun _ _ => m_bindNone (m_char fun _ => rfl) fun _ _ =>
    m_bindNone (m_alt (m_char fun _ => rfl) (m_alt (m_char fun _ => rfl) m_altEnd)) fun _ _ =>
    m_bindNone (m_takeWhile rfl fun _ => rfl) fun _ _ => m_ret rfl

theorem c_oct (s : Str) : Conv id (fun n => parse decls n (.path0 c!"OctLit")) (G.leaf .oct).parse octVal s := by
  refine conv_step find_OctLit (conv_mapL ?_)
  refine m_ws (fun _ => rfl) (t := Val.str) (fun _ => m_recognize ?_ fun _ => rfl) fun _ => rfl
  exact m_bindNone (m_optUnit (m_char fun _ => rfl)) fun _ _ => m_bindNone (m_char fun _ => rfl) fun _ _ =>
    m_bindNone (m_takeWhile rfl fun _ => rfl) fun _ _ => m_ret rfl

theorem c_float (s : Str) :
    Conv id (fun n => parse decls n (.path0 c!"FloatValueLit")) (G.leaf .float).parse floatValueVal s := by
  refine conv_step find_FloatValueLit (conv_mapL ?_)
  refine m_ws (fun _ => rfl) (t := Val.str) (fun _ => m_recognize ?_ fun _ => rfl) fun _ => rfl
  refine m_bindNone (m_optUnit (m_char fun _ => rfl)) fun _ _ => m_bindNone ?_ fun _ _ => m_ret rfl
  have exp : ∀ s, Conv (fun _ => ()) (fun n => Mac.run (parse decls n) (.bind none (.alt (.char 'e') (.alt (.char 'E') .altEnd))
      (.bind none (.opt (.alt (.char '+') (.alt (.char '-') .altEnd))) (.bind none (.takeWhile1 .digit) (.ret .unit)))) [])
      floatExp (fun _ => ()) s := fun s =>
    m_bindNone (m_alt (m_char fun _ => rfl) (m_alt (m_char fun _ => rfl) m_altEnd)) fun _ _ =>
    m_bindNone (m_optUnit (m_alt (m_char fun _ => rfl) (m_alt (m_char fun _ => rfl) m_altEnd))) fun _ _ =>
    m_bindNone (m_takeWhile1 rfl fun _ => rfl) fun _ _ => m_ret rfl
  refine m_alt ?_ (m_alt ?_ m_altEnd)
  · refine m_bindNone ?_ fun _ _ => m_bindNone (m_optUnit (exp _)) fun _ _ => m_ret rfl
    refine m_alt ?_ (m_alt ?_ m_altEnd)
    · exact m_bindNone (m_takeWhile1 rfl fun _ => rfl) fun _ _ => m_bindNone (m_char fun _ => rfl) fun _ _ =>
        m_bindNone (m_takeWhile rfl fun _ => rfl) fun _ _ => m_ret rfl
    · exact m_bindNone (m_takeWhile rfl fun _ => rfl) fun _ _ => m_bindNone (m_char fun _ => rfl) fun _ _ =>
        m_bindNone (m_takeWhile1 rfl fun _ => rfl) fun _ _ => m_ret rfl
  · exact m_bindNone (m_takeWhile1 rfl fun _ => rfl) fun _ _ =>
      Conv.of_eq (m_bindNone (m_alt (m_char fun _ => rfl) (m_alt (m_char fun _ => rfl) m_altEnd)) fun _ _ =>
        m_bindNone (m_optUnit (m_alt (m_char fun _ => rfl) (m_alt (m_char fun _ => rfl) m_altEnd))) fun _ _ =>
        m_bindNone (m_takeWhile1 rfl fun _ => rfl) fun _ _ => m_ret rfl)
        (by simp only [floatExp, seq_assoc]; rfl)

end Verif.Source
