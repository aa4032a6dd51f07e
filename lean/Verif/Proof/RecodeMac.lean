import Verif.Proof.Recode
import Verif.Proof.Bytes

/-! # The parsers of the source on a text that is written in another way -/

namespace Verif.Recodes
open Nom Spec Source

variable {f : Char → Str}

/-! ## Variables -/

theorem get_recode (env : Env) (x : Str) : Env.get (recodeFields f env) x = recodeVal f (env.get x) := by
  induction env with
  | nil => simp [recodeFields, Env.get, recodeVal]
  | cons p env ih =>
    obtain ⟨y, v⟩ := p
    simp only [recodeFields, Env.get]
    split
    · rfl
    · exact ih

theorem fields_append (env env' : Env) : recodeFields f (env ++ env') = recodeFields f env ++ recodeFields f env' := by
  induction env with
  | nil => rfl
  | cons p env ih =>
    obtain ⟨y, v⟩ := p
    simp [recodeFields, ih]

theorem eval_recode (env : Env) (e : Expr) : e.eval (recodeFields f env) = recodeVal f (e.eval env) := by
  cases e with
  | unwrapOrNone x =>
    simp only [Expr.eval, get_recode]
    cases env.get x <;> simp [recodeVal]
  | _ => simp [Expr.eval, recodeVal, get_recode]

theorem isSome_recode (v : Val) : (recodeVal f v).isSome = v.isSome := by
  cases v <;> simp [recodeVal, Val.isSome]

theorem ofOption_recode (v : Option Val) : Val.ofOption (v.map (recodeVal f)) = recodeVal f (Val.ofOption v) := by
  cases v <;> simp [recodeVal, Val.ofOption]

theorem list_recode (vs : List Val) : Val.list (vs.map (recodeVal f)) = recodeVal f (.list vs) := by
  simp only [recodeVal]
  congr 1
  induction vs with
  | nil => rfl
  | cons v vs ih => simp [recodeVals, ih]

/-! ## Which macros only tell characters apart that stay as they are -/

def plainChar (c : Char) : Bool := 33 ≤ c.toNat && c.toNat < 127

theorem plain_of {c : Char} (h : plainChar c = true) : Plain c := by
  simp [plainChar] at h
  refine ⟨by omega, fun hw => ?_⟩
  simp [White] at hw
  rcases hw with rfl | rfl | rfl | rfl <;> simp at h

def goodCond : Cond → Bool
  | .alphabetic | .alphanumeric | .digit | .hexdigit => true
  | .eq x | .ne x | .ge x | .le x => plainChar x
  | .and a b | .or a b => goodCond a && goodCond b

theorem white_lt {c : Char} (h : White c) : c.toNat < 33 := by
  simp [White] at h
  rcases h with rfl | rfl | rfl | rfl <;> decide

theorem le_iff {c d : Char} : c ≤ d ↔ c.toNat ≤ d.toNat := by
  rw [Char.le_def, UInt32.le_iff_toNat_le]
  rfl

theorem uniform_good {c : Cond} (h : goodCond c = true) : Uniform c.holds := by
  induction c with
  | alphabetic =>
    refine uniform_of_not (fun c hc => ?_) fun c hc => not_alpha hc
    simp [White] at hc
    rcases hc with rfl | rfl | rfl | rfl <;> decide
  | alphanumeric =>
    refine uniform_of_not (fun c hc => ?_) fun c hc => by simp [Cond.holds, Char.isAlphanum, not_alpha hc, not_digit hc]
    simp [White] at hc
    rcases hc with rfl | rfl | rfl | rfl <;> decide
  | digit =>
    refine uniform_of_not (fun c hc => ?_) fun c hc => not_digit hc
    simp [White] at hc
    rcases hc with rfl | rfl | rfl | rfl <;> decide
  | hexdigit =>
    refine uniform_of_not (fun c hc => ?_) fun c hc => ?_
    · simp [White] at hc
      rcases hc with rfl | rfl | rfl | rfl <;> decide
    · simp [Cond.holds, not_digit hc, le_iff]
      omega
  | eq x =>
    have hx := plain_of h
    refine uniform_of_not (fun c hc => ?_) fun c hc => ?_
    · simp only [Cond.holds, beq_eq_false_iff_ne]
      rintro rfl
      exact hx.2 hc
    · simp only [Cond.holds, beq_eq_false_iff_ne]
      exact ne_plain hc hx.1
  | ne x =>
    have hx := plain_of h
    have h1 : ∀ c, White c → Cond.holds (.ne x) c = true := by
      intro c hc
      simp only [Cond.holds, bne_iff_ne]
      rintro rfl
      exact hx.2 hc
    have h2 : ∀ c : Char, 128 ≤ c.toNat → Cond.holds (.ne x) c = true := by
      intro c hc
      simp only [Cond.holds, bne_iff_ne]
      exact ne_plain hc hx.1
    exact ⟨fun c d hc hd => by rw [h1 c hc, h1 d hd], fun c d hc hd => by rw [h2 c hc, h2 d hd]⟩
  | ge x =>
    simp [goodCond, plainChar] at h
    refine ⟨fun c d hc hd => ?_, fun c d hc hd => ?_⟩
    · have := white_lt hc
      have := white_lt hd
      rw [Bool.eq_iff_iff]
      simp [Cond.holds, le_iff]
      omega
    · rw [Bool.eq_iff_iff]
      simp [Cond.holds, le_iff]
      omega
  | le x =>
    simp [goodCond, plainChar] at h
    refine ⟨fun c d hc hd => ?_, fun c d hc hd => ?_⟩
    · have := white_lt hc
      have := white_lt hd
      rw [Bool.eq_iff_iff]
      simp [Cond.holds, le_iff]
      omega
    · rw [Bool.eq_iff_iff]
      simp [Cond.holds, le_iff]
      omega
  | and a b iha ihb =>
    simp [goodCond] at h
    have ha := iha h.1
    have hb := ihb h.2
    exact ⟨fun c d hc hd => by simp only [Cond.holds, ha.1 c d hc hd, hb.1 c d hc hd],
      fun c d hc hd => by simp only [Cond.holds, ha.2 c d hc hd, hb.2 c d hc hd]⟩
  | or a b iha ihb =>
    simp [goodCond] at h
    have ha := iha h.1
    have hb := ihb h.2
    exact ⟨fun c d hc hd => by simp only [Cond.holds, ha.1 c d hc hd, hb.1 c d hc hd],
      fun c d hc hd => by simp only [Cond.holds, ha.2 c d hc hd, hb.2 c d hc hd]⟩

def goodMac : Mac → Bool
  | .weedle _ | .sp | .ret _ | .altEnd => true
  | .bind _ m k | .alt m k | .separatedList m k | .separatedNonemptyList m k | .terminated m k => goodMac m && goodMac k
  | .map m _ _ | .opt m | .many0 m | .condSome _ m | .recognize m => goodMac m
  | .tag t | .identTag t | .oneOf t => t.all plainChar
  | .takeUntil _ => false
  | .takeWhile c | .takeWhile1 c => goodCond c
  | .char c => plainChar c

theorem all_plain {t : Str} (h : t.all plainChar = true) : ∀ c ∈ t, Plain c := fun c hc =>
  plain_of (List.all_eq_true.1 h c hc)

abbrev CommV (f : Char → Str) (p q : P Char Val) : Prop := Comm f (recodeVal f) p q

theorem comm_mac (hf : Recoding f) {w : RTy → P Char Val} (hw : ∀ T, CommV f (w T) (w T)) {m : Mac} (h : goodMac m = true) :
    ∀ env, CommV f (m.run w env) (m.run w (recodeFields f env)) := by
  induction m with
  | weedle t => exact fun env => hw t
  | sp => exact fun env => hw _
  | bind x m k ih1 ih2 =>
    intro env
    simp [goodMac] at h
    have hr : ∀ env, Suff (k.run w env) := fun env => (ih2 h.2 env).left
    cases x with
    | none => exact comm_seq (ih1 h.1 env) (fun v => ih2 h.2 env) fun _ => hr _
    | some x => exact comm_seq (ih1 h.1 env) (fun v => ih2 h.2 ((x, v) :: env)) fun _ => hr _
  | ret e => exact fun env => comm_ret (eval_recode env e)
  | alt m k ih1 ih2 =>
    intro env
    simp [goodMac] at h
    exact comm_orElse (ih1 h.1 env) (ih2 h.2 env)
  | altEnd => exact fun env => comm_altEnd
  | map m x e ih => exact fun env => comm_map (ih h env) fun v => eval_recode ((x, v) :: env) e
  | opt m ih => exact fun env => comm_map (comm_opt (ih h env)) ofOption_recode
  | many0 m ih => exact fun env => comm_map (comm_many0 hf (ih h env)) list_recode
  | separatedList m k ih1 ih2 =>
    intro env
    simp [goodMac] at h
    exact comm_map (comm_separatedList hf (ih1 h.1 env) (ih2 h.2 env)) list_recode
  | separatedNonemptyList m k ih1 ih2 =>
    intro env
    simp [goodMac] at h
    exact comm_map (comm_separatedNonemptyList hf (ih1 h.1 env) (ih2 h.2 env)) list_recode
  | terminated m k ih1 ih2 =>
    intro env
    simp [goodMac] at h
    have hr : ∀ a : Val, Suff (Nom.seq (k.run w (recodeFields f env)) fun _ => Nom.ret a) := fun a =>
      suff_seq (ih2 h.2 env).right fun _ => (comm_ret (f := f) (h := id) (a := a) rfl).left
    exact comm_seq (ih1 h.1 env) (fun a => comm_seq (ih2 h.2 env) (fun _ => comm_ret rfl)
      fun _ => (comm_ret (f := f) (h := id) rfl).left) hr
  | condSome x m ih =>
    intro env
    have : (Env.get (recodeFields f env) x).isSome = (env.get x).isSome := by rw [get_recode, isSome_recode]
    simp only [CommV, Mac.run, this]
    exact comm_map (comm_cond (ih h env)) ofOption_recode
  | recognize m ih => exact fun env => comm_map (comm_recognize (ih h env)) fun _ => rfl
  | tag t => exact fun env => comm_map (comm_tag hf (all_plain h)) fun _ => rfl
  | identTag t => exact fun env => comm_map (comm_identTag hf (all_plain h)) fun _ => rfl
  | takeUntil t => simp [goodMac] at h
  | takeWhile c => exact fun env => comm_map (comm_takeWhile hf (uniform_good h)) fun _ => rfl
  | takeWhile1 c => exact fun env => comm_map (comm_takeWhile1 hf (uniform_good h)) fun _ => rfl
  | char c => exact fun env => comm_map (comm_char hf (plain_of h)) fun _ => rfl
  | oneOf cs => exact fun env => comm_map (comm_oneOf hf (all_plain h)) fun _ => rfl

/-! ## Declarations -/

def goodField (x : Field) : Bool :=
  match x.init with
  | .mac m => goodMac m
  | _ => true

def goodDecl : Decl → Bool
  | .struct _ _ fs => fs.all goodField
  | .newtype _ m => goodMac m
  | .enum _ _ | .alias _ _ => true
  | .fn n _ m => goodMac m || n == c!"sp"

theorem good_decls : decls.all goodDecl = true := by decide +kernel

theorem comm_fields (hf : Recoding f) {w : RTy → P Char Val} (hw : ∀ T, CommV f (w T) (w T)) {d : RTy → Val}
    (hd : ∀ T, recodeVal f (d T) = d T) {n : Str} {fs : List Field} (h : fs.all goodField = true) :
    ∀ env, CommV f (fields w d n fs env) (fields w d n fs (recodeFields f env)) := by
  induction fs with
  | nil => exact fun env => comm_ret (by simp [recodeVal])
  | cons x fs ih =>
    intro env
    simp only [List.all_cons, Bool.and_eq_true] at h
    have hs : ∀ x v, recodeFields f env ++ [(x, recodeVal f v)] = recodeFields f (env ++ [(x, v)]) := by
      intro x v
      rw [fields_append]
      rfl
    have hr : ∀ env, Suff (fields w d n fs env) := fun env => (ih h.2 env).left
    obtain ⟨x, t, i⟩ := x
    cases i with
    | weedle => exact comm_seq (hw t) (fun v => by rw [hs]; exact ih h.2 _) fun _ => hr _
    | mac m => exact comm_seq (comm_mac hf hw h.1 env) (fun v => by rw [hs]; exact ih h.2 _) fun _ => hr _
    | marker =>
      have := ih h.2 (env ++ [(x, d t)])
      rw [← hs, hd] at this
      exact this

theorem comm_variants {w : RTy → P Char Val} (hw : ∀ T, CommV f (w T) (w T)) {n : Str} {vs : List (Str × RTy)} :
    CommV f (variants w n vs) (variants w n vs) := by
  induction vs with
  | nil => exact comm_altEnd
  | cons x vs ih =>
    obtain ⟨x, t⟩ := x
    exact comm_orElse (comm_map (hw t) fun _ => rfl) ih

theorem marker_recode (T : RTy) : recodeVal f (marker T) = marker T := by
  cases T <;> simp [marker, recodeVal]

theorem parse_sp (n : Nat) (s : Str) : parse decls (n + 1) (.path0 c!"sp") s = resMap Val.str (sp s) := by
  have h : Conv id (fun n => parse decls n (.path0 c!"sp")) Verif.sp Val.str s := by
    refine conv_step find_sp ?_
    refine conv_recognize (V := id) ?_ fun _ => rfl
    refine conv_many0 (V0 := fun _ => ()) (tr0 := fun _ => ()) ?_ ?_ fun _ _ _ => rfl
    · refine short_orElse ?_ (short_orElse ?_ (short_orElse ?_ short_altEnd))
      · exact short_seq short_tag fun _ => short_seq short_takeUntil fun _ => short_seq short_char fun _ => short_ret
      · exact short_seq short_takeWhile1 fun _ => short_ret
      · exact short_seq short_tag fun _ => short_seq short_takeUntil fun _ => short_seq short_tag fun _ => short_ret
    · intro r _
      refine m_alt ?_ (m_alt ?_ (m_alt ?_ m_altEnd))
      · exact m_bindNone (m_tag fun _ => rfl) fun _ _ => m_bindNone (m_takeUntil fun _ => rfl) fun _ _ =>
          m_bindNone (m_char fun _ => rfl) fun _ _ => m_ret rfl
      · refine m_map (conv_mapR (m_takeWhile1 ?_ fun _ => rfl))
        funext c
        simp [Cond.holds, isWs, Bool.or_assoc]
      · exact m_bindNone (m_tag fun _ => rfl) fun _ _ => m_bindNone (m_takeUntil fun _ => rfl) fun _ _ =>
          m_bindNone (m_tag fun _ => rfl) fun _ _ => m_ret rfl
  obtain ⟨N, hN⟩ := h
  have e : parse decls (n + 1) (.path0 c!"sp") = parse decls (N + 1) (.path0 c!"sp") := by
    simp only [parse, show (RTy.path0 c!"sp").name = c!"sp" from rfl, find_sp]
    rfl
  have := hN (N + 1) (by omega)
  dsimp only at this
  rw [← e] at this
  rw [← this]
  cases parse decls (n + 1) (.path0 c!"sp") s <;> rfl

theorem comm_parse (hf : Recoding f) (n : Nat) : ∀ T, CommV f (parse decls n T) (parse decls n T) := by
  induction n with
  | zero =>
    intro T
    refine ⟨fun s => rfl, ?_, ?_⟩ <;> intro s r a h <;> simp [parse] at h
  | succ n ih =>
    intro T
    by_cases hT : T.name = c!"sp"
    · have e : parse decls (n + 1) T = Nom.map Val.str sp := by
        funext s
        have : parse decls (n + 1) T = parse decls (n + 1) (.path0 c!"sp") := by
          simp only [parse, hT, show (RTy.path0 c!"sp").name = c!"sp" from rfl, find_sp]
          rfl
        rw [this, parse_sp]
        simp only [Nom.map, Nom.seq, Nom.ret]
        cases sp s <;> rfl
      rw [e]
      exact comm_map (comm_sp hf) fun _ => rfl
    · simp only [parse]
      cases e : find decls T.name with
      | none => refine ⟨fun s => rfl, ?_, ?_⟩ <;> intro s r a h <;> simp at h
      | some d =>
        have hm : d ∈ decls := List.mem_of_find?_eq_some e
        have hn : d.name = T.name := by simpa using List.find?_some e
        have hg := List.all_eq_true.1 good_decls d hm
        have ih' : ∀ ps args T, CommV f (parse decls n (RTy.subst (assign ps args) T))
            (parse decls n (RTy.subst (assign ps args) T)) := fun _ _ _ => ih _
        cases d with
        | struct m ps fs => exact comm_fields hf (ih' _ _) (fun T => marker_recode _) hg []
        | newtype m k => exact comm_map (comm_mac hf ih hg []) fun _ => rfl
        | enum m vs => exact comm_variants ih
        | «alias» m t => exact ih t
        | fn m ps k =>
          have hk : goodMac k = true := by
            have h0 : m ≠ c!"sp" := fun h => hT (hn ▸ h)
            simpa [goodDecl, h0] using hg
          exact comm_mac hf (ih' _ _) hk []

/-! ## Strings that stay as they are -/

theorem recode_id {s : Str} (h : ∀ c ∈ s, f c = [c]) : recode f s = s := by
  induction s with
  | nil => rfl
  | cons c s ih =>
    rw [recode_cons, h c (by simp), ih fun d hd => h d (by simp [hd])]
    rfl

mutual

theorem recode_same : ∀ {v : Val}, (∀ w ∈ texts v, ∀ c ∈ w, f c = [c]) → recodeVal f v = v
  | .str s, h => by
    rw [recodeVal, recode_id (h s (by simp [texts]))]
  | .pair a b, h => by
    simp only [texts, List.mem_append] at h
    rw [recodeVal, recode_same fun w hw => h w (.inl hw), recode_same fun w hw => h w (.inr hw)]
  | .triple a b c, h => by
    simp only [texts, List.mem_append] at h
    rw [recodeVal, recode_same fun w hw => h w (.inl (.inl hw)), recode_same fun w hw => h w (.inl (.inr hw)),
      recode_same fun w hw => h w (.inr hw)]
  | .some v, h => by rw [recodeVal, recode_same (by simpa only [texts] using h)]
  | .box v, h => by rw [recodeVal, recode_same (by simpa only [texts] using h)]
  | .newtype _ v, h => by rw [recodeVal, recode_same (by simpa only [texts] using h)]
  | .variant _ _ v, h => by rw [recodeVal, recode_same (by simpa only [texts] using h)]
  | .list vs, h => by rw [recodeVal, recode_sames (by simpa only [texts] using h)]
  | .struct _ fs, h => by rw [recodeVal, recode_sameFields (by simpa only [texts] using h)]
  | .unit, _ => by simp only [recodeVal]
  | .bool _, _ => by simp only [recodeVal]
  | .char _, _ => by simp only [recodeVal]
  | .token _, _ => by simp only [recodeVal]
  | .none, _ => by simp only [recodeVal]

theorem recode_sames : ∀ {vs : List Val}, (∀ w ∈ textsOf vs, ∀ c ∈ w, f c = [c]) → recodeVals f vs = vs
  | [], _ => by simp only [recodeVals]
  | v :: vs, h => by
    simp only [textsOf, List.mem_append] at h
    rw [recodeVals, recode_same fun w hw => h w (.inl hw), recode_sames fun w hw => h w (.inr hw)]

theorem recode_sameFields : ∀ {fs : List (Str × Val)}, (∀ w ∈ textsIn fs, ∀ c ∈ w, f c = [c]) → recodeFields f fs = fs
  | [], _ => by simp only [recodeFields]
  | (x, v) :: fs, h => by
    simp only [textsIn, List.mem_append] at h
    rw [recodeFields, recode_same fun w hw => h w (.inl hw), recode_sameFields fun w hw => h w (.inr hw)]

end

/-! ## Ways of writing -/

theorem crlf_recoding : Recoding crlf where
  ascii c h hc := by
    have : c ≠ '\n' := by rintro rfl; simp at hc
    simp [crlf, this]
  blank c hc := by
    have : c ≠ '\n' := by rintro rfl; simp at hc
    simp only [crlf, if_neg this]
    simpa using hc
  line := by simp [crlf]
  other c hc := by
    have : c ≠ '\n' := by rintro rfl; simp at hc
    simp only [crlf, if_neg this]
    simpa using hc

theorem tabs_recoding (n : Nat) : Recoding (expandTabs n) where
  ascii c h hc := by
    have : c ≠ '\t' := by rintro rfl; simp at hc
    simp [expandTabs, this]
  blank c hc := by
    unfold expandTabs
    split
    · simp [List.replicate_succ]
    · simpa using hc
  line := by simp [expandTabs]
  other c hc := by
    have : c ≠ '\t' := by rintro rfl; simp at hc
    simp only [expandTabs, if_neg this]
    simpa using hc

theorem ofNat_toNat {n : Nat} (h : n < 256) : (Char.ofNat (UInt8.ofNat n).toNat).toNat = n := by
  rw [Byte.u8 h]
  have : n.isValidChar := .inl (by omega)
  unfold Char.ofNat
  rw [dif_pos this]
  rfl

theorem mojibake_ascii {c : Char} (h : c.toNat < 128) : mojibake c = [c] := by
  have e : c.val.toNat ≤ 127 := by
    have : c.val.toNat = c.toNat := rfl
    omega
  unfold mojibake String.utf8EncodeChar
  simp only [e, if_true]
  simp only [List.map_cons, List.map_nil]
  rw [Byte.u8 (by omega)]
  simp

theorem mojibake_recoding : Recoding mojibake where
  ascii c h _ := mojibake_ascii h
  blank c hc := by
    rw [mojibake_ascii (by simp at hc; rcases hc with rfl | rfl | rfl <;> decide)]
    simpa using hc
  line := by rw [mojibake_ascii (by decide)]; simp
  other c hc := by
    have hv := Byte.val_lt c
    have hc' : 128 ≤ c.val.toNat := hc
    unfold mojibake String.utf8EncodeChar
    generalize c.val.toNat = v at hv hc' ⊢
    simp only
    split
    · omega
    · split
      · refine ⟨by simp, ?_⟩
        simp only [List.map_cons, List.map_nil, List.forall_mem_cons, List.not_mem_nil, false_implies, implies_true, and_true]
        rw [ofNat_toNat (by omega), ofNat_toNat (by omega)]
        omega
      · split
        · refine ⟨by simp, ?_⟩
          simp only [List.map_cons, List.map_nil, List.forall_mem_cons, List.not_mem_nil, false_implies, implies_true, and_true]
          rw [ofNat_toNat (by omega), ofNat_toNat (by omega), ofNat_toNat (by omega)]
          omega
        · refine ⟨by simp, ?_⟩
          simp only [List.map_cons, List.map_nil, List.forall_mem_cons, List.not_mem_nil, false_implies, implies_true, and_true]
          rw [ofNat_toNat (by omega), ofNat_toNat (by omega), ofNat_toNat (by omega), ofNat_toNat (by omega)]
          omega

end Verif.Recodes
