import Verif.Proof.CountBound

/-! # How many looks: the terminals -/

namespace Verif.Count
open Nom Spec

variable {α β : Type}

theorem char_fst (c : Char) (i : Str) : (char c i).1 = 1 := rfl

theorem char_cases (c : Char) (i : Str) : (∃ r, i = c :: r ∧ (char c i).2 = .ok r c) ∨ ((char c i).2 = .err (.error i .char)) := by
  cases i with
  | nil => exact .inr rfl
  | cons d r =>
    by_cases h : d = c
    · subst h; exact .inl ⟨r, rfl, by simp [char, Nom.char]⟩
    · exact .inr (by simp [char, Nom.char, h])

theorem opt_char_cases (c : Char) (i : Str) : ∃ r o, (opt (char c) i).2 = .ok r o ∧ (opt (char c) i).1 = 1 ∧ r.length ≤ i.length ∧
    i.length ≤ r.length + 1 ∧ (i = r ∨ i = c :: r) := by
  rcases char_cases c i with ⟨r, rfl, h⟩ | h
  · exact ⟨r, some c, by simp [opt, h], by simp [opt, h, char_fst], by simp, by simp, .inr rfl⟩
  · exact ⟨i, none, by simp [opt, h], by simp [opt, h, char_fst], by simp, by simp, .inl rfl⟩

theorem oneOf_cases (cs : Str) (i : Str) : (∃ d r, i = d :: r ∧ d ∈ cs ∧ (oneOf cs i).2 = .ok r d) ∨ ((oneOf cs i).2 = .err (.error i .oneOf)) := by
  cases i with
  | nil => exact .inr rfl
  | cons d r =>
    by_cases h : d ∈ cs
    · exact .inl ⟨d, r, rfl, h, by simp [oneOf, Nom.oneOf, h]⟩
    · exact .inr (by simp [oneOf, Nom.oneOf, h])

theorem alt_char_cases (c d : Char) (i : Str) :
    (∃ r x, i = x :: r ∧ (x = c ∨ x = d) ∧ (alt [char c, char d] i).2 = .ok r x ∧ (alt [char c, char d] i).1 ≤ 2) ∨
    (∃ p k, (alt [char c, char d] i).2 = .err (.error p k) ∧ (alt [char c, char d] i).1 ≤ 2) := by
  rcases char_cases c i with ⟨r, rfl, h⟩ | h
  · exact .inl ⟨r, c, rfl, .inl rfl, by simp [alt, orElse, h], by simp [alt, orElse, h, char_fst]⟩
  · rcases char_cases d i with ⟨r, rfl, h'⟩ | h'
    · exact .inl ⟨r, d, rfl, .inr rfl, by simp [alt, orElse, h, h'], by simp [alt, orElse, h, h', char_fst]⟩
    · exact .inr ⟨i, .alt, by simp [alt, orElse, h, h', altEnd], by simp [alt, orElse, h, h', altEnd, char_fst]⟩

theorem alt_ok {p q : C α} {i r : Str} {a : α} (h : (p i).2 = .ok r a) : alt [p, q] i = ((p i).1, .ok r a) := by
  simp [alt, orElse, h]

theorem alt_next {p q : C α} {i r j : Str} {e : ErrorKind} {a : α} (h : (p i).2 = .err (.error j e)) (h' : (q i).2 = .ok r a) :
    alt [p, q] i = ((p i).1 + (q i).1, .ok r a) := by
  simp [alt, orElse, h, h']

theorem alt_err {p q : C α} {i j j' : Str} {e e' : ErrorKind} (h : (p i).2 = .err (.error j e)) (h' : (q i).2 = .err (.error j' e')) :
    alt [p, q] i = ((p i).1 + (q i).1, .err (.error i .alt)) := by
  simp [alt, orElse, h, h', altEnd]

theorem tw1_cases (f : Char → Bool) (i : Str) : (takeWhile1 f i).1 + (i.dropWhile f).length = i.length + 1 ∧
    ((∃ w, w ≠ [] ∧ i.takeWhile f = w ∧ (takeWhile1 f i).2 = .ok (i.dropWhile f) w) ∨
     (i.takeWhile f = [] ∧ (takeWhile1 f i).2 = .err (.error i .takeWhile1))) := by
  have h := takeWhile_add f i
  refine ⟨by simp only [takeWhile1]; omega, ?_⟩
  cases h1 : i.takeWhile f with
  | nil => exact .inr ⟨rfl, by simp [takeWhile1, Nom.takeWhile1, h1]⟩
  | cons c w => exact .inl ⟨c :: w, by simp, rfl, by simp [takeWhile1, Nom.takeWhile1, h1]⟩

theorem tw_cases (f : Char → Bool) (i : Str) : (takeWhile f i).1 + (i.dropWhile f).length = i.length + 1 ∧
    (takeWhile f i).2 = .ok (i.dropWhile f) (i.takeWhile f) := by
  have h := takeWhile_add f i
  exact ⟨by simp only [takeWhile]; omega, rfl⟩

theorem recognize_fst (p : C α) (i : Str) : (recognize p i).1 = (p i).1 := by
  unfold recognize; split <;> rfl

/-- The result and the number of looks of a parser, when it needs at most `k` looks for each character that it consumes, and
`m` more. -/
def Bnd (k m m' : Nat) (p : C α) (i : Str) : Prop :=
  (∃ r a, (p i).2 = .ok r a ∧ r.length ≤ i.length ∧ (p i).1 + k * r.length ≤ k * i.length + m) ∨
  (∃ q e, (p i).2 = .err (.error q e) ∧ (p i).1 ≤ m')

theorem Bnd.mono {k m m' k' n n' : Nat} {p : C α} {i : Str} (h : Bnd k m m' p i) (hk : k ≤ k') (hm : m ≤ n) (hm' : m' ≤ n') :
    Bnd k' n n' p i := by
  rcases h with ⟨r, a, h1, h2, h3⟩ | ⟨q, e, h1, h2⟩
  · refine .inl ⟨r, a, h1, h2, ?_⟩
    obtain ⟨j, rfl⟩ := Nat.exists_eq_add_of_le hk
    have := Nat.mul_le_mul_left j h2
    rw [Nat.add_mul, Nat.add_mul]
    omega
  · exact .inr ⟨q, e, h1, by omega⟩

theorem Bnd.recognize {k m m' : Nat} {p : C α} {i : Str} (h : Bnd k m m' p i) : Bnd k m m' (recognize p) i := by
  rcases h with ⟨r, a, h1, h2, h3⟩ | ⟨q, e, h1, h2⟩
  · exact .inl ⟨r, i.take (i.length - r.length), by simp [Count.recognize, h1], h2, by rw [recognize_fst]; exact h3⟩
  · exact .inr ⟨q, e, by simp [Count.recognize, h1], by rw [recognize_fst]; exact h2⟩

theorem Bnd.map {k m m' : Nat} {p : C α} {i : Str} (f : α → β) (h : Bnd k m m' p i) : Bnd k m m' (map f p) i := by
  rcases h with ⟨r, a, h1, h2, h3⟩ | ⟨q, e, h1, h2⟩
  · exact .inl ⟨r, f a, by simp [Count.map, seq, h1, ret], h2, by rw [map_fst]; exact h3⟩
  · exact .inr ⟨q, e, by simp [Count.map, seq, h1], by rw [map_fst]; exact h2⟩

theorem seq_snd_ok {p : C α} {f : α → C β} {i r : Str} {a : α} (h : (p i).2 = .ok r a) : (seq p f i).2 = (f a r).2 := by
  simp [seq, h]

theorem seq_snd_err {p : C α} {f : α → C β} {i : Str} {e : Err Char} (h : (p i).2 = .err e) : (seq p f i).2 = .err e := by
  simp [seq, h]

theorem punct_cost (p : Punct) (b : Str) : Bnd 1 4 4 (core (.punct p)) b := by
  refine Bnd.map _ ?_
  have h0 := compared_le p.text b
  have h1 : p.text.length ≤ 3 := by cases p <;> decide
  rcases tag_cases p.text b with ⟨r, rfl, h⟩ | ⟨-, h⟩
  · exact .inl ⟨r, _, h, by simp, by simp [tag]; omega⟩
  · exact .inr ⟨_, _, h, by simp [tag]; omega⟩

theorem kw_length (k : Kw) : k.text.length ≤ 17 := by cases k <;> decide

theorem kw_cost (k : Kw) (b : Str) : Bnd 1 18 18 (core (.kw k)) b := by
  refine Bnd.map _ ?_
  have h0 := compared_le k.text b
  have h1 := kw_length k
  rcases tag_cases k.text b with ⟨r, rfl, h⟩ | ⟨-, h⟩
  · by_cases hc : ∃ c q, r = c :: q ∧ isIdentByte c = true
    · obtain ⟨c, q, rfl, hc⟩ := hc
      exact .inr ⟨_, _, by simp only [identTag, Verif.identTag, h, hc]; rfl, by simp [identTag]; omega⟩
    · refine .inl ⟨r, k.text, ?_, by simp, by simp [identTag]; omega⟩
      simp only [identTag, Verif.identTag, h]
      cases r with
      | nil => rfl
      | cons c q =>
        have : ¬ isIdentByte c = true := fun h => hc ⟨c, q, rfl, h⟩
        simp [this]
  · exact .inr ⟨b, .tag, by simp [identTag, Verif.identTag, h], by simp [identTag]; omega⟩

theorem ident_cost (b : Str) : Bnd 1 3 3 (core .ident) b := by
  obtain ⟨r, o, h1, h2, h3, h4, -⟩ := opt_char_cases '_' b
  obtain ⟨h5, h6⟩ := tw1_cases Char.isAlpha r
  show Bnd 1 3 3 (seq _ _) b
  unfold Bnd
  rw [seq_ok h1, seq_snd_ok h1, h2]
  rcases h6 with ⟨w, h6, h7, h8⟩ | ⟨h6, h7⟩
  · obtain ⟨h9, h10⟩ := tw_cases isIdentChar (r.dropWhile Char.isAlpha)
    have h11 : (Count.recognize (seq (takeWhile1 Char.isAlpha) fun _ => seq (takeWhile isIdentChar) fun _ => ret ()) r).2 =
        .ok ((r.dropWhile Char.isAlpha).dropWhile isIdentChar)
          (r.take (r.length - ((r.dropWhile Char.isAlpha).dropWhile isIdentChar).length)) := by
      unfold recognize
      rw [seq_snd_ok h8, seq_snd_ok h10]
      rfl
    rw [seq_ok h11, seq_snd_ok h11, recognize_fst, seq_ok h8, seq_ok h10]
    have h12 := takeWhile_add isIdentChar (r.dropWhile Char.isAlpha)
    have h13 := takeWhile_add Char.isAlpha r
    refine .inl ⟨_, _, rfl, ?_, ?_⟩ <;> first | omega | (simp only [ret]; omega)
  · have h11 : (Count.recognize (seq (takeWhile1 Char.isAlpha) fun _ => seq (takeWhile isIdentChar) fun _ => ret ()) r).2 =
        .err (.error r .takeWhile1) := by
      unfold recognize
      rw [seq_snd_err h7]
    rw [seq_err h11, seq_snd_err h11, recognize_fst, seq_err h7]
    have h12 := takeWhile_add Char.isAlpha r
    rw [h6] at h12
    simp at h12
    refine .inr ⟨_, _, rfl, ?_⟩
    omega

theorem dec_cost (b : Str) : Bnd 1 3 3 (core .dec) b := by
  refine Bnd.recognize ?_
  obtain ⟨r, o, h1, h2, h3, h4, -⟩ := opt_char_cases '-' b
  unfold Bnd
  rw [seq_ok h1, seq_snd_ok h1, h2]
  rcases oneOf_cases c!"123456789" r with ⟨d, r, rfl, -, h5⟩ | h5
  · obtain ⟨h6, h7⟩ := tw_cases Char.isDigit r
    have h8 := takeWhile_add Char.isDigit r
    rw [seq_ok h5, seq_snd_ok h5, seq_ok h7, seq_snd_ok h7]
    simp only [List.length_cons] at h3 h4
    refine .inl ⟨_, _, rfl, ?_, ?_⟩ <;> first | omega | (simp only [ret, oneOf]; omega)
  · rw [seq_err h5, seq_snd_err h5]
    exact .inr ⟨_, _, rfl, by simp [oneOf]⟩

theorem oct_cost (b : Str) : Bnd 1 3 3 (core .oct) b := by
  refine Bnd.recognize ?_
  obtain ⟨r, o, h1, h2, h3, h4, -⟩ := opt_char_cases '-' b
  unfold Bnd
  rw [seq_ok h1, seq_snd_ok h1, h2]
  rcases char_cases '0' r with ⟨r, rfl, h5⟩ | h5
  · obtain ⟨h6, h7⟩ := tw_cases isOctDigit r
    have h8 := takeWhile_add isOctDigit r
    rw [seq_ok h5, seq_snd_ok h5, seq_ok h7, seq_snd_ok h7]
    simp only [List.length_cons] at h3 h4
    refine .inl ⟨_, _, rfl, ?_, ?_⟩ <;> first | omega | (simp only [ret, char]; omega)
  · rw [seq_err h5, seq_snd_err h5]
    exact .inr ⟨_, _, rfl, by simp [char]⟩

theorem hex_cost (b : Str) : Bnd 1 5 5 (core .hex) b := by
  refine Bnd.recognize ?_
  obtain ⟨r, o, h1, h2, h3, h4, -⟩ := opt_char_cases '-' b
  unfold Bnd
  rw [seq_ok h1, seq_snd_ok h1, h2]
  rcases char_cases '0' r with ⟨r, rfl, h5⟩ | h5
  · rw [seq_ok h5, seq_snd_ok h5]
    rcases alt_char_cases 'x' 'X' r with ⟨r, x, rfl, -, h6, h7⟩ | ⟨p, k, h6, h7⟩
    · obtain ⟨h9, h10⟩ := tw_cases isHexDigit r
      have h8 := takeWhile_add isHexDigit r
      rw [seq_ok h6, seq_snd_ok h6, seq_ok h10, seq_snd_ok h10]
      simp only [List.length_cons] at h3 h4
      refine .inl ⟨_, _, rfl, ?_, ?_⟩ <;> first | omega | (simp only [ret, char]; omega)
    · rw [seq_err h6, seq_snd_err h6]
      exact .inr ⟨_, _, rfl, by simp [char]; omega⟩
  · rw [seq_err h5, seq_snd_err h5]
    exact .inr ⟨_, _, rfl, by simp [char]⟩

/-- A string without an end costs as much as what is left of the text. -/
def quote (b : Str) : Nat := if b.head? = some '"' then b.length else 0

theorem string_cost (b : Str) : Bnd 1 3 (3 + quote b) (core .string) b := by
  show Bnd _ _ _ (seq _ _) b
  unfold Bnd
  rcases char_cases '"' b with ⟨r, rfl, h5⟩ | h5
  · obtain ⟨h6, h7⟩ := tw_cases (fun c => c != '"') r
    have h8 := takeWhile_add (fun c => c != '"') r
    rw [seq_ok h5, seq_snd_ok h5, seq_ok h7, seq_snd_ok h7]
    have h10 : quote ('"' :: r) = r.length + 1 := by simp [quote]
    rcases char_cases '"' (r.dropWhile fun c => c != '"') with ⟨q, h9, h11⟩ | h11
    · rw [h9] at h6 h8
      simp only [List.length_cons] at h6 h8
      rw [seq_ok h11, seq_snd_ok h11]
      refine .inl ⟨_, _, rfl, ?_, ?_⟩ <;> first | omega | (simp only [ret, char, List.length_cons]; omega)
    · rw [seq_err h11, seq_snd_err h11]
      refine .inr ⟨_, _, rfl, ?_⟩
      simp only [char, h10]
      omega
  · rw [seq_err h5, seq_snd_err h5]
    exact .inr ⟨_, _, rfl, by simp only [char]; omega⟩

/-! ## Floating point numbers -/

def digits (b : Str) : Nat := (b.takeWhile Char.isDigit).length

theorem digits_add (b : Str) : digits b + (b.dropWhile Char.isDigit).length = b.length := takeWhile_add _ _

theorem intDot_cost (i : Str) : Bnd 1 3 (digits i + 2) floatIntDot i ∧
    ∀ r, Verif.floatIntDot i = .ok r () → r.length + digits i ≤ i.length := by
  obtain ⟨h1, h2⟩ := tw1_cases Char.isDigit i
  have h0 := digits_add i
  rw [← same_intDot i]
  unfold Bnd floatIntDot
  rcases h2 with ⟨w, h2, h3, h4⟩ | ⟨h2, h3⟩
  · rw [seq_ok h4, seq_snd_ok h4]
    rcases char_cases '.' (i.dropWhile Char.isDigit) with ⟨q, h5, h6⟩ | h6
    · obtain ⟨h7, h8⟩ := tw_cases Char.isDigit q
      have h9 := takeWhile_add Char.isDigit q
      rw [seq_ok h6, seq_snd_ok h6, seq_ok h8, seq_snd_ok h8]
      rw [h5] at h1 h0
      simp only [List.length_cons] at h1 h0
      refine ⟨.inl ⟨_, _, rfl, ?_, ?_⟩, fun r h => ?_⟩
      · omega
      · simp only [ret, char]; omega
      · injection h with h; subst h; omega
    · rw [seq_err h6, seq_snd_err h6]
      refine ⟨.inr ⟨_, _, rfl, ?_⟩, fun r h => nomatch h⟩
      simp only [char]; omega
  · rw [seq_err h3, seq_snd_err h3]
    exact ⟨.inr ⟨_, _, rfl, by omega⟩, fun r h => nomatch h⟩

theorem dotInt_cost (i : Str) : Bnd 1 3 (digits i + 3) floatDotInt i ∧
    ∀ r, Verif.floatDotInt i = .ok r () → r.length + digits i ≤ i.length := by
  obtain ⟨h1, h4⟩ := tw_cases Char.isDigit i
  have h0 := digits_add i
  rw [← same_dotInt i]
  unfold Bnd floatDotInt
  rw [seq_ok h4, seq_snd_ok h4]
  rcases char_cases '.' (i.dropWhile Char.isDigit) with ⟨q, h5, h6⟩ | h6
  · obtain ⟨h7, h8⟩ := tw1_cases Char.isDigit q
    have h9 := takeWhile_add Char.isDigit q
    rw [seq_ok h6, seq_snd_ok h6]
    rw [h5] at h1 h0
    simp only [List.length_cons] at h1 h0
    rcases h8 with ⟨w, h8, h10, h11⟩ | ⟨h8, h10⟩
    · rw [seq_ok h11, seq_snd_ok h11]
      refine ⟨.inl ⟨_, _, rfl, ?_, ?_⟩, fun r h => ?_⟩
      · omega
      · simp only [ret, char]; omega
      · injection h with h; subst h; omega
    · rw [seq_err h10, seq_snd_err h10]
      rw [h8] at h9
      simp only [List.length_nil] at h9
      refine ⟨.inr ⟨_, _, rfl, ?_⟩, fun r h => nomatch h⟩
      simp only [char]; omega
  · rw [seq_err h6, seq_snd_err h6]
    refine ⟨.inr ⟨_, _, rfl, ?_⟩, fun r h => nomatch h⟩
    simp only [char]; omega

theorem exp_cost (i : Str) : Bnd 1 4 5 floatExp i := by
  unfold Bnd floatExp
  rcases alt_char_cases 'e' 'E' i with ⟨r, x, rfl, -, h1, h2⟩ | ⟨p, k, h1, h2⟩
  · rw [seq_ok h1, seq_snd_ok h1]
    obtain ⟨r', o, h3, h4, h5⟩ : ∃ r' o, (opt (alt [char '+', char '-']) r).2 = .ok r' o ∧ (opt (alt [char '+', char '-']) r).1 ≤ 2 ∧
        r'.length ≤ r.length := by
      rcases alt_char_cases '+' '-' r with ⟨r', y, rfl, -, h3, h4⟩ | ⟨p, k, h3, h4⟩
      · exact ⟨r', some y, by simp [opt, h3], by simpa [opt, h3] using h4, by simp⟩
      · exact ⟨r, none, by simp [opt, h3], by simpa [opt, h3] using h4, by simp⟩
    rw [seq_ok h3, seq_snd_ok h3]
    obtain ⟨h7, h8⟩ := tw1_cases Char.isDigit r'
    have h9 := takeWhile_add Char.isDigit r'
    rcases h8 with ⟨w, h8, h10, h11⟩ | ⟨h8, h10⟩
    · rw [seq_ok h11, seq_snd_ok h11]
      refine .inl ⟨_, _, rfl, ?_, ?_⟩ <;> first | omega | (simp only [ret, List.length_cons]; omega)
    · rw [seq_err h10, seq_snd_err h10]
      rw [h8] at h9
      simp only [List.length_nil] at h9
      exact .inr ⟨_, _, rfl, by omega⟩
  · rw [seq_err h1, seq_snd_err h1]
    exact .inr ⟨_, _, rfl, by omega⟩

theorem opt_exp_cost (i : Str) : ∃ r o, (opt floatExp i).2 = .ok r o ∧ r.length ≤ i.length ∧ (opt floatExp i).1 + r.length ≤ i.length + 5 := by
  rcases exp_cost i with ⟨r, a, h1, h2, h3⟩ | ⟨q, e, h1, h2⟩
  · exact ⟨r, some a, by simp [opt, h1], h2, by simp [opt, h1]; omega⟩
  · exact ⟨i, none, by simp [opt, h1], Nat.le_refl _, by simp [opt, h1]; omega⟩

/-- A floating point number without its sign. -/
def floatBody : C Unit := alt [
        seq (alt [floatIntDot, floatDotInt]) fun _ =>
          seq (opt floatExp) fun _ => ret (),
        seq (takeWhile1 Char.isDigit) fun _ =>
          seq floatExp fun _ => ret ()]

theorem intPart_cost (i : Str) :
    (∃ r a, (alt [floatIntDot, floatDotInt] i).2 = .ok r a ∧ r.length + digits i ≤ i.length ∧
      (alt [floatIntDot, floatDotInt] i).1 + 2 * r.length ≤ 2 * i.length + 5) ∨
    (∃ q e, (alt [floatIntDot, floatDotInt] i).2 = .err (.error q e) ∧ (alt [floatIntDot, floatDotInt] i).1 ≤ 2 * digits i + 5) := by
  obtain ⟨h1, h2⟩ := intDot_cost i
  obtain ⟨h3, h4⟩ := dotInt_cost i
  rw [← same_intDot i] at h2
  rw [← same_dotInt i] at h4
  rcases h1 with ⟨r, a, h5, h6, h7⟩ | ⟨q, e, h5, h6⟩
  · have := h2 r h5
    exact .inl ⟨r, a, by simp [alt, orElse, h5], this, by simp [alt, orElse, h5]; omega⟩
  · rcases h3 with ⟨r, a, h7, h8, h9⟩ | ⟨q, e, h7, h8⟩
    · have := h4 r h7
      exact .inl ⟨r, a, by simp [alt, orElse, h5, h7], this, by simp [alt, orElse, h5, h7]; omega⟩
    · exact .inr ⟨i, .alt, by simp [alt, orElse, h5, h7, altEnd], by simp [alt, orElse, h5, h7, altEnd]; omega⟩

theorem floatBody_cost (i : Str) :
    (∃ r, (floatBody i).2 = .ok r () ∧ r.length + digits i ≤ i.length ∧ (floatBody i).1 + 3 * r.length ≤ 3 * i.length + 12) ∨
    (∃ q e, (floatBody i).2 = .err (.error q e) ∧ (floatBody i).1 ≤ 3 * digits i + 12) := by
  have h0 := digits_add i
  rcases intPart_cost i with ⟨r, a, h1, h2, h3⟩ | ⟨q, e, h1, h2⟩
  · obtain ⟨r', o, h4, h5, h6⟩ := opt_exp_cost r
    have h7 : (seq (alt [floatIntDot, floatDotInt]) (fun _ => seq (opt floatExp) fun _ => ret ()) i).2 = .ok r' () := by
      rw [seq_snd_ok h1, seq_snd_ok h4]; rfl
    have h8 : (seq (alt [floatIntDot, floatDotInt]) (fun _ => seq (opt floatExp) fun _ => ret ()) i).1 =
        (alt [floatIntDot, floatDotInt] i).1 + (opt floatExp r).1 := by
      rw [seq_ok h1, seq_ok h4]; rfl
    refine .inl ⟨r', ?_, by omega, ?_⟩
    · rw [floatBody, alt_ok h7]
    · rw [floatBody, alt_ok h7]
      simp only [h8]
      omega
  · have h7 : (seq (alt [floatIntDot, floatDotInt]) (fun _ => seq (opt floatExp) fun _ => ret ()) i).2 = .err (.error q e) := by
      rw [seq_snd_err h1]
    have h8 : (seq (alt [floatIntDot, floatDotInt]) (fun _ => seq (opt floatExp) fun _ => ret ()) i).1 =
        (alt [floatIntDot, floatDotInt] i).1 := by
      rw [seq_err h1]
    obtain ⟨h9, h10⟩ := tw1_cases Char.isDigit i
    rcases h10 with ⟨w, -, h11, h12⟩ | ⟨h11, h12⟩
    · rcases exp_cost (i.dropWhile Char.isDigit) with ⟨r', a', h13, h14, h15⟩ | ⟨q', e', h13, h14⟩
      · have h16 : (seq (takeWhile1 Char.isDigit) (fun _ => seq floatExp fun _ => ret ()) i).2 = .ok r' () := by
          rw [seq_snd_ok h12, seq_snd_ok h13]; rfl
        have h17 : (seq (takeWhile1 Char.isDigit) (fun _ => seq floatExp fun _ => ret ()) i).1 =
            (takeWhile1 Char.isDigit i).1 + (floatExp (i.dropWhile Char.isDigit)).1 := by
          rw [seq_ok h12, seq_ok h13]; rfl
        refine .inl ⟨r', ?_, by omega, ?_⟩
        · rw [floatBody, alt_next h7 h16]
        · rw [floatBody, alt_next h7 h16]
          simp only [h17, h8]
          omega
      · have h16 : (seq (takeWhile1 Char.isDigit) (fun _ => seq floatExp fun _ => ret ()) i).2 = .err (.error q' e') := by
          rw [seq_snd_ok h12, seq_snd_err h13]
        have h17 : (seq (takeWhile1 Char.isDigit) (fun _ => seq floatExp fun _ => ret ()) i).1 =
            (takeWhile1 Char.isDigit i).1 + (floatExp (i.dropWhile Char.isDigit)).1 := by
          rw [seq_ok h12, seq_err h13]
        refine .inr ⟨i, .alt, ?_, ?_⟩
        · rw [floatBody, alt_err h7 h16]
        · rw [floatBody, alt_err h7 h16]
          simp only [h17, h8]
          omega
    · have h16 : (seq (takeWhile1 Char.isDigit) (fun _ => seq floatExp fun _ => ret ()) i).2 = .err (.error i .takeWhile1) := by
        rw [seq_snd_err h12]
      have h17 : (seq (takeWhile1 Char.isDigit) (fun _ => seq floatExp fun _ => ret ()) i).1 = (takeWhile1 Char.isDigit i).1 := by
        rw [seq_err h12]
      refine .inr ⟨i, .alt, ?_, ?_⟩
      · rw [floatBody, alt_err h7 h16]
      · rw [floatBody, alt_err h7 h16]
        simp only [h17, h8]
        omega

/-- The text behind the sign of a number. -/
def unsigned (b : Str) : Str := match b with
  | '-' :: r => r
  | _ => b

theorem opt_minus (b : Str) : ∃ o, (opt (char '-') b).2 = .ok (unsigned b) o ∧ (opt (char '-') b).1 = 1 ∧ (unsigned b).length ≤ b.length := by
  unfold unsigned
  split
  · exact ⟨some '-', by simp [opt, char, Nom.char], by simp [opt, char, Nom.char], by simp⟩
  · next h =>
    refine ⟨none, ?_, ?_, Nat.le_refl _⟩ <;> rcases char_cases '-' b with ⟨r, rfl, h'⟩ | h'
    · exact absurd rfl (h r)
    · simp [opt, h']
    · exact absurd rfl (h r)
    · simp [opt, h', char_fst]

theorem float_cost (b : Str) :
    (∃ r v, (core .float b).2 = .ok r v ∧ r.length + digits (unsigned b) ≤ b.length ∧ (core .float b).1 + 3 * r.length ≤ 3 * b.length + 13) ∨
    (∃ q e, (core .float b).2 = .err (.error q e) ∧ (core .float b).1 ≤ 3 * digits (unsigned b) + 13) := by
  obtain ⟨o, h1, h2, h3⟩ := opt_minus b
  have h0 : core .float b = Count.recognize (seq (opt (char '-')) fun _ => seq floatBody fun _ => ret ()) b := rfl
  rw [h0, recognize_fst, seq_ok h1, h2]
  unfold recognize
  rw [seq_snd_ok h1]
  rcases floatBody_cost (unsigned b) with ⟨r, h4, h5, h6⟩ | ⟨q, e, h4, h5⟩
  · rw [seq_ok h4, seq_snd_ok h4]
    refine .inl ⟨_, _, rfl, by omega, ?_⟩
    simp only [ret]
    omega
  · rw [seq_err h4, seq_snd_err h4]
    exact .inr ⟨_, _, rfl, by omega⟩

/-- What a terminal costs beside trivia, when it fails. -/
def worst (b : Str) : Nat := 18 + quote b + 3 * digits (unsigned b)

theorem core_cost (l : Leaf α) (b : Str) : Bnd 3 18 (worst b) (core l) b := by
  cases l with
  | punct p => exact (punct_cost p b).mono (by omega) (by omega) (by unfold worst; omega)
  | kw p => exact (kw_cost p b).mono (by omega) (by omega) (by unfold worst; omega)
  | ident => exact (ident_cost b).mono (by omega) (by omega) (by unfold worst; omega)
  | dec => exact (dec_cost b).mono (by omega) (by omega) (by unfold worst; omega)
  | hex => exact (hex_cost b).mono (by omega) (by omega) (by unfold worst; omega)
  | oct => exact (oct_cost b).mono (by omega) (by omega) (by unfold worst; omega)
  | float =>
    rcases float_cost b with ⟨r, v, h1, h2, h3⟩ | ⟨q, e, h1, h2⟩
    · exact .inl ⟨r, v, h1, by omega, by omega⟩
    · exact .inr ⟨q, e, h1, by unfold worst; omega⟩
  | string => exact (string_cost b).mono (by omega) (by omega) (by unfold worst; omega)

end Verif.Count
