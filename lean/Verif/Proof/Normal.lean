import Verif.Proof.Pass

/-! # Counting semicolons, and comparing the spellings of one AST -/

namespace Verif
open Spec

/-! ## Semicolons -/

def Semis (n : Nat) (A : Lang) : Prop := ∀ ls, A ls → ls.count c!";" = n

theorem semis_one {w : Str} (h : w ≠ c!";") : [w].count c!";" = 0 := by
  simp [List.count_cons, h]

theorem semis_head {c : Char} {v : Str} (h : c ≠ ';') : c :: v ≠ c!";" := by
  intro e
  simp at e
  exact h e.1

theorem semis_pass : Pass Semis where
  mono h hb := fun ls h' => hb ls (h ls h')
  eps := by rintro _ rfl; rfl
  tok {w} h := by
    rintro _ rfl
    exact semis_one (by simp [isLow] at h; exact h.2)
  semi := by rintro _ rfl; rfl
  seq ha hb := by
    rintro _ ⟨a, b, rfl, h1, h2⟩
    rw [List.count_append, ha a h1, hb b h2]
  mid {A n o c} h ha := by
    rintro _ ⟨_, _, rfl, rfl, a, _, rfl, h1, rfl⟩
    have : o ≠ c!";" ∧ c ≠ c!";" := by
      simp [pairs] at h
      rcases h with ⟨rfl, rfl⟩ | ⟨rfl, rfl⟩ | ⟨rfl, rfl⟩ | ⟨rfl, rfl⟩ <;> decide
    rw [List.count_append, List.count_append, semis_one this.1, semis_one this.2, ha a h1]
    omega
  name i := by
    rintro ls ⟨h1, h2⟩
    obtain ⟨c, v, rfl, hc, -⟩ := word_iff.1 h1
    rcases h2 with rfl | rfl
    · exact semis_one (semis_head (by rintro rfl; simp [Char.isAlpha, Char.isUpper, Char.isLower] at hc))
    · exact semis_one (semis_head (by decide))
  string v := by
    rintro ls ⟨h1, rfl⟩
    exact semis_one (semis_head (by decide))
  number hre v := by
    rintro ls ⟨h1, rfl⟩
    obtain ⟨c, v, rfl, hc⟩ := Number.first (hre v h1)
    refine semis_one (semis_head ?_)
    rintro rfl
    unfold IsDig at hc
    exact absurd hc (by decide)

theorem semis_enum (as : Attrs) (i : Str) (vs : List Str) : Semis 1 (definition (.enum as i vs)) := by
  have hX := semis_pass
  refine hX.seq0 (ps_attributes hX as) (hX.cons (by decide) (hX.seq0 (hX.name i) (hX.seq0 (hX.braces ?_) hX.semi)))
  rintro ls ⟨-, c, h⟩
  exact hX.seq0 (hX.sepBy (ps_comma hX) fun v _ => hX.string v) (hX.opt c (by decide)) ls h

theorem semis_definitions (ds : List Definition) : Semis (ds.map fun d => memberCount d + 1).sum (definitions ds) :=
  ps_definitions semis_pass semis_enum ds

/-! ## Spellings of one AST -/

/-- All spellings are essentially the same, whatever follows. -/
def Uniq (_ : Nat) (A : Lang) : Prop := ∀ a b r, A a → A b → essential (a ++ r) = essential (b ++ r)

theorem essential_append {a r r' : List Str} (h : essential r = essential r') :
    essential (a ++ r) = essential (a ++ r') := by
  induction a with
  | nil => exact h
  | cons w a ih => simp only [List.cons_append, essential, ih]

theorem uniq_one {A : Lang} {w : Str} (h : ∀ ls, A ls → ls = [w]) : Uniq 0 A := by
  intro a b r ha hb
  rw [h a ha, h b hb]

theorem uniq_pass : Pass Uniq where
  mono h hb := fun a b r h1 h2 => hb a b r (h a h1) (h b h2)
  eps := by rintro _ _ r rfl rfl; rfl
  tok h := uniq_one fun _ h => h
  semi := uniq_one fun _ h => h
  seq ha hb := by
    rintro _ _ r ⟨a, b, rfl, h1, h2⟩ ⟨a', b', rfl, h1', h2'⟩
    rw [List.append_assoc, List.append_assoc, ha a a' _ h1 h1']
    exact essential_append (hb b b' r h2 h2')
  mid h ha := by
    rintro _ _ r ⟨_, _, rfl, rfl, a, _, rfl, h1, rfl⟩ ⟨_, _, rfl, rfl, a', _, rfl, h1', rfl⟩
    rw [List.append_assoc, List.append_assoc, List.append_assoc, List.append_assoc]
    exact essential_append (ha a a' _ h1 h1')
  name i := by
    rintro a b r ⟨h1, h2⟩ ⟨-, h3⟩
    obtain ⟨c, v, rfl, hc, -⟩ := word_iff.1 h1
    have hu : c ≠ '_' := by rintro rfl; simp [Char.isAlpha, Char.isUpper, Char.isLower] at hc
    have hk : c ≠ ',' := by rintro rfl; simp [Char.isAlpha, Char.isUpper, Char.isLower] at hc
    have e1 : essential ((c :: v) :: r) = (c :: v) :: essential r := by
      have : unescaped (c :: v) = c :: v := by
        unfold unescaped
        split
        · rename_i e; simp at e; exact absurd e.1 hu
        · rfl
      simp [essential, hk, this]
    have e2 : essential (('_' :: c :: v) :: r) = (c :: v) :: essential r := by
      simp [essential, unescaped]
    rcases h2 with rfl | rfl <;> rcases h3 with rfl | rfl <;> simp [e1, e2]
  string v := uniq_one fun _ h => h.2
  number hre v := uniq_one fun _ h => h.2

theorem uniq_enum (as : Attrs) (i : Str) (vs : List Str) : Uniq 1 (definition (.enum as i vs)) := by
  have hX := uniq_pass
  refine hX.seq0 (ps_attributes hX as) (hX.cons (by decide) (hX.seq0 (hX.name i) (hX.seq0 (A := braces (enumValues vs)) ?_ hX.semi)))
  rintro _ _ r ⟨_, _, rfl, rfl, a, _, rfl, ⟨-, q, x, y, rfl, h1, h2⟩, rfl⟩ ⟨_, _, rfl, rfl, a', _, rfl, ⟨-, q', x', y', rfl, h1', h2'⟩, rfl⟩
  have key : ∀ {q y}, optTok q c!"," y → ∀ r, essential (y ++ (c!"}" :: r)) = c!"}" :: essential r := by
    intro q y h r
    cases q with
    | false => cases h; simp [essential, unescaped]
    | true => cases h; simp [essential, unescaped]
  have hx := hX.sepBy (ps_comma hX) (l := vs) fun v _ => hX.string v
  have : essential (y ++ c!"}" :: r) = essential (y' ++ c!"}" :: r) := by rw [key h2, key h2']
  have h3 := hx x x' (y ++ c!"}" :: r) h1 h1'
  have h4 := essential_append (a := x') this
  have h5 := essential_append (a := [c!"{"]) (h3.trans h4)
  simpa using h5

theorem uniq_definitions {ds : List Definition} {a b : List Str} (ha : definitions ds a) (hb : definitions ds b) :
    essential a = essential b := by
  have := ps_definitions uniq_pass uniq_enum ds a b [] ha hb
  simpa using this

end Verif
