import Verif.Source.Tree

/-!
# Equality of macros

Decided quickly by the kernel. The definitions serve the proofs only, they model no code.
-/

namespace Verif.Source

theorem sameChar_eq {a b : Char} (h : sameChar a b = true) : a = b := by
  rw [← Char.ofNat_toNat a, Nat.eq_of_beq_eq_true h, Char.ofNat_toNat]

theorem sameStr_eq {s t : Str} (h : sameStr s t = true) : s = t := by
  induction s generalizing t with
  | nil => cases t <;> simp_all [sameStr]
  | cons a s ih =>
    cases t with
    | nil => simp [sameStr] at h
    | cons b t =>
      simp only [sameStr, Bool.and_eq_true] at h
      rw [sameChar_eq h.1, ih h.2]

theorem Tok.same_eq {a b : Tok} (h : a.same b = true) : a = b := by
  cases a <;> cases b <;> simp only [Tok.same, Bool.false_eq_true] at h <;>
    first
    | rw [sameStr_eq h]
    | rw [sameChar_eq h]

mutual

def Pat.same : Pat → Pat → Bool
  | .tok a, .tok b => a.same b
  | .grp c p, .grp d q => sameChar c d && samePats p q
  | .var x k, .var y l => sameStr x y && decide (k = l)
  | .rep xs p s r, .rep ys q t u => decide (xs = ys) && samePats p q && decide (s = t) && decide (r = u)
  | _, _ => false

def samePats : List Pat → List Pat → Bool
  | [], [] => true
  | p :: ps, q :: qs => p.same q && samePats ps qs
  | _, _ => false

end

mutual

theorem Pat.same_eq : ∀ {p q : Pat}, p.same q = true → p = q
  | .tok a, q, h => by
    cases q <;> simp only [Pat.same, Bool.false_eq_true] at h
    rw [Tok.same_eq h]
  | .grp c p, q, h => by
    cases q <;> simp only [Pat.same, Bool.false_eq_true, Bool.and_eq_true] at h
    rw [sameChar_eq h.1, samePats_eq h.2]
  | .var x k, q, h => by
    cases q <;> simp only [Pat.same, Bool.false_eq_true, Bool.and_eq_true, decide_eq_true_eq] at h
    rw [sameStr_eq h.1, h.2]
  | .rep xs p s r, q, h => by
    cases q <;> simp only [Pat.same, Bool.false_eq_true, Bool.and_eq_true, decide_eq_true_eq] at h
    rw [h.1.1.1, samePats_eq h.1.1.2, h.1.2, h.2]

theorem samePats_eq : ∀ {p q : List Pat}, samePats p q = true → p = q
  | [], q, h => by cases q <;> simp_all [samePats]
  | p :: ps, q, h => by
    cases q <;> simp only [samePats, Bool.false_eq_true, Bool.and_eq_true] at h
    rw [Pat.same_eq h.1, samePats_eq h.2]

end

mutual

def Tmpl.same : Tmpl → Tmpl → Bool
  | .tok a, .tok b => a.same b
  | .grp c p, .grp d q => sameChar c d && sameTmpls p q
  | .var x, .var y => sameStr x y
  | .rep xs p s, .rep ys q t => decide (xs = ys) && sameTmpls p q && decide (s = t)
  | _, _ => false

def sameTmpls : List Tmpl → List Tmpl → Bool
  | [], [] => true
  | p :: ps, q :: qs => p.same q && sameTmpls ps qs
  | _, _ => false

end

mutual

theorem Tmpl.same_eq : ∀ {p q : Tmpl}, p.same q = true → p = q
  | .tok a, q, h => by
    cases q <;> simp only [Tmpl.same, Bool.false_eq_true] at h
    rw [Tok.same_eq h]
  | .grp c p, q, h => by
    cases q <;> simp only [Tmpl.same, Bool.false_eq_true, Bool.and_eq_true] at h
    rw [sameChar_eq h.1, sameTmpls_eq h.2]
  | .var x, q, h => by
    cases q <;> simp only [Tmpl.same, Bool.false_eq_true] at h
    rw [sameStr_eq h]
  | .rep xs p s, q, h => by
    cases q <;> simp only [Tmpl.same, Bool.false_eq_true, Bool.and_eq_true, decide_eq_true_eq] at h
    rw [h.1.1, sameTmpls_eq h.1.2, h.2]

theorem sameTmpls_eq : ∀ {p q : List Tmpl}, sameTmpls p q = true → p = q
  | [], q, h => by cases q <;> simp_all [sameTmpls]
  | p :: ps, q, h => by
    cases q <;> simp only [sameTmpls, Bool.false_eq_true, Bool.and_eq_true] at h
    rw [Tmpl.same_eq h.1, sameTmpls_eq h.2]

end

def sameRules : List Rule → List Rule → Bool
  | [], [] => true
  | r :: rs, q :: qs => samePats r.pat q.pat && sameTmpls r.body q.body && sameRules rs qs
  | _, _ => false

theorem sameRules_eq : ∀ {p q : List Rule}, sameRules p q = true → p = q
  | [], q, h => by cases q <;> simp_all [sameRules]
  | p :: ps, q, h => by
    cases q with
    | nil => simp [sameRules] at h
    | cons q qs =>
      simp only [sameRules, Bool.and_eq_true] at h
      obtain ⟨a, b⟩ := p
      obtain ⟨c, d⟩ := q
      have h1 : a = c := samePats_eq h.1.1
      have h2 : b = d := sameTmpls_eq h.1.2
      rw [h1, h2, sameRules_eq h.2]

def sameMacros : Macros → Macros → Bool
  | [], [] => true
  | (x, r) :: rs, (y, q) :: qs => sameStr x y && sameRules r q && sameMacros rs qs
  | _, _ => false

theorem sameMacros_eq : ∀ {p q : Macros}, sameMacros p q = true → p = q
  | [], q, h => by cases q <;> simp_all [sameMacros]
  | (x, r) :: ps, q, h => by
    cases q with
    | nil => simp [sameMacros] at h
    | cons q qs =>
      obtain ⟨y, q⟩ := q
      simp only [sameMacros, Bool.and_eq_true] at h
      rw [sameStr_eq h.1.1, sameRules_eq h.1.2, sameMacros_eq h.2]

def sameMacros? : Option Macros → Macros → Bool
  | some a, b => sameMacros a b
  | none, _ => false

theorem sameMacros?_eq {p : Option Macros} {q : Macros} (h : sameMacros? p q = true) : p = some q := by
  cases p with
  | none => simp [sameMacros?] at h
  | some p => rw [sameMacros_eq h]

end Verif.Source
