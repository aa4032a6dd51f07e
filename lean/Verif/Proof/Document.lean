import Verif.Proof.Text
import Verif.Proof.CompleteDef
import Verif.Proof.SoundDef
import Verif.Proof.Definitions

/-! # From the generic results to texts -/

namespace Verif
open Nom Spec

/-- Every spelling ends with a semicolon. -/
def Semi (A : Lang) : Prop := ∀ ls, A ls → ∃ a, ls = a ++ [c!";"]

theorem Closed.semi {A : Lang} (h : Closed A) : Semi A := fun ls hl => by
  obtain ⟨a, h, -⟩ := h ls hl
  exact ⟨a, h⟩

theorem Semi.seq {A B : Lang} (h : Semi B) : Semi (A ⨾ B) := by
  rintro _ ⟨a, b, rfl, -, h2⟩
  obtain ⟨c, rfl⟩ := h b h2
  exact ⟨a ++ c, by simp⟩

theorem semi_tok : Semi (tok c!";") := by
  rintro _ rfl
  exact ⟨[], rfl⟩

theorem semi_body {α : Type} {L : α → Lang} {ms : List α} : Semi (body L ms) := .seq semi_tok

theorem semi_definition (d : Definition) : Semi (definition d) := by
  cases d <;> simp only [definition] <;>
    repeat' first | exact semi_tok | exact semi_body | refine Semi.seq ?_

theorem Semi.ne_nil {A : Lang} (h : Semi A) {ls : List Str} (hl : A ls) : ls ≠ [] := by
  obtain ⟨a, rfl⟩ := h ls hl
  simp

theorem definitions_ne_nil {ds : List Definition} {ls : List Str} (hd : ds ≠ [])
    (h : definitions ds ls) : ls ≠ [] := by
  cases ds with
  | nil => exact absurd rfl hd
  | cons d ds =>
    obtain ⟨a, b, rfl, h1, h2⟩ := h
    have := (semi_definition d).ne_nil h1
    simp [this]

/-- What a grammar expression reads, it reads from the text. -/
theorem spells_of_parse {α : Type} {g : G α} {L : α → Lang}
    (hs : Snd charLeaf CStep (ntLim charLeaf) g L) (hg : ∀ a, AllGood (L a))
    {s r : Str} {a : α} (hn : ∀ ls, L a ls → ls ≠ []) (h : g.parse s = .ok r a) :
    Spells L a s r ∧ strip r = r := by
  obtain ⟨ls, h1, h2⟩ := hs s r a h
  obtain ⟨t, b, h3, h4, h5⟩ := reads_spells h1 (hn ls h2) (hg a ls h2)
  refine ⟨⟨t, ls, b, h3, h4, h2, h5⟩, ?_⟩
  rcases reads_text h1 (hg a ls h2) with ⟨-, h⟩ | ⟨h, -⟩
  · exact absurd h (hn ls h2)
  · exact h

theorem rl_of_spells {α : Type} {L : α → Lang} {a : α} {s r : Str} (hg : AllGood (L a))
    (hn : ∀ ls, L a ls → ls ≠ []) (h : Spells L a s r) (hr : strip r = r) : RL CStep (L a) s r := by
  obtain ⟨t, ls, b, rfl, h2, h3, h4⟩ := h
  exact ⟨ls, h3, spelled_reads h2 h4 (hn ls h3) (hg ls h3) hr⟩

theorem ntSound_char : NtSound charLeaf CStep (ntLim charLeaf) := ntSound_lim exact_char.toStepping

/-- A production closed by a semicolon is read exactly from its spellings. -/
theorem closed_iff {α : Type} {g : G α} {L : α → Lang}
    (hs : Snd charLeaf CStep (ntLim charLeaf) g L) (hg : ∀ a, AllGood (L a)) (hn : ∀ a, Semi (L a))
    (hok : ∀ a {s r}, RL CStep (L a) s r → Ok charLeaf g s r a) {s r : Str} {a : α} :
    g.parse s = .ok r a ↔ Spells L a s r ∧ strip r = r :=
  ⟨spells_of_parse hs hg fun _ => (hn a).ne_nil, fun ⟨h, hr⟩ =>
    hok a (rl_of_spells (hg a) (fun _ => (hn a).ne_nil) h hr)⟩

theorem definition_iff {s r : Str} {d : Definition} :
    G.definition.parse s = .ok r d ↔ Spells definition d s r ∧ strip r = r :=
  closed_iff (snd_definition exact_char.toStepping ntSound_char) allGood_definition semi_definition
    fun d _ _ => ok_definition exact_char d

theorem interfaceMember_iff {s r : Str} {m : InterfaceMember} :
    G.interfaceMember.parse s = .ok r m ↔ Spells interfaceMember m s r ∧ strip r = r :=
  closed_iff (snd_interfaceMember exact_char.toStepping ntSound_char)
    (fun m => (closed_interfaceMember m).allGood) (fun m => (closed_interfaceMember m).semi)
    fun m _ _ => ok_interfaceMember exact_char m

theorem mixinMember_iff {s r : Str} {m : MixinMember} :
    G.mixinMember.parse s = .ok r m ↔ Spells mixinMember m s r ∧ strip r = r :=
  closed_iff (snd_mixinMember exact_char.toStepping ntSound_char)
    (fun m => (closed_mixinMember m).allGood) (fun m => (closed_mixinMember m).semi)
    fun m _ _ => ok_mixinMember exact_char m

theorem namespaceMember_iff {s r : Str} {m : NamespaceMember} :
    G.namespaceMember.parse s = .ok r m ↔ Spells namespaceMember m s r ∧ strip r = r :=
  closed_iff (snd_namespaceMember exact_char.toStepping ntSound_char)
    (fun m => (closed_namespaceMember m).allGood) (fun m => (closed_namespaceMember m).semi)
    fun m _ _ => ok_namespaceMember exact_char m

theorem dictionaryMember_iff {s r : Str} {m : DictionaryMember} :
    G.dictionaryMember.parse s = .ok r m ↔ Spells dictionaryMember m s r ∧ strip r = r :=
  closed_iff (snd_dictionaryMember exact_char.toStepping ntSound_char)
    (fun m => (closed_dictionaryMember m).allGood) (fun m => (closed_dictionaryMember m).semi)
    fun m _ _ => ok_dictionaryMember exact_char m

theorem charLeaf_nil {α : Type} (l : Leaf α) : Fails (charLeaf α l) [] := by
  cases l with
  | kw k => cases k <;> exact ⟨_, _, rfl⟩
  | punct k => cases k <;> exact ⟨_, _, rfl⟩
  | _ => exact ⟨_, _, rfl⟩

theorem dull_nil : Dull charLeaf [] := (dead_end fun _ l => charLeaf_nil l).toDull

theorem weedleParse_ok_iff {s : Str} {ds : List Definition} :
    weedleParse s = .ok ds ↔ G.definitions.parse s = .ok [] ds := by
  unfold weedleParse
  cases h : G.definitions.parse s with
  | ok r v => cases r <;> simp
  | err e => simp
  | diverge => simp

theorem document_iff {s : Str} {ds : List Definition} : weedleParse s = .ok ds ↔ Document ds s := by
  rw [weedleParse_ok_iff]
  constructor
  · intro h
    obtain ⟨ls, h1, h2⟩ := snd_definitions exact_char.toStepping ntSound_char s _ ds h
    cases ds with
    | nil =>
      cases h2
      cases h1
      exact .inl ⟨rfl, rfl⟩
    | cons d ds =>
      obtain ⟨t, b, h3, h4, h5⟩ := reads_document h1 (definitions_ne_nil (by simp) h2)
        (allGood_definitions _ ls h2)
      exact .inr ⟨by simp, t, ls, b, h3, h4, h2, h5⟩
  · rintro (⟨rfl, rfl⟩ | ⟨hd, t, ls, b, rfl, h2, h3, h4⟩)
    · rfl
    · exact ok_definitions exact_char ⟨ls, h3, document_reads h2 h4 (definitions_ne_nil hd h3)
        (allGood_definitions _ ls h3)⟩ dull_nil

end Verif
