import Verif.Spec.Recode
import Verif.Proof.RecodeMac
import Verif.Properties.Source

/-!
# C58: line ends, tabs and characters outside ASCII
-/

namespace Verif.Properties
open Nom Spec Source

/-- Parsing commutes with every way of writing the characters: on the text that is written in the other way, `T::parse`
returns the same result, written in that way. This holds for all types and all texts, also those that are rejected. -/
theorem C58_type {f : Char → Str} (hf : Recoding f) {T : RTy} {s : Str} {x : Res Char Val} (h : Returns T s x) :
    Returns T (recode f s) (recodeRes f x) := by
  obtain ⟨ds, hd, N, hN⟩ := h
  obtain rfl : decls = ds := by simpa [readSource_eq] using hd
  refine ⟨decls, hd, N, fun n hn => ?_⟩
  rw [(Recodes.comm_parse hf n T).eq, hN n hn]
  cases x <;> rfl

example : Returns (.path0 c!"StringLit") (recode crlf c!" \"a\nb\"\n;") (.ok c!";" (.newtype c!"StringLit" (.str c!"a\r\nb"))) :=
  C58_type (x := .ok c!";" (.newtype c!"StringLit" (.str c!"a\nb"))) Recodes.crlf_recoding
    (C48_parser .stringLit c!" \"a\nb\"\n;")

/-- `weedle::parse`, when it returns: it also returns on the other text, and the result is the same, with its strings written
in the other way. -/
theorem C58_document {f : Char → Str} (hf : Recoding f) {s : Str} {ds : List Definition} (h : weedleParse s = .ok ds) :
    ∃ ds', weedleParse (recode f s) = .ok ds' ∧
      Val.list (ds'.map definitionVal) = recodeVal f (Val.list (ds.map definitionVal)) := by
  have h1 := C58_type hf (((C48_parse s).1 ds).1 h)
  have h2 := C48_parser .definitions (recode f s)
  have e := C48_function h2 h1
  cases e' : G.definitions.parse (recode f s) with
  | ok r ds' =>
    simp only [e', resMap, recodeRes, Res.ok.injEq] at e
    refine ⟨ds', ?_, e.2⟩
    unfold weedleParse
    rw [e', e.1]
    rfl
  | err x => rw [e'] at e; cases e
  | diverge => rw [e'] at e; cases e

/-- `weedle::parse` panics on the one text if and only if it panics on the other. -/
theorem C58_panic {f : Char → Str} (hf : Recoding f) (s : Str) :
    weedleParse (recode f s) = .panic ↔ weedleParse s = .panic := by
  rw [(C48_parse s).2.2, (C48_parse (recode f s)).2.2]
  have h0 := C48_parser .definitions s
  constructor
  · rintro ⟨r, v, hr, h⟩
    have e := C48_function (C58_type hf h0) h
    cases e' : G.definitions.parse s with
    | ok r' ds' =>
      rw [e'] at h0 e
      simp only [resMap, recodeRes, Res.ok.injEq] at e
      exact ⟨_, _, fun h => hr (by rw [← e.1, h]; rfl), h0⟩
    | err x => rw [e'] at e; cases e
    | diverge => rw [e'] at e; cases e
  · rintro ⟨r, v, hr, h⟩
    exact ⟨_, _, fun h' => hr (Recodes.recode_eq_nil hf h'), C58_type hf h⟩

/-- When the characters in the strings of the result stay as they are, so does the result. -/
theorem C58_same {f : Char → Str} (hf : Recoding f) {s : Str} {ds : List Definition} (h : weedleParse s = .ok ds)
    (hs : ∀ w ∈ texts (Val.list (ds.map definitionVal)), ∀ c ∈ w, f c = [c]) : weedleParse (recode f s) = .ok ds := by
  obtain ⟨ds', h1, h2⟩ := C58_document hf h
  rw [Recodes.recode_same hs, Val.list.injEq] at h2
  rw [h1, C48_faithful _ _ h2]

/-- Line feeds may be written as carriage returns and line feeds. -/
theorem C58_crlf : Recoding crlf := Recodes.crlf_recoding

/-- Tabs may be written as spaces. -/
theorem C58_tabs (n : Nat) : Recoding (expandTabs n) := Recodes.tabs_recoding n

/-- UTF-8 may be read as Latin-1. -/
theorem C58_mojibake : Recoding mojibake := Recodes.mojibake_recoding

example : recode crlf c!"// é\nenum a {\n\"b\nc\"\n};" = c!"// é\r\nenum a {\r\n\"b\r\nc\"\r\n};" := by decide +kernel

example : weedleParse c!"// é\nenum a {\n\"b\nc\"\n};" = .ok [.enum none c!"a" [c!"b\nc"]] ∧
    weedleParse (recode crlf c!"// é\nenum a {\n\"b\nc\"\n};") = .ok [.enum none c!"a" [c!"b\r\nc"]] := by
  refine ⟨rfl, ?_⟩
  obtain ⟨ds', h1, h2⟩ := C58_document C58_crlf (s := c!"// é\nenum a {\n\"b\nc\"\n};") (ds := [.enum none c!"a" [c!"b\nc"]]) rfl
  rw [h1, C48_faithful ds' [.enum none c!"a" [c!"b\r\nc"]] (Val.list.inj (h2.trans rfl))]

example : weedleParse (recode mojibake c!"enum é {};") = .panic := (C58_panic C58_mojibake _).2 rfl

example : weedleParse (recode (expandTabs 3) c!"\tinterface\ta { };\n") =
    .ok [.interface none c!"a" none []] :=
  C58_same (C58_tabs 3) rfl (by decide +kernel)

/-- Carriage returns alone are not line ends: a comment that ends in one swallows what follows. -/
theorem C58_lone_cr :
    weedleParse c!"// a\ninterface b { };" = .ok [.interface none c!"b" none []] ∧
    weedleParse c!"// a\rinterface b { };" = .panic := ⟨rfl, rfl⟩

end Verif.Properties
