import Verif.Proof.RelaxedDef

/-! # Documents of the grammar with additional alternatives are accepted -/

namespace Verif.WebIDL
open Nom Spec Spec.WebIDL

/-- An additional alternative has the meaning of its nonterminal. -/
def ClosedAlt (p : NonTerminal × Alt) : Prop := ∀ ls, cat (p.2.map S) ls → M p.1 ls

theorem recordKey_mk {k : List Str} {t : NonAnyType} (h : nonAnyType t k) (hk : Hk k) : Ex recordKeyType k := by
  refine ⟨.nonAny t, h, fun p hp hpre => ?_⟩
  obtain ⟨w, r, rfl, hw⟩ := hk
  simp only [List.mem_cons, List.not_mem_nil, or_false, not_or] at hw hp
  rcases hp with rfl | rfl | rfl
  · exact hw.1 (by simpa [eq_comm] using hpre)
  · exact hw.2.1 (by simpa [eq_comm] using hpre)
  · exact hw.2.2 (by simpa [eq_comm] using hpre)

theorem nullable_key {a b : List Str} (h : NullableL a) (hk : Hk a) (hb : Ex (fun q => optTok q c!"?") b) :
    Ex recordKeyType (a ++ b) := by
  obtain ⟨q, hb⟩ := hb
  obtain ⟨t, ht⟩ := h.1 q b hb
  exact recordKey_mk ht (hk.append b)

theorem terminal_strings : ∀ w ∈ [c!"ByteString", c!"DOMString", c!"USVString"], Terminal w :=
  terminals_of (Ns := [.StringType]) (by decide +kernel)

theorem keys_closed : ∀ K ∈ keyTypes, ∀ ls, cat (K.map S) ls → Ex recordKeyType ls := by
  have e : keyTypes = [[.n .PrimitiveType, .n .Null], [.identifier, .n .Null],
      [.t c!"sequence", .t c!"<", .n .Generic, .t c!">", .n .Null], [.t c!"object", .n .Null], [.t c!"symbol", .n .Null],
      [.n .BufferRelatedType, .n .Null], [.t c!"FrozenArray", .t c!"<", .n .Generic, .t c!">", .n .Null], [.n .RecordType, .n .Null],
      [.t c!"undefined"], [.n .PromiseType]] := by decide
  rw [e]
  have dist : ∀ rhs ∈ productions .DistinguishableType, ∀ ls, cat (rhs.map S) ls → Hk ls → Ex recordKeyType ls :=
    fun rhs h ls hl hk => by
      obtain ⟨⟨t, ht⟩, -⟩ := closed_all .DistinguishableType rhs h ls hl
      exact recordKey_mk ht hk
  refine alt ?_ (alt ?_ (alt ?_ (alt ?_ (alt ?_ (alt ?_ (alt ?_ (alt ?_ (alt ?_ (alt ?_ done)))))))))
  · rintro _ ⟨a, b, rfl, ha, hb⟩
    exact nullable_key ha.1 ha.2.2 hb
  · intro ls h
    refine dist _ (by decide) ls h ?_
    obtain ⟨a, b, rfl, ⟨w, rfl, -, hw⟩, hb⟩ := h
    exact ⟨w, b, rfl, fun hm => hw (terminal_strings w hm)⟩
  · intro ls h
    refine dist _ (by decide) ls h ?_
    obtain ⟨_, b, rfl, rfl, -⟩ := h
    exact ⟨_, _, rfl, by decide⟩
  · intro ls h
    refine dist _ (by decide) ls h ?_
    obtain ⟨_, b, rfl, rfl, -⟩ := h
    exact ⟨_, _, rfl, by decide⟩
  · intro ls h
    refine dist _ (by decide) ls h ?_
    obtain ⟨_, b, rfl, rfl, -⟩ := h
    exact ⟨_, _, rfl, by decide⟩
  · rintro _ ⟨a, b, rfl, ha, hb⟩
    exact nullable_key ha.1 ha.2 hb
  · intro ls h
    refine dist _ (by decide) ls h ?_
    obtain ⟨_, b, rfl, rfl, -⟩ := h
    exact ⟨_, _, rfl, by decide⟩
  · rintro _ ⟨a, b, rfl, ha, hb⟩
    exact nullable_key ha.1 ha.2 hb
  · rintro ls rfl
    exact dist [.t c!"undefined"] (by decide) _ rfl ⟨_, _, rfl, by decide⟩
  · rintro ls ⟨-, ⟨t, ht⟩, hk⟩
    exact recordKey_mk ht hk

theorem cat_append_inv {As Bs : List Lang} {ls : List Str} (h : cat (As ++ Bs) ls) : ∃ a b, ls = a ++ b ∧ cat As a ∧ cat Bs b := by
  induction As generalizing ls with
  | nil => exact ⟨[], ls, rfl, rfl, h⟩
  | cons A As ih =>
    cases As with
    | nil =>
      cases Bs with
      | nil => exact ⟨ls, [], by simp, h, rfl⟩
      | cons B Bs => exact h
    | cons B As =>
      obtain ⟨a, c, rfl, ha, hc⟩ := h
      obtain ⟨c, d, rfl, hc, hd⟩ := ih hc
      exact ⟨a ++ c, d, by simp, ⟨a, c, rfl, ha, hc⟩, hd⟩

theorem record_closed {K : Alt} (h : K ∈ keyTypes) :
    ClosedAlt (.RecordType, [.t c!"record", .t c!"<"] ++ K ++ [.t c!",", .n .Generic, .t c!">"]) := by
  intro ls hl
  simp only [List.map_append] at hl
  obtain ⟨_, d, rfl, hl, hd⟩ := cat_append_inv hl
  obtain ⟨r, k, rfl, hr, hk⟩ := cat_append_inv hl
  obtain ⟨_, _, rfl, rfl, rfl⟩ := hr
  obtain ⟨_, _, rfl, rfl, v, _, rfl, ⟨⟨V, hv⟩, -⟩, rfl⟩ := hd
  obtain ⟨K, hk⟩ := keys_closed K h k hk
  refine ⟨⟨fun q b hq => ⟨.record K V q, ?_⟩, ⟨c!"record", _, rfl, by decide⟩⟩, ⟨c!"record", _, rfl, by decide⟩⟩
  unfold nonAnyType angles comma
  simp only [seq_assoc, List.append_assoc]
  exact seq_mk rfl (seq_mk rfl (seq_mk hk (seq_mk rfl (seq_mk hv (seq_mk rfl hq)))))

theorem argument_closed : ClosedAlt (.ArgumentRest, [.n .TypeWithExtendedAttributes, .n .ArgumentName]) := by
  rintro _ ⟨_, i, rfl, ⟨-, a, b, rfl, ⟨as', ha⟩, ⟨t, hb⟩, hh⟩, I, hi, hn⟩ as l0 has
  cases as' with
  | none =>
    have ha : a = [] := ha
    subst ha
    refine ⟨.single as false (.mk none t) I none, seq_mk has ⟨rfl, ?_⟩⟩
    rw [List.nil_append]
    refine (hh.hd0 _).avoid (A := namedAttributed (.mk none t) I) (seq_nil rfl (named_mk hb hi hn)) _ ?_
    cases as <;> simp only [Option.isSome, if_true, Bool.false_eq_true, if_false] <;> decide
  | some as' =>
    cases as with
    | none =>
      have has : l0 = [] := has
      subst has
      rw [List.nil_append, List.append_assoc]
      refine ⟨.single (some as') false (.mk none t) I none, seq_mk ha ⟨rfl, ?_⟩⟩
      refine (hh.hd0 _).avoid (A := namedAttributed (.mk none t) I) (seq_nil rfl (named_mk hb hi hn)) _ ?_
      simp only [Option.isSome, if_true]
      decide
    | some as =>
      refine ⟨.single (some as) false (.mk (some as') t) I none, seq_mk has ⟨rfl, ?_, ?_⟩⟩
      · exact namedAttributed_mk (seq_mk ha hb) hi hn
      · simp only [Option.isSome, if_true]
        intro p hp hpre
        obtain rfl := List.mem_singleton.1 hp
        obtain ⟨_, _, rfl, rfl, -⟩ := ha
        simp at hpre

theorem alt' {p : NonTerminal × Alt → Prop} {a : NonTerminal × Alt} {l : List (NonTerminal × Alt)} (h1 : p a) (h2 : ∀ x ∈ l, p x) :
    ∀ x ∈ a :: l, p x := List.forall_mem_cons.2 ⟨h1, h2⟩

theorem extra_closed : ∀ p ∈ extra, ClosedAlt p := by
  intro p hp
  rcases List.mem_append.1 hp with hp' | hp
  · clear hp
    revert p
    refine alt' ?_ <| alt' ?_ <| alt' ?_ <| alt' ?_ <| alt' ?_ <| alt' ?_ <| alt' ?_ <| alt' ?_ <| alt' ?_ <| alt' ?_ <|
      alt' ?_ <| alt' ?_ <| alt' ?_ <| alt' ?_ <| alt' ?_ <| alt' ?_ fun _ h => nomatch h
    · rintro _ ⟨i, _, rfl, hi, _, _, rfl, rfl, j, _, rfl, hj, rfl⟩ as l0 has
      have hp := Idf.avoid hi (terminal_any c!"typedef" (by decide))
      obtain ⟨I, hi⟩ := Idf.name hi
      obtain ⟨J, hj⟩ := Idf.name hj
      refine ⟨.implements as I J, seq_mk has (seq_mk ⟨hi, ?_⟩ (seq_mk rfl (seq_mk hj rfl)))⟩
      simpa using hp
    · rintro _ ⟨_, a, rfl, rfl, ha⟩
      exact ha.2
    · exact fun _ h => h
    · rintro _ ⟨_, a, rfl, rfl, ha⟩
      exact ha.2.1
    · rintro _ ⟨_, a, rfl, rfl, ha⟩
      exact ha.2.2
    · rintro _ ⟨_, _, rfl, rfl, _, a, rfl, rfl, ha⟩
      exact attribute_im (a := [_]) ⟨true, rfl⟩ ha (some .inherit) (c := [_]) rfl
    · rintro _ ⟨a, _, rfl, ha, rfl⟩
      exact ha.2.1 true _ rfl
    · rintro _ ⟨a, _, rfl, ha, rfl⟩
      obtain ⟨i, hi⟩ := Idf.typeName ha (ws := [c!"long", c!"short", c!"float", c!"double", c!"boolean", c!"byte", c!"octet"])
        (terminals_of (Ns := [.IntegerType, .FloatType, .PrimitiveType]) (by decide +kernel))
      exact ⟨.identifier i true, seq_mk hi rfl⟩
    · rintro _ rfl
      exact ⟨.null, rfl⟩
    · exact argument_closed
    · rintro _ ⟨_, _, rfl, rfl, a, _, rfl, ⟨⟨t, ha⟩, -⟩, i, _, rfl, hi, _, _, rfl, rfl, v, _, rfl, ⟨V, hv⟩, rfl⟩ as l0 has
      obtain ⟨I, hi, hn⟩ := Idf.nm hi
      refine ⟨⟨as, true, t, I, some V⟩, seq_mk has (seq_mk rfl ?_)⟩
      rw [← List.append_assoc a]
      refine seq_mk (named_mk ha hi hn) ?_
      rw [← List.append_assoc]
      exact seq_mk (seq_mk rfl hv) rfl
    · rintro _ ⟨_, _, rfl, rfl, rfl⟩
      exact ⟨[], seq_mk rfl (seq_nil rfl rfl)⟩
    · rintro _ ⟨_, _, rfl, rfl, a, _, rfl, ⟨A, ha⟩, rfl⟩
      exact ⟨[A], seq_mk rfl (seq_mk ha rfl)⟩
    · rintro _ ⟨a, b, rfl, ⟨as, ha⟩, -, ⟨t, hb⟩, -⟩
      exact ⟨.single as t, seq_mk ha hb⟩
    · rintro _ ⟨_, _, rfl, rfl, rfl⟩
      exact ⟨some [], seq_mk rfl (seq_nil rfl rfl)⟩
    · rintro _ ⟨i, _, rfl, hi, _, _, rfl, rfl, _, _, rfl, rfl, rfl⟩
      obtain ⟨I, hi⟩ := Idf.name hi
      exact ⟨.identList I [], seq_mk hi (seq_mk rfl (seq_mk rfl (seq_nil rfl rfl)))⟩
  · obtain ⟨K, hK, rfl⟩ := List.mem_map.1 hp
    exact record_closed hK

theorem integral_lit {w : Str} (h : Integral w) : Ex integerLit [w] := by
  rcases h with h | h
  · exact integer_lit h
  · have key : ∀ g x, (g = [] ∨ g = ['-']) → (x = 'X' ∨ x = 'x') → Regex.hex.Matches (g ++ ('0' :: [x])) := by
      intro g x hg hx
      refine .seq (sign_matches.2 hg) (.seq (u := ['0']) (Regex.matches_chr.2 rfl) (.seq (u := [x]) (v := []) ?_ .starNil))
      rcases hx with rfl | rfl
      · exact .left (Regex.matches_chr.2 rfl)
      · exact .right (Regex.matches_chr.2 rfl)
    simp only [List.mem_cons, List.not_mem_nil, or_false] at h
    rcases h with rfl | rfl | rfl | rfl
    · exact ⟨.hex _, key [] 'x' (by simp) (by simp), rfl⟩
    · exact ⟨.hex _, key [] 'X' (by simp) (by simp), rfl⟩
    · exact ⟨.hex _, key ['-'] 'x' (by simp) (by simp), rfl⟩
    · exact ⟨.hex _, key ['-'] 'X' (by simp) (by simp), rfl⟩

theorem relaxed_closed {N : NonTerminal} {rhs : Alt} (h : rhs ∈ withExtra extra N) {ls : List Str} (hl : cat (rhs.map S) ls) :
    M N ls := by
  rcases List.mem_append.1 h with h | h
  · exact closed_all N rhs h ls hl
  · obtain ⟨p, hp, rfl⟩ := List.mem_map.1 h
    obtain ⟨hp', he⟩ := List.mem_filter.1 hp
    have he : p.1 = N := by simpa using he
    subst he
    exact extra_closed p hp' ls hl

mutual

theorem relaxed_M : ∀ {N : NonTerminal} {ls : List Str}, DerivesIn relaxed N ls → M N ls
  | _, _, .mk h hs => relaxed_closed h (relaxedAll_M hs)

theorem relaxedAll_M : ∀ {rhs : Alt} {ls : List Str}, DerivesAllIn relaxed rhs ls → cat (rhs.map S) ls
  | _, _, .nil => rfl
  | _, _, .terminal hs => cat_cons (a := [_]) rfl (relaxedAll_M hs)
  | _, _, .nonTerminal h hs => cat_cons (relaxed_M h) (relaxedAll_M hs)
  | _, _, .identifier h hs => cat_cons (A := Idf) ⟨_, rfl, h⟩ (relaxedAll_M hs)
  | _, _, .integer h hs => cat_cons (A := Ex integerLit) (integral_lit h) (relaxedAll_M hs)
  | _, _, .decimal h hs => cat_cons (A := Ex floatLit) ⟨.value _, h, rfl⟩ (relaxedAll_M hs)
  | _, _, .string h hs => cat_cons (A := Ex string) (string_item.1 h) (relaxedAll_M hs)

end

/-- What the relaxed grammar derives are spellings of definitions. -/
theorem relaxed_definitions {ls : List Str} (h : DerivesIn relaxed .Definitions ls) : ∃ ds, definitions ds ls := relaxed_M h

end Verif.WebIDL
