import Verif.Wfst.Pipeline
import Verif.JaTn.Post

/-
The taggers of the Japanese normalizer write tokens that quote the input, and its grammars read every
text character by character.
-/

namespace Verif.JaTn

open Verif.Wfst
open Verif.Token.Spec (write writeAll Tok Writable)

/-- The characters that are left out between the fields of a token, half- and full-width. -/
def sepChar (c : Char) : Bool := c ∈ t!" /-.:／－．。："

/-- The characters with a given half-width form. -/
def widths (c : Char) : List Char := c :: (fullToHalf.filter fun e => e.2 = c).map Prod.fst

theorem half_widths {h : Bool} {c d : Char} (e : half h c = d) : c ∈ widths d := by
  unfold half at e
  unfold widths
  split at e
  · cases hl : fullToHalf.lookup c with
    | none => rw [hl] at e; simp at e; simp [e]
    | some d' =>
      rw [hl] at e
      simp only [Option.getD_some] at e
      subst e
      refine List.mem_cons_of_mem _ (List.mem_map.2 ⟨(c, d'), List.mem_filter.2 ⟨?_, by simp⟩, rfl⟩)
      exact (lookup_iff f2h_nodup).2 hl
  · subst e; simp

/-- A separator behind the preprocessor is read in either width. -/
theorem flat_pre_del {h : Bool} {c : Char} : Flat (pre h (del [c])) ((widths c).map fun d => [.skip [d]]) := by
  intro x t w hd
  obtain ⟨_, hd⟩ := den_pre.1 hd
  obtain ⟨hx, rfl, _⟩ := den_del.1 hd
  cases x with
  | nil => simp at hx
  | cons d x =>
    simp only [List.map_cons, List.cons.injEq, List.map_eq_nil_iff] at hx
    obtain ⟨h1, rfl⟩ := hx
    exact ⟨[.skip [d]], List.mem_map.2 ⟨d, half_widths h1, rfl⟩, by simpa using Fills.skip (s := [d]) Fills.nil⟩

theorem flat_pre_or {h : Bool} {a b : G} {A B} (ha : Flat (pre h a) A) (hb : Flat (pre h b) B) :
    Flat (pre h (a ||| b)) (A ++ B) := by
  rintro x t w hd
  obtain ⟨hx, hd | hd⟩ := den_pre.1 hd
  · obtain ⟨p, hp, h⟩ := ha _ _ _ (den_pre.2 ⟨hx, hd⟩)
    exact ⟨p, List.mem_append_left _ hp, h⟩
  · obtain ⟨p, hp, h⟩ := hb _ _ _ (den_pre.2 ⟨hx, hd⟩)
    exact ⟨p, List.mem_append_right _ hp, h⟩

/-- `flat` with separators behind the preprocessor. -/
macro "flatp" : tactic => `(tactic| repeat' first
  | exact flat_tagField | exact flat_char | exact flat_insert | exact flat_del | exact flat_nil
  | exact flat_pre_del | apply flat_pre_or
  | apply flat_addTokens | apply flat_ques | apply flat_wt | apply flat_add | apply flat_or)

theorem tokens_value (n : Str) (graph : G)
    (h : (paths (paths [[.ins (n ++ t!" { ")]] [[.ins (t!"value" ++ t!": \""), .fld, .ins t!"\""]])
      [[.ins t!" } "]]).all (pathOk sepChar) = true) : Tokens sepChar (valueRule n graph).tagger :=
  Flat.tokens (flat_addTokens flat_tagField) h

theorem tokens_cardinal (b : Bool) : Tokens sepChar (cardinalRule b).tagger :=
  tokens_value _ _ (by decide +kernel)

theorem tokens_char : Tokens sepChar charRule.tagger :=
  Flat.tokens (by unfold charRule; flatp) (by decide +kernel)

theorem tokens_range (b : Bool) : Tokens sepChar (rangeRule b).tagger :=
  tokens_value _ _ (by decide +kernel)

theorem tokens_math (b : Bool) : Tokens sepChar (mathRule b).tagger :=
  tokens_value _ _ (by decide +kernel)

theorem tokens_measure (b : Bool) : Tokens sepChar (measureRule b).tagger :=
  tokens_value _ _ (by decide +kernel)

theorem tokens_transliteration (b : Bool) : Tokens sepChar (transliterationRule b).tagger :=
  tokens_value _ _ (by decide +kernel)

theorem tokens_whitelist (b : Bool) : Tokens sepChar (whitelistRule b).tagger :=
  tokens_value _ _ (by decide +kernel)

theorem tokens_date (b : Bool) : Tokens sepChar (dateRule b).tagger := by
  have h : Tokens sepChar (addTokens t!"date" (dateBody b)) :=
    Flat.tokens (by unfold dateBody dateSign; flatp) (by decide +kernel)
  have hs : Tokens sepChar (addTokens t!"date" (simpleDate b)) :=
    Flat.tokens (by unfold simpleDate dateSign; flatp) (by decide +kernel)
  exact TokensBut.or (TokensBut.add_ques h (TokensBut.add (tokens_range b) h))
    (TokensBut.add (TokensBut.add hs (tokens_range b)) hs)

theorem tokens_fraction (b : Bool) : Tokens sepChar (fractionRule b).tagger :=
  Flat.tokens (by unfold fractionRule rmspace; flatp) (by decide +kernel)

theorem tokens_money (b : Bool) : Tokens sepChar (moneyRule b).tagger :=
  Flat.tokens (by unfold moneyRule; flatp) (by decide +kernel)

theorem tokens_sport (b : Bool) : Tokens sepChar (sportRule b).tagger :=
  Flat.tokens (by unfold sportRule; flatp) (by decide +kernel)

theorem tokens_time (b : Bool) : Tokens sepChar (timeRule b).tagger := by
  have h : Tokens sepChar (addTokens t!"time" (timeBody b)) :=
    Flat.tokens (by unfold timeBody colon; flatp) (by decide +kernel)
  exact TokensBut.add_ques h (TokensBut.add (tokens_range b) h)

/-- The union of the taggers. -/
def taggerU (c : Config) : G := (taggerUnion (rules c)).getD (.lit [])
/-- The union of the verbalizers. -/
def verbalizerU (c : Config) : G := (verbalizerUnion (rules c)).getD (.lit [])

theorem taggerUnion_eq (c : Config) : taggerUnion (rules c) = some (taggerU c) := by
  obtain ⟨b0, b1, b2, b3, b4⟩ := c
  cases b0 <;> rfl
theorem verbalizerUnion_eq (c : Config) : verbalizerUnion (rules c) = some (verbalizerU c) := by
  obtain ⟨b0, b1, b2, b3, b4⟩ := c
  cases b0 <;> rfl

theorem tagger_eq (c : Config) : tagger c = some (stream (taggerU c)) := by
  rw [tagger, taggerUnion_eq]; rfl
theorem verbalizer_eq (c : Config) :
    verbalizer c = some (.star (.comp (verbalizerU c) (postprocessor c))) := by
  rw [verbalizer, verbalizerUnion_eq]; rfl

theorem mem_rules {c : Config} {s : RuleSpec} (hs : s ∈ rules c) :
    s ∈ rules { c with transliterate := false } ∨ s = ⟨transliterationRule c.fullToHalf, some 104000, true⟩ := by
  simp only [rules] at hs ⊢
  rcases List.mem_append.1 hs with h | h
  · left; exact List.mem_append_left _ h
  · right
    split at h
    · exact List.mem_singleton.1 h
    · cases h

theorem tokens_tagger (c : Config) : Tokens sepChar (taggerU c) := by
  refine tokens_union (taggerUnion_eq c) ?_
  intro s hs hk
  rcases mem_rules hs with hs | rfl
  · simp only [rules, List.mem_append, List.mem_cons, List.not_mem_nil, or_false, Bool.false_eq_true,
      if_false] at hs
    rcases hs with rfl | rfl | rfl | rfl | rfl | rfl | rfl | rfl | rfl | rfl | rfl
    · exact tokens_cardinal _
    · exact tokens_char
    · exact tokens_date _
    · exact tokens_fraction _
    · exact tokens_math _
    · exact tokens_measure _
    · exact tokens_money _
    · exact tokens_sport _
    · exact tokens_time _
    · exact tokens_whitelist _
    · cases hk
  · exact tokens_transliteration _

theorem tagger_ok (c : Config) : (stream (taggerU c)).ok = true := by
  obtain ⟨b0, b1, b2, b3, b4⟩ := c
  revert b0 b1 b2 b3 b4
  decide +kernel

theorem verbalizerU_ok (c : Config) : (verbalizerU c).ok = true ∧ (verbalizerU c).nullable = false := by
  obtain ⟨b0, b1, b2, b3, b4⟩ := c
  revert b0 b1 b2 b3 b4
  decide +kernel

theorem postprocessor_ok (c : Config) : (postprocessor c).ok = true := by
  unfold postprocessor
  exact ok_whenDo (ok_whenDo (ok_whenDo (ok_whenDo rfl rfl) rfl) rfl) rfl

theorem verbalizer_ok (c : Config) : (G.star (.comp (verbalizerU c) (postprocessor c))).ok = true := by
  obtain ⟨h1, h2⟩ := verbalizerU_ok c
  simp only [G.ok, G.nullable, h1, h2, postprocessor_ok, Bool.false_and]; rfl

theorem fallback (c : Config) : Fallback tokenOrders (taggerU c)
    (.comp (verbalizerU c) (postprocessor c)) where
  noOrder := by decide +kernel
  tag d hd := ⟨_, tag_union (taggerUnion_eq c) (s := ⟨charRule, some 10000000, true⟩)
    (by simp [rules]) rfl (char_tagger hd)⟩
  verb d sp hd hsp := by
    refine ⟨_, _, [d], 0, 0, verb_union (verbalizerUnion_eq c) (s := ⟨charRule, some 10000000, true⟩)
      (by simp [rules]) rfl (char_verbalizer hd hsp), (maps_postprocessor c [d] _ _).2 ⟨?_, rfl, rfl⟩, rfl⟩
    intro e he
    rw [List.mem_singleton.1 he]; exact hd

end Verif.JaTn
