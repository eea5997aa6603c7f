import Verif.EnTn.Bits

/-
The taggers of the English normalizer write tokens that quote the input.
-/

namespace Verif.EnTn

open Verif.Wfst
open Verif.Wfst.Spec (Quoted)
open Verif.Token.Spec (esc Tok Value Fields Block Stream Spaces IsName Distinct)
open Spec (White Between markers QuotesOf Clear)

/-- Splits a tagger into its paths and collects the field names. -/
macro "body" : tactic => `(tactic| repeat' first
  | with_reducible exact body_tagField (by decide) | with_reducible exact body_isp
  | with_reducible exact body_deleteSpace | with_reducible exact body_extraSpace
  | with_reducible exact body_dsq | with_reducible exact body_lit_space
  | with_reducible exact body_del (by decide)
  | with_reducible exact body_crossS (by decide) (by simp [Spaces])
  | assumption
  | with_reducible apply body_ques | with_reducible apply body_wt | with_reducible apply body_pri
  | with_reducible apply body_comp (by decide +kernel)
  | with_reducible apply body_add | with_reducible apply body_or)

/-! ### The rules -/

theorem body_minus : Body minusField [[], [t!"negative"]] := by
  unfold minusField; exact body_ques (body_add (body_tagField (by decide)) body_isp)

/-- Field names of a grammar and their check. -/
def Names (g : G) : Prop := ∃ N, Body g N ∧ N.all (fun l => decide l.Nodup) = true

theorem Names.of {g : G} {N} (h : Body g N) (hN : N.all (fun l => decide l.Nodup) = true) : Names g := ⟨N, h, hN⟩

theorem names_cardinal : Names (minusField + tagField t!"integer" finalGraph) :=
  .of (by have := body_minus; body) (by decide +kernel)

/-- The field names of decimals. -/
def decimalNames : List (List Str) :=
  [[t!"integer_part"], [t!"fractional_part"], [t!"integer_part", t!"fractional_part"],
   [t!"integer_part", t!"quantity"], [t!"fractional_part", t!"quantity"],
   [t!"integer_part", t!"fractional_part", t!"quantity"]]

theorem Body.mono {g : G} {A B} (h : Body g A) (hs : A.all (fun l => B.contains l) = true) : Body g B := by
  intro x t w hd
  obtain ⟨fs, vs, h1, h2, h3⟩ := h _ _ _ hd
  exact ⟨fs, vs, h1, by simpa using List.all_eq_true.1 hs _ h2, h3⟩

theorem body_decimalPlain : Body decimalPlain decimalNames :=
  Body.mono (by unfold decimalPlain; body) (by decide +kernel)

theorem body_decimal (abbr : Bool) : Body (decimalPlain ||| getQuantity decimalPlain abbr) decimalNames :=
  Body.mono (by
    unfold getQuantity decimalPlain
    body) (by decide +kernel)

theorem body_decimalNoSign : Body decimalNoSign decimalNames := body_decimal false
theorem body_decimalAbbr : Body decimalAbbr decimalNames := body_decimal true

theorem names_decimal : Names (minusField + decimalNoSign) :=
  .of (by have := body_minus; have := body_decimalNoSign; body) (by decide +kernel)

/-- The field names of fractions. -/
def fractionNames : List (List Str) :=
  [[t!"numerator", t!"denominator"], [t!"integer_part", t!"numerator", t!"denominator"], [t!"value"],
   [t!"integer_part", t!"value"]]

theorem body_fraction : Body fractionG fractionNames :=
  Body.mono (by unfold fractionG; body) (by decide +kernel)

theorem body_graphYear (e : Env) : Body (graphYear e) [[t!"year"]] :=
  Body.mono (by unfold graphYear; body) (by decide +kernel)

/-- The year after a month, a day and a hyphen is quoted with a space for the hyphen. -/
theorem body_dashYear (e : Env) : Body (.comp (crossS t!"-" t!" " + VSIGMA) (graphYear e)) [[t!"year"]] := by
  rintro x t w ⟨m, w₁, w₂, ⟨x₁, y₁, _, x₂, y₂, _, h1, h2, rfl, rfl, _⟩, h3, _⟩
  obtain ⟨rfl, rfl, _⟩ := den_crossS.1 h1
  obtain ⟨rfl, _, _⟩ := den_VSIGMA.1 h2
  obtain ⟨t', rfl, h4⟩ := den_insert_add.1 h3
  obtain ⟨rfl, _, _⟩ := den_tagField.1 h4
  refine ⟨[(t!"year", ' ' :: y₂)], [y₂], ?_, by simp, .year .nil, ?_⟩
  · have := Bits.field (sp := [' ']) (k := t!"year") (rest := []) (by simp [Spaces]) (by decide)
      (value_esc (' ' :: y₂)) (.done (by simp [Spaces]))
    simpa using this
  · have := Quoted.next (sep := Gap) (s := ['-']) (v := y₂) (x := []) (by decide) (.done gap_nil)
    simpa using this

theorem names_date (e : Env) : Names (dateStructured e) :=
  .of (by
    have := body_graphYear e
    have := body_dashYear e
    unfold dateStructured mdy dmy ymd forSeps lightYear year day month monthNum
    body) (by decide +kernel)

theorem names_time : Names timeStructured :=
  .of (by
    unfold timeStructured timeHm timeH timeHm2 timeHms zoneOpt suffixOpt suffixF hours minutes
    body) (by decide +kernel)

/-- Spelled-out units: the first field is a marker, the second one quotes the text. -/
theorem body_unitOnly :
    Body (Wfst.insert t!"integer: \"-\" units: \"" + .proj unitOnly + Wfst.insert t!"\"") [[t!"integer", t!"units"]] := by
  intro x t w h
  obtain ⟨_, rfl, h'⟩ := den_add_insert.1 h
  obtain ⟨t, rfl, rfl, z, hz⟩ := den_insert_add.1 h'
  have h1 := avoids_den (c := '"') (by decide +kernel) hz
  have h2 := avoids_den (c := '\\') (by decide +kernel) hz
  refine ⟨[(t!"integer", t!"-"), (t!"units", t)], [t], ?_, by simp, .skip (by decide) (.take .nil), ?_⟩
  · have := Bits.field (sp := []) (k := t!"integer") (by simp [Spaces]) (by decide) (value_esc t!"-")
      (Bits.field (sp := [' ']) (k := t!"units") (rest := []) (by simp [Spaces]) (by decide)
        (value_plain (v := t) fun c hc => ⟨by rintro rfl; exact h1 hc, by rintro rfl; exact h2 hc⟩)
        (.done (by simp [Spaces])))
    simpa [esc] using this
  · have := Quoted.next (sep := Gap) (s := []) (v := t) (x := []) gap_nil (.done gap_nil)
    simpa using this

/-- A marker. -/
theorem body_marker {k v s : Str} (hm : (k, v) ∈ markers) (hk : IsName k) (hs : s = k ++ t!": \"" ++ esc v ++ t!"\" ") :
    Body (Wfst.insert s) [[k]] := by
  intro x t w h
  obtain ⟨rfl, rfl, _⟩ := den_insert.1 h
  subst hs
  refine ⟨[(k, v)], [], ?_, by simp, .skip hm .nil, .done gap_nil⟩
  have := Bits.field (sp := []) (rest := [' ']) (by simp [Spaces]) hk (value_esc v) (.done (by simp [Spaces]))
  simpa using this

theorem body_addressMark : Body (Wfst.insert t!"units: \"address\" ") [[t!"units"]] :=
  body_marker (k := t!"units") (v := t!"address") (by decide) (by decide) (by decide)

theorem body_mathMark : Body (Wfst.insert t!"units: \"math\" ") [[t!"units"]] :=
  body_marker (k := t!"units") (v := t!"math") (by decide) (by decide) (by decide)

theorem names_measure : Names measureTagger :=
  .of (by
    have := body_minus
    have := body_decimalNoSign
    have := body_fraction
    have := body_unitOnly
    have := body_addressMark
    have := body_mathMark
    unfold measureTagger unitPluralF
    body) (by decide +kernel)

theorem names_money : Names
    ((moneyInteger + (del t!"." + isp + tagField t!"fractional_part" zeroFraction).ques) ||| moneyDecimal) :=
  .of (by
    have := body_decimalAbbr
    unfold moneyInteger moneyDecimal
    body) (by decide +kernel)

theorem names_telephone : Names telephoneTagger :=
  .of (by unfold telephoneTagger phone numberPart extensionOpt countryCodeF; body) (by decide +kernel)

theorem names_electronic : Names electronicTagger :=
  .of (by unfold electronicTagger protocolF; body) (by decide +kernel)

theorem names_one {n : Str} {g : G} (hn : IsName n) : Names (tagField n g) :=
  .of (body_tagField hn) (by simp)

/-! ### Streams of tokens -/

/-- `t` is a stream of tokens that quote `x`. -/
def Says (x t : Str) : Prop :=
  ∃ (ks : List Tok) (vs : List Str), Stream t ks ∧ (∀ k ∈ ks, Distinct k) ∧
    QuotesOf (ks.flatMap Tok.fields) vs ∧ Quoted Gap vs x

theorem stream_append {s t : Str} {ks ls : List Tok} (h : Stream s ks) (h' : Stream t ls) :
    Stream (s ++ t) (ks ++ ls) := by
  induction h with
  | done hs =>
    cases h' with
    | done hs' => exact .done (spaces_append hs hs')
    | block hs' hb hr => rw [← List.append_assoc]; exact .block (spaces_append hs hs') hb hr
  | block hs hb _ ih =>
    rw [List.append_assoc, List.append_assoc]
    exact .block hs hb ih

theorem Says.append {x t x' t' : Str} (h : Says x t) (h' : Says x' t') : Says (x ++ x') (t ++ t') := by
  obtain ⟨ks, vs, h11, h12, h13, h14⟩ := h
  obtain ⟨ls, us, h21, h22, h23, h24⟩ := h'
  refine ⟨ks ++ ls, vs ++ us, stream_append h11 h21, ?_, ?_, quoted_append h14 h24⟩
  · intro k hk
    rcases List.mem_append.1 hk with hk | hk
    · exact h12 k hk
    · exact h22 k hk
  · rw [List.flatMap_append]; exact h13.append h23

theorem says_gap {s t : Str} (hs : Gap s) (ht : Spaces t) : Says s t :=
  ⟨[], [], .done ht, by simp, .nil, .done hs⟩

theorem clear_left {x y : Str} (h : Clear (x ++ y)) : Clear x := by
  rintro ⟨u, v, w, rfl, h1⟩
  exact h ⟨u, v, w ++ y, by simp, h1⟩

theorem clear_right {x y : Str} (h : Clear (x ++ y)) : Clear y := by
  rintro ⟨u, v, w, rfl, h1⟩
  exact h ⟨x ++ u, v, w, by simp, h1⟩

/-- The outputs are streams of tokens that quote the input. -/
def Streams (g : G) : Prop := ∀ x t w, g.den x t w → Clear x → Says x t

theorem Streams.add {a b : G} (ha : Streams a) (hb : Streams b) : Streams (a + b) := by
  rintro x t w ⟨x₁, y₁, w₁, x₂, y₂, w₂, h1, h2, rfl, rfl, rfl⟩ hc
  exact (ha _ _ _ h1 (clear_left hc)).append (hb _ _ _ h2 (clear_right hc))

theorem Streams.or {a b : G} (ha : Streams a) (hb : Streams b) : Streams (a ||| b) := by
  rintro x t w (h | h) hc
  · exact ha _ _ _ h hc
  · exact hb _ _ _ h hc

theorem says_nil : Says [] [] := says_gap gap_nil (by simp [Spaces])

theorem Streams.star {a : G} (ha : Streams a) : Streams (.star a) := by
  intro x t w h
  have h : Star a.den x t w := h
  clear * - ha h
  induction h with
  | nil => exact fun _ => says_nil
  | cons h1 _ ih => exact fun hc => (ha _ _ _ h1 (clear_left hc)).append (ih (clear_right hc))

theorem Streams.wt {a : G} {k : W} (ha : Streams a) : Streams (.wt a k) := by
  rintro x t w ⟨w₀, h, _⟩
  exact ha _ _ _ h

theorem streams_deleteSpace : Streams DELETE_SPACE := by
  intro x t w h _
  obtain ⟨fs, vs, h1, h2, h3, h4⟩ := body_deleteSpace x t w h
  cases fs with
  | cons => simp at h2
  | nil =>
    cases h3
    cases h4 with
    | done hs => cases h1 with
      | done ht => exact says_gap hs ht

theorem streams_oneSpace : Streams (delete (.cls isSpace)) := by
  rintro x t w ⟨rfl, c, hc, rfl, _⟩ _
  exact says_gap (gap_white (white_of hc)) (by simp [Spaces])

theorem says_token {n : Str} {x b : Str} {fs : List (Str × Str)} {vs : List Str} (hn : IsName n) (h1 : Bits b fs)
    (h2 : (fs.map Prod.fst).Nodup) (h3 : QuotesOf fs vs) (h4 : Quoted Gap vs x) :
    Says x (n ++ t!" { " ++ b ++ t!" } ") := by
  refine ⟨[⟨n, fs⟩], vs, ?_, by simpa [Distinct] using h2, by simpa using h3, h4⟩
  have := Stream.block (sp := []) (rest := [' ']) (by simp [Spaces]) (Block.mk hn h1.fields) (.done (by simp [Spaces]))
  simpa using this

theorem streams_addTokens {n : Str} {g : G} (hn : IsName n) (hg : Names g) : Streams (addTokens n g) := by
  obtain ⟨N, hb, hN⟩ := hg
  intro x t w h _
  obtain ⟨b, rfl, h1⟩ := den_addTokens.1 h
  obtain ⟨fs, vs, h2, h3, h4, h5⟩ := hb _ _ _ h1
  exact says_token hn h2 (of_decide_eq_true (List.all_eq_true.1 hN _ h3)) h4 h5

/-! ### Words and punctuation -/

theorem star_cls {p : Char → Bool} {x y : Str} {w : W} (h : Star (G.cls p).den x y w) :
    y = x ∧ ∀ c ∈ x, p c = true := by
  induction h with
  | nil => simp
  | cons h1 _ ih =>
    obtain ⟨c, hc, rfl, rfl, _⟩ := h1
    obtain ⟨rfl, h2⟩ := ih
    exact ⟨rfl, by simpa [hc] using h2⟩

theorem plus_cls {p : Char → Bool} {x y : Str} {w : W} (h : (G.cls p).plus.den x y w) :
    y = x ∧ x ≠ [] ∧ ∀ c ∈ x, p c = true := by
  obtain ⟨x₁, y₁, w₁, x₂, y₂, w₂, h1, h2, rfl, rfl, rfl⟩ := h
  have := star_cls (Star.cons (R := (G.cls p).den) h1 h2)
  obtain ⟨c, _, rfl, _, _⟩ := h1
  exact ⟨this.1, by simp, this.2⟩

theorem wordChar_plain {e : Env} {c : Char} (h : wordChar e c = true) : c ≠ '"' ∧ c ≠ '\\' := by
  simp only [wordChar, Bool.and_eq_true, Bool.not_eq_true', Bool.or_eq_false_iff, decide_eq_false_iff_not] at h
  exact ⟨h.1.2.2, h.1.2.1.2⟩

theorem quoted_one (v : Str) : Quoted Gap [v] v := by
  have := Quoted.next (sep := Gap) (s := []) (v := v) (x := []) gap_nil (.done gap_nil)
  simpa using this

theorem names_word (e : Env) : Names (Wfst.insert t!"v: \"" + (G.cls (wordChar e)).plus + Wfst.insert t!"\"") := by
  refine .of (N := [[t!"v"]]) ?_ (by decide)
  intro x t w h
  obtain ⟨_, rfl, h1⟩ := den_add_insert.1 h
  obtain ⟨t, rfl, h2⟩ := den_insert_add.1 h1
  obtain ⟨rfl, _, h3⟩ := plus_cls h2
  refine ⟨[(t!"v", t)], [t], ?_, by simp, .take .nil, quoted_one t⟩
  have := Bits.field (sp := []) (k := t!"v") (rest := []) (by simp [Spaces]) (by decide)
    (value_plain fun c hc => wordChar_plain (h3 c hc)) (.done (by simp [Spaces]))
  simpa using this

theorem punctMark_plain {e : Env} {c : Char} (h : punctMark e c = true) : c ≠ '"' ∧ c ≠ '\\' := by
  simp only [punctMark, Bool.and_eq_true, Bool.or_eq_true] at h
  rcases h.1 with h | h
  · have := h.2
    constructor <;> (rintro rfl; revert this; decide)
  · constructor <;> (rintro rfl; revert h; decide)

theorem value_append {a u b v : Str} (h : Value a u) (h' : Value b v) : Value (a ++ b) (u ++ v) := by
  induction h with
  | nil => exact h'
  | plain h1 h2 _ ih => exact .plain h1 h2 ih
  | escaped h1 _ ih => exact .escaped h1 ih
  | other h1 h2 _ ih => exact .other h1 h2 ih

/-- One punctuation mark. -/
abbrev markG (e : Env) : G := G.cls (punctMark e) ||| crossS ['\\'] ['\\', '\\'] ||| crossS ['"'] ['\\', '"']

theorem den_markG {e : Env} {x y : Str} {w : W} (h : (markG e).den x y w) : ∃ c, x = [c] ∧ y = esc [c] := by
  rcases h with (⟨c, hc, rfl, rfl, _⟩ | h) | h
  · refine ⟨c, rfl, ?_⟩
    have := punctMark_plain hc
    simp [esc, this]
  · obtain ⟨rfl, rfl, _⟩ := den_crossS.1 h
    exact ⟨_, rfl, by simp [esc]⟩
  · obtain ⟨rfl, rfl, _⟩ := den_crossS.1 h
    exact ⟨_, rfl, by simp [esc]⟩

theorem esc_append (a b : Str) : esc (a ++ b) = esc a ++ esc b := by simp [esc]

theorem star_markG {e : Env} {x y : Str} {w : W} (h : Star (markG e).den x y w) : y = esc x := by
  induction h with
  | nil => rfl
  | cons h1 _ ih =>
    obtain ⟨c, rfl, rfl⟩ := den_markG h1
    rw [ih, ← esc_append]

theorem den_punctPlus {e : Env} {x y : Str} {w : W} (h : (punctPlus e).den x y w) : y = esc x := by
  obtain ⟨x₁, y₁, w₁, x₂, y₂, w₂, h1, h2, rfl, rfl, rfl⟩ := h
  exact star_markG (e := e) (Star.cons h1 h2)

theorem notAngle_iff {c : Char} (h : notAngle c = true) : ¬ White c ∧ c ≠ '<' ∧ c ≠ '>' := by
  simp only [notAngle, notSpace, Bool.and_eq_true, Bool.not_eq_true', bne_iff_ne] at h
  refine ⟨fun hw => ?_, h.1.2, h.2⟩
  rw [of_white hw] at h
  cases h.1.1.2

theorem den_emphasis {x y : Str} {w : W} (h : emphasis.den x y w) :
    y = x ∧ ∃ v, x = '<' :: (v ++ ['>']) ∧ ∀ c ∈ v, notAngle c = true := by
  refine ⟨same_den (by decide) h, ?_⟩
  obtain ⟨_, _, _, _, _, _, ⟨_, _, _, x₂, _, _, ⟨rfl, rfl, rfl⟩, h2, rfl, rfl, rfl⟩, ⟨rfl, rfl, rfl⟩, rfl, rfl, rfl⟩ := h
  refine ⟨x₂, by simp, ?_⟩
  have slash : notAngle '/' = true := by decide
  rcases h2 with h2 | h2
  · obtain ⟨x₁, _, _, x₃, _, _, h3, h4, rfl, _, _⟩ := h2
    have := (plus_cls h3).2.2
    rcases h4 with ⟨rfl, _⟩ | ⟨rfl, _⟩
    · simpa using this
    · intro c hc
      rcases List.mem_append.1 hc with hc | hc
      · exact this c hc
      · rw [List.mem_singleton.1 hc]; exact slash
  · obtain ⟨x₁, _, _, x₃, _, _, ⟨rfl, _⟩, h4, rfl, _, _⟩ := h2
    have := (plus_cls h4).2.2
    intro c hc
    rcases List.mem_cons.1 hc with rfl | hc
    · exact slash
    · exact this c hc

theorem value_punct {e : Env} {x y : Str} {w : W} (h : (punctG e).den x y w) (hc : Clear x) : Value y x := by
  rcases h with h | ⟨m, w₁, w₂, ⟨rfl, _⟩, h, _⟩
  · obtain ⟨rfl, v, rfl, hv⟩ := den_emphasis h
    refine value_plain ?_
    have key : ∀ c ∈ v, ¬ (c = '"' ∨ c = '\\') := by
      intro c hcv hq
      exact hc ⟨[], v, [], by simp, fun d hd => notAngle_iff (hv d hd), c, hcv, hq⟩
    intro c hcx
    simp only [List.mem_cons, List.mem_append, List.not_mem_nil, or_false] at hcx
    rcases hcx with rfl | hcx | rfl
    · decide
    · exact ⟨fun h => key c hcx (.inl h), fun h => key c hcx (.inr h)⟩
    · decide
  · rw [den_punctPlus h]; exact value_esc _

theorem star_lightSpaces {x y : Str} {w : W} (h : lightSpaces.den x y w) : y = x ∧ Spaces x := by
  have h : Star (G.wt (.lit t!" ") (-100000)).den x y w := h
  clear * - h
  induction h with
  | nil => exact ⟨rfl, by simp [Spaces]⟩
  | cons h1 _ ih =>
    obtain ⟨_, ⟨rfl, rfl, _⟩, _⟩ := h1
    obtain ⟨rfl, h2⟩ := ih
    exact ⟨rfl, spaces_append (by simp [Spaces]) h2⟩

theorem value_spaces {s : Str} (h : Spaces s) : Value s s :=
  value_plain fun c hc => by rw [h c hc]; decide

theorem streams_punctuation (e : Env) : Streams (punctuationRule e).tagger := by
  intro x t w h hc
  obtain ⟨b, rfl, h1⟩ := den_addTokens.1 h
  obtain ⟨_, rfl, x₁, y₁, w₁, x₂, y₂, w₂, ⟨x₃, y₃, w₃, x₄, y₄, w₄, h3, h4, rfl, rfl, rfl⟩, h2, rfl, rfl, rfl⟩ :=
    den_add_insert.1 h1
  obtain ⟨t₃, rfl, h5⟩ := den_insert_add.1 h3
  obtain ⟨rfl, hs1⟩ := star_lightSpaces h5
  obtain ⟨rfl, hs2⟩ := star_lightSpaces h2
  have hv : Value y₄ x₄ := by
    have hc' := clear_right (clear_left hc)
    rcases h4 with h4 | ⟨_, ⟨m, _, _, h6, h7, _⟩, _⟩
    · exact value_punct h4 hc'
    · rw [same_den (by decide) h6] at h7
      exact value_punct h7 hc'
  have hval := value_append (value_append (value_spaces hs1) hv) (value_spaces hs2)
  refine says_token (fs := [(t!"v", t₃ ++ x₄ ++ y₂)]) (by decide) ?_ (by simp) (.take .nil) (quoted_one _)
  have := Bits.field (sp := []) (k := t!"v") (rest := []) (by simp [Spaces]) (by decide) hval
    (.done (by simp [Spaces]))
  simpa using this

/-! ### The whole tagger -/

/-- The union of the taggers. -/
def classify (e : Env) : G := (taggerUnion (rules e)).getD (.lit [])
/-- The union of the verbalizers. -/
def verbalizerU (e : Env) : G := (verbalizerUnion (rules e)).getD (.lit [])

theorem taggerUnion_eq (e : Env) : taggerUnion (rules e) = some (classify e) := rfl
theorem verbalizerUnion_eq (e : Env) : verbalizerUnion (rules e) = some (verbalizerU e) := rfl
theorem tagger_eq (e : Env) : tagger e = some (taggerOf e (classify e)) := rfl
theorem verbalizer_eq (e : Env) : verbalizer e = some (verbalizerOf e (verbalizerU e)) := rfl

theorem streams_rule (e : Env) : ∀ s ∈ rules e, Streams s.rule.tagger := by
  intro s hs
  simp only [rules, List.mem_cons, List.not_mem_nil, or_false] at hs
  rcases hs with rfl | rfl | rfl | rfl | rfl | rfl | rfl | rfl | rfl | rfl | rfl | rfl | rfl | rfl
  · exact streams_addTokens (by decide) names_cardinal
  · exact streams_addTokens (by decide) (names_one (by decide))
  · exact streams_addTokens (by decide) (names_word e)
  · exact streams_addTokens (by decide) (names_date e)
  · exact streams_addTokens (by decide) names_decimal
  · exact streams_addTokens (by decide) (.of body_fraction (by decide))
  · exact streams_addTokens (by decide) names_time
  · exact streams_addTokens (by decide) names_measure
  · exact streams_addTokens (by decide) names_money
  · exact streams_addTokens (by decide) names_telephone
  · exact streams_addTokens (by decide) names_electronic
  · exact streams_addTokens (by decide) (names_one (by decide))
  · exact streams_addTokens (by decide) (names_one (by decide))
  · exact streams_addTokens (by decide) (names_one (by decide))

theorem streams_classify (e : Env) : Streams (classify e) := by
  intro x t w hd hc
  obtain ⟨s, hmem, k, w₀, hk, h0, _⟩ := ((tagger_union (rules e)).2 _ (taggerUnion_eq e) x t w).1 hd
  exact streams_rule e s hmem x t w₀ h0 hc

theorem streams_token (e : Env) : Streams (token e (classify e)) :=
  ((streams_punctuation e).wt.star.add (streams_classify e)).add (streams_punctuation e).wt.star

theorem streams_inner (e : Env) : Streams
    ((DELETE_SPACE + token e (classify e) + .star (separator e + token e (classify e)) + DELETE_SPACE) ||| punct e) :=
  (((streams_deleteSpace.add (streams_token e)).add
    ((streams_oneSpace.or (streams_punctuation e).wt).add (streams_token e)).star).add streams_deleteSpace).or
      (streams_punctuation e).wt

theorem stream_dropFinal {t : Str} {ks : List Tok} (h : Stream t ks) : Stream (dropFinalSpace t) ks := by
  unfold dropFinalSpace
  split
  case isFalse => exact h
  case isTrue hl =>
    obtain ⟨t', rfl⟩ : ∃ t', t = t' ++ [' '] := by
      have hne : t ≠ [] := by rintro rfl; cases hl
      refine ⟨t.dropLast, ?_⟩
      have := List.dropLast_append_getLast hne
      rw [List.getLast?_eq_some_getLast hne] at hl
      rw [← Option.some.inj hl]
      exact this.symm
    rw [List.dropLast_concat]
    clear hl
    generalize hu : t' ++ [' '] = u at h
    induction h generalizing t' with
    | done hs => subst hu; exact .done fun c hc => hs c (List.mem_append_left _ hc)
    | @block sp b k rest ks hs hb hr ih =>
      rcases List.eq_nil_or_concat rest with rfl | ⟨r, c, rfl⟩
      · exfalso
        have hlast : ∀ {b : Str} {fs : List (Str × Str)}, Fields b fs → ∃ r, b = r ++ ['}'] := by
          intro b fs h
          induction h with
          | @close sp _ => exact ⟨sp, rfl⟩
          | @field sp k w v rest fs _ _ _ _ ih =>
            obtain ⟨r, rfl⟩ := ih
            exact ⟨sp ++ (k ++ ([':', ' ', '"'] ++ (w ++ ('"' :: r)))), by simp⟩
        cases hb with
        | @mk n body fs _ hf =>
          obtain ⟨r, rfl⟩ := hlast hf
          have e1 : t' ++ [' '] = (sp ++ (n ++ ([' ', '{', ' '] ++ r))) ++ ['}'] := by simpa using hu
          have := (List.append_inj' e1 rfl).2
          revert this; decide
      · have e1 : t' ++ [' '] = (sp ++ (b ++ r)) ++ [c] := by simpa using hu
        have e2 := List.append_inj' e1 rfl
        rw [e2.1]
        have hc : c = ' ' := by simpa using e2.2.symm
        exact .block hs hb (ih r (by rw [hc]; simp))

theorem says_tagger {e : Env} {x t : Str} {w : W} (h : (taggerOf e (classify e)).den x t w) (hc : Clear x) :
    Says x t := by
  obtain ⟨m, w₁, w₂, h1, h2, _⟩ := h
  obtain ⟨_, rfl, _⟩ := den_dropFinal.1 h2
  obtain ⟨ks, vs, g1, g2, g3, g4⟩ := streams_inner e x m w₁ h1 hc
  exact ⟨ks, vs, stream_dropFinal g1, g2, g3, g4⟩

end Verif.EnTn
