import Verif.EnTn.Ok

/-
Properties C72 and C73 of the English normalizer: taggings are token streams that quote the text, and
texts made of words, numbers and marks are normalized.
-/

namespace Verif.EnTn

open Verif.Wfst
open Verif.Wfst.Spec (Quoted)
open Verif.Token.Spec (esc write writeAll Tok Writable IsName Distinct Stream Spaces Fields Block Value)
open Verif.NBest (Pipeline normalize candidates grammar)
open Spec

/-! ### Something is written -/

theorem brace_addTokens {n : Str} {g : G} {x t : Str} {w : W} (h : (addTokens n g).den x t w) : '{' ∈ t := by
  obtain ⟨b, rfl, _⟩ := den_addTokens.1 h
  simp

theorem brace_classify {e : Env} {x t : Str} {w : W} (h : (classify e).den x t w) : '{' ∈ t := by
  obtain ⟨s, hs, k, w₀, hk, h0, _⟩ := ((tagger_union (rules e)).2 _ (taggerUnion_eq e) x t w).1 h
  simp only [rules, List.mem_cons, List.not_mem_nil, or_false] at hs
  rcases hs with rfl | rfl | rfl | rfl | rfl | rfl | rfl | rfl | rfl | rfl | rfl | rfl | rfl | rfl <;>
    exact brace_addTokens h0

theorem brace_inner {e : Env} {x t : Str} {w : W}
    (h : ((DELETE_SPACE + token e (classify e) + .star (separator e + token e (classify e)) + DELETE_SPACE) |||
      punct e).den x t w) : '{' ∈ t := by
  rcases h with h | ⟨_, h, _⟩
  · obtain ⟨_, _, _, _, _, _, ⟨_, _, _, _, _, _, ⟨_, _, _, _, _, _, _, ⟨_, _, _, _, _, _, ⟨_, _, _, _, _, _, _, h1, _, rfl, _⟩,
      _, _, rfl, _⟩, _, rfl, _⟩, _, _, rfl, _⟩, _, _, rfl, _⟩ := h
    have := brace_classify h1
    simp [this]
  · exact brace_addTokens h

theorem brace_tagger {e : Env} {x t : Str} {w : W} (h : (taggerOf e (classify e)).den x t w) : '{' ∈ t := by
  obtain ⟨m, w₁, w₂, h1, h2, _⟩ := h
  obtain ⟨_, rfl, _⟩ := den_dropFinal.1 h2
  have := brace_inner h1
  unfold dropFinalSpace
  split
  · rename_i hl
    have hne : m ≠ [] := by rintro rfl; cases hl
    rw [← List.dropLast_append_getLast hne] at this
    rcases List.mem_append.1 this with h | h
    · exact h
    · rw [List.getLast?_eq_some_getLast hne] at hl
      rw [Option.some.inj hl] at h
      exact absurd (List.mem_singleton.1 h) (by decide)
  · exact this

theorem brace_stream {t : Str} {ks : List Tok} (hb : '{' ∈ t) (h : Stream t ks) : t ≠ [] ∧ ks ≠ [] := by
  constructor
  · rintro rfl
    cases hb
  · rintro rfl
    cases h with
    | done hs => exact absurd (hs _ hb) (by decide)

/-- **C72.** If no quotation mark or backslash stands inside a pair of angle brackets without white space,
then every tagging of the text is a stream of tokens, the parser reads these tokens from it, and their
values in order are the text with separators left out between them. -/
theorem C72_quotes_partial (e : Env) (g : G) (hg : tagger e = some g) (x t : Str) (w : W) (h : g.den x t w)
    (hc : Clear x) :
    ∃ ks toks vs, Verif.Token.parse t = .ok toks ∧ List.Forall₂ Verif.Token.Denotes toks ks ∧
      QuotesOf (ks.flatMap Tok.fields) vs ∧ Quoted (fun s => ∀ c ∈ s, Between c) vs x := by
  rw [tagger_eq] at hg
  cases hg
  obtain ⟨ks, vs, h1, h2, h3, h4⟩ := says_tagger h hc
  obtain ⟨toks, h5, h6⟩ := (Verif.Token.C03_parse_iff_grammar t ks).2 ⟨(brace_stream (brace_tagger h) h1).1, h1, h2⟩
  exact ⟨ks, toks, vs, h5, h6, h3, h4⟩

/-- The text `<"a>`: a quotation mark inside angle brackets. -/
def quotedAngle : Str := ['<', '"', 'a', '>']

/-- **C72 does not hold of every text**: between angle brackets quotation marks are not escaped, and the text
`<"a>` has a tagging on which the parser fails. -/
theorem C72_angle (e : Env) (g : G) (hg : tagger e = some g) :
    ∃ t w, g.den quotedAngle t w ∧ ∀ toks, Verif.Token.parse t ≠ .ok toks := by
  rw [tagger_eq] at hg
  cases hg
  have hem : emphasis.den quotedAngle quotedAngle 0 := by
    refine ⟨['<', '"', 'a'], ['<', '"', 'a'], 0, ['>'], ['>'], 0, ?_, ⟨rfl, rfl, rfl⟩, rfl, rfl, rfl⟩
    refine ⟨['<'], ['<'], 0, ['"', 'a'], ['"', 'a'], 0, ⟨rfl, rfl, rfl⟩, .inl ?_, rfl, rfl, rfl⟩
    refine ⟨['"', 'a'], ['"', 'a'], 0, [], [], 0, ?_, .inl ⟨rfl, rfl, rfl⟩, rfl, rfl, rfl⟩
    refine ⟨['"'], ['"'], 0, ['a'], ['a'], 0, ⟨'"', rfl, rfl, rfl, rfl⟩, ?_, rfl, rfl, rfl⟩
    exact Star.one (R := (G.cls notAngle).den) ⟨'a', rfl, rfl, rfl, rfl⟩
  have hp : (punct e).den quotedAngle (t!"p { v: \"<\"a>\" } ") (0 + 200000) := by
    refine ⟨0, den_addTokens.2 ⟨t!"v: \"<\"a>\"", rfl, ?_⟩, rfl⟩
    refine den_add_insert.2 ⟨t!"v: \"<\"a>", rfl, ?_⟩
    refine ⟨quotedAngle, t!"v: \"<\"a>", 0, [], [], 0, ?_, Star.nil, rfl, rfl, rfl⟩
    refine ⟨[], t!"v: \"", 0, quotedAngle, quotedAngle, 0, den_insert_add.2 ⟨[], rfl, Star.nil⟩, .inl (.inl hem),
      rfl, rfl, rfl⟩
  refine ⟨t!"p { v: \"<\"a>\" }", _, ⟨_, _, 0, .inr hp, den_dropFinal.2 ⟨by decide, by decide, rfl⟩, rfl⟩, ?_⟩
  have : (Verif.Token.parse t!"p { v: \"<\"a>\" }").toOption = none := by decide +kernel
  intro toks h
  rw [h] at this
  cases this

/-! ### Tagging by words, numbers, symbols and punctuation marks -/

/-- A token with one field. -/
def oneTok (n k v : Str) : Tok := ⟨n, [(k, v)]⟩

theorem oneTok_writable {n k v : Str} (hn : IsName n) (hk : IsName k) : Writable (oneTok n k v) :=
  ⟨hn, (by intro f hf; rw [List.mem_singleton.1 hf]; exact hk), by simp [oneTok, Distinct]⟩

/-- The token can be verbalized alone and is not reordered. -/
structure Plain (e : Env) (k : Tok) : Prop where
  writable : Writable k
  noOrder : tokenOrders k.name = none
  text : VText (write k)
  verb : ∀ sp, (sp = [] ∨ sp = [' ']) → ∃ y w, VText y ∧
    ((verbalizerU e).den (write k ++ sp) y w ∨ (punctuationRule e).verbalizer.den (write k ++ sp) y w)

theorem vtext_append {a b : Str} (ha : VText a) (hb : VText b) : VText (a ++ b) := by
  intro c hc
  rcases List.mem_append.1 hc with hc | hc
  · exact ha c hc
  · exact hb c hc

theorem vtext_esc {v : Str} (h : VText v) : VText (esc v) := by
  intro c hc
  obtain ⟨d, hd, h1⟩ := List.mem_flatMap.1 hc
  split at h1
  · simp only [List.mem_cons, List.not_mem_nil, or_false] at h1
    rcases h1 with rfl | rfl
    · decide
    · exact h c hd
  · rw [List.mem_singleton.1 h1]; exact h d hd

theorem vtext_oneTok {n k v : Str} (hn : VText n) (hk : VText k) (hv : VText v) : VText (write (oneTok n k v)) := by
  have : write (oneTok n k v) = n ++ (t!" { " ++ (k ++ (t!": \"" ++ (esc v ++ t!"\" }")))) := by
    simp [write, oneTok]
  rw [this]
  exact vtext_append hn (vtext_append (by decide) (vtext_append hk (vtext_append (by decide)
    (vtext_append (vtext_esc hv) (by decide)))))

/-- The grammar has a tagging of the text that can be verbalized. -/
def Plainly (e : Env) (g : G) (x : Str) : Prop :=
  ∃ t w ks, g.den x t w ∧ Stream t ks ∧ (∀ k ∈ ks, Plain e k) ∧ VText t

theorem Plainly.add {e : Env} {a b : G} {x y : Str} (ha : Plainly e a x) (hb : Plainly e b y) :
    Plainly e (a + b) (x ++ y) := by
  obtain ⟨t, w, ks, h1, h2, h3, h4⟩ := ha
  obtain ⟨t', w', ks', h1', h2', h3', h4'⟩ := hb
  refine ⟨t ++ t', w + w', ks ++ ks', h1.cat h1', stream_append h2 h2', ?_, vtext_append h4 h4'⟩
  intro k hk
  rcases List.mem_append.1 hk with hk | hk
  · exact h3 k hk
  · exact h3' k hk

theorem Plainly.left {e : Env} {a b : G} {x : Str} (h : Plainly e a x) : Plainly e (a ||| b) x := by
  obtain ⟨t, w, ks, h1, h2⟩ := h
  exact ⟨t, w, ks, .inl h1, h2⟩

theorem Plainly.right {e : Env} {a b : G} {x : Str} (h : Plainly e b x) : Plainly e (a ||| b) x := by
  obtain ⟨t, w, ks, h1, h2⟩ := h
  exact ⟨t, w, ks, .inr h1, h2⟩

theorem spaces_nil : Spaces [] := by intro c hc; cases hc
theorem vtext_nil : VText [] := by intro c hc; cases hc

theorem plainly_nil {e : Env} {g : G} {x : Str} {w : W} (h : g.den x [] w) : Plainly e g x :=
  ⟨[], w, [], h, .done spaces_nil, by simp, vtext_nil⟩

theorem Plainly.star {e : Env} {a : G} {xs : List Str} (h : ∀ x ∈ xs, Plainly e a x) :
    Plainly e (.star a) xs.flatten := by
  induction xs with
  | nil => exact plainly_nil Star.nil
  | cons x xs ih =>
    obtain ⟨t, w, ks, h1, h2, h3, h4⟩ := h x (by simp)
    obtain ⟨t', w', ks', h1', h2', h3', h4'⟩ := ih fun y hy => h y (by simp [hy])
    refine ⟨t ++ t', w + w', ks ++ ks', Star.cons h1 h1', stream_append h2 h2', ?_, vtext_append h4 h4'⟩
    intro k hk
    rcases List.mem_append.1 hk with hk | hk
    · exact h3 k hk
    · exact h3' k hk

theorem stream_one {k : Tok} (hk : Writable k) : Stream (write k ++ [' ']) [k] := by
  have := Stream.block (sp := []) spaces_nil (Verif.Token.block_write hk.1 hk.2.1)
    (.done (sp := [' ']) (by simp [Spaces]))
  simpa using this

theorem plainly_tok {e : Env} {g : G} {x : Str} {k : Tok} {w : W} (h : g.den x (write k ++ [' ']) w) (hk : Plain e k) :
    Plainly e g x :=
  ⟨_, w, [k], h, stream_one hk.writable, by simpa using hk, vtext_append hk.text (by decide)⟩

theorem one_tagger {n k v t : Str} {g : G} {w : W} (he : t = k ++ t!": \"" ++ esc v ++ t!"\"") (h : g.den v t w) :
    (addTokens n g).den v (write (oneTok n k v) ++ [' ']) w :=
  den_addTokens.2 ⟨t, by simp [write, oneTok, he], h⟩

theorem one_verbalizer {n k v y sp : Str} {g : G} {w : W} (hsp : sp = [] ∨ sp = [' '])
    (h : g.den (k ++ t!": \"" ++ esc v ++ t!"\"") y w) :
    (deleteTokens n g).den (write (oneTok n k v) ++ sp) y w :=
  den_deleteTokens.2 ⟨_, sp, hsp, by simp [write, oneTok], h⟩

/-! Characters. -/

theorem isDigit_iff {c : Char} : isDigit c = true ↔ Digit c := by
  simp only [isDigit, Bool.and_eq_true, decide_eq_true_eq, Digit]; exact Iff.rfl

theorem isSymbol_iff {c : Char} : isSymbol c = true ↔ c ∈ symbols := by
  have h : symbol.map Prod.fst = symbols.map fun c => [c] := by decide +kernel
  unfold isSymbol
  rw [h]
  simp

theorem mark_iff {e : Env} {c : Char} : (punctMark e c || c = '\\' || c = '"') = true ↔ Mark e.isP c := by
  simp only [punctMark, Mark, Bool.or_eq_true, Bool.and_eq_true, Bool.not_eq_true', decide_eq_true_eq]
  have hs : isSymbol c = false ↔ c ∉ symbols := by rw [← isSymbol_iff]; simp
  have hl : (t!"!#%&'()*+,-./:;<=>?@^_`{|}~").contains c = true ↔ c ∈ t!"!#%&'()*+,-./:;<=>?@^_`{|}~" := by simp
  have h4 : (['[', ']', '"', '\\'] : List Char).contains c = false ↔ c ≠ '[' ∧ c ≠ ']' ∧ c ≠ '"' ∧ c ≠ '\\' := by
    simp
  have ha : ∀ d ∈ t!"!#%&'()*+,-./:;<=>?@^_`{|}~", d ∉ symbols →
      d ∈ "!'(),-.:;<>?`{}".toList ∧ d ≠ '[' ∧ d ≠ ']' ∧ d ≠ '"' ∧ d ≠ '\\' := by decide +kernel
  have hb : ∀ d ∈ "!'(),-.:;<>?`{}".toList, d ∈ t!"!#%&'()*+,-./:;<=>?@^_`{|}~" := by decide +kernel
  rw [hs, hl, h4]
  constructor
  · rintro ((⟨h | h, h'⟩ | h) | h)
    · exact .inr (.inr ⟨.inl h.1, h.2.1, h.2.2.1, h'⟩)
    · obtain ⟨a1, a2, a3, _⟩ := ha c h h'
      exact .inr (.inr ⟨.inr a1, a2, a3, h'⟩)
    · exact .inr (.inl h)
    · exact .inl h
  · rintro (h | h | ⟨h1 | h1, h2, h3, h4⟩)
    · exact .inr h
    · exact .inl (.inr h)
    · by_cases hq : c = '"'
      · exact .inr hq
      · by_cases hq' : c = '\\'
        · exact .inl (.inr hq')
        · exact .inl (.inl ⟨.inl ⟨h1, h2, h3, hq, hq'⟩, h4⟩)
    · exact .inl (.inl ⟨.inr (hb c h1), h4⟩)

theorem wordChar_iff {e : Env} {c : Char} : wordChar e c = true ↔ Wordy e.isP c := by
  unfold wordChar
  rw [Bool.and_eq_true, Bool.and_eq_true, Bool.not_eq_true', Bool.not_eq_true', ← Bool.not_eq_true, ← Bool.not_eq_true,
    mark_iff, Bool.or_eq_true, isDigit_iff]
  have h1 : notSpace c = true ↔ c ≠ '\x00' ∧ ¬ White c := by
    simp only [notSpace, Bool.and_eq_true, vchar, bne_iff_ne, ne_eq, Bool.not_eq_true', ← Bool.not_eq_true]
    exact and_congr Iff.rfl (not_congr ⟨white_of, of_white⟩)
  have h2 : (t!"$€₩£¥#%").contains c = true ↔ c ∈ "$€₩£¥#%".toList := by
    rw [show t!"$€₩£¥#%" = "$€₩£¥#%".toList by decide +kernel]; simp
  rw [h1, h2]
  unfold Wordy
  tauto

/-! Words. -/

theorem star_cls_den {p : Char → Bool} {s : Str} (h : ∀ c ∈ s, p c = true) : (G.star (G.cls p)).den s s 0 := by
  induction s with
  | nil => exact Star.nil
  | cons c s ih =>
    exact Star.cons (R := (G.cls p).den) (x := [c]) (y := [c]) (w := 0) (w' := 0) ⟨c, h c (by simp), rfl, rfl, rfl⟩
      (ih fun d hd => h d (by simp [hd]))

theorem plus_cls_den {p : Char → Bool} {s : Str} (hne : s ≠ []) (h : ∀ c ∈ s, p c = true) :
    (G.cls p).plus.den s s 0 := by
  cases s with
  | nil => exact absurd rfl hne
  | cons c s =>
    exact ⟨[c], [c], 0, s, s, 0, ⟨c, h c (by simp), rfl, rfl, rfl⟩,
      star_cls_den fun d hd => h d (by simp [hd]), rfl, rfl, rfl⟩

theorem esc_eq {s : Str} (h : ∀ c ∈ s, c ≠ '"' ∧ c ≠ '\\') : esc s = s := by
  induction s with
  | nil => rfl
  | cons c s ih =>
    rw [esc_cons, if_neg, ih fun d hd => h d (by simp [hd])]
    · rfl
    · rintro (rfl | rfl)
      · exact (h _ (by simp)).1 rfl
      · exact (h _ (by simp)).2 rfl

theorem rule_mem (e : Env) : (⟨wordRule e, some 10000000, true⟩ : RuleSpec) ∈ rules e ∧
    (⟨cardinalRule, some 100000, true⟩ : RuleSpec) ∈ rules e ∧
    (⟨whitelistRule, some 100000, true⟩ : RuleSpec) ∈ rules e := by
  simp [rules]

theorem plainly_word {e : Env} {s : Str} (hne : s ≠ []) (h : ∀ c ∈ s, Wordy e.isP c) : Plainly e (classify e) s := by
  have hp : ∀ c ∈ s, wordChar e c = true := fun c hc => wordChar_iff.2 (h c hc)
  have hesc : esc s = s := esc_eq fun c hc => wordChar_plain (hp c hc)
  have hv : VText s := fun c hc => by
    have := hp c hc
    simp only [wordChar, notSpace, Bool.and_eq_true] at this
    exact this.1.1.1
  refine plainly_tok (k := oneTok t!"w" t!"v" s) (tag_union (taggerUnion_eq e) (rule_mem e).1 rfl (w := 0)
    (one_tagger rfl ?_)) ⟨oneTok_writable (by decide) (by decide), rfl, vtext_oneTok (by decide) (by decide) hv, ?_⟩
  · rw [hesc]
    exact den_add_insert.2 ⟨t!"v: \"" ++ s, by simp, den_insert_add.2 ⟨s, rfl, plus_cls_den hne hp⟩⟩
  · intro sp hsp
    refine ⟨s, 0, hv, .inl (verb_union (verbalizerUnion_eq e) (rule_mem e).1 rfl (one_verbalizer hsp ?_))⟩
    rw [hesc]
    exact den_add_del.2 ⟨t!"v: \"" ++ s, by simp, ⟨t!"v: \"", [], 0, s, s, 0,
      den_del_add.2 ⟨t!"\"", rfl, den_del.2 ⟨rfl, rfl, rfl⟩⟩, plus_cls_den hne hp, by simp, by simp, rfl⟩⟩

/-! Numbers. -/

theorem digitG_reads {c : Char} (h : Digit c) : ∃ y, VText y ∧ digitOh.den [c] y 0 := by
  obtain ⟨n, hn, rfl⟩ : ∃ n : Nat, n < 10 ∧ c = Char.ofNat (48 + n) := by
    refine ⟨c.toNat - 48, by have := h.1; have := h.2; omega, ?_⟩
    rw [show 48 + (c.toNat - 48) = c.toNat by have := h.1; omega, Char.ofNat_toNat]
  have key : ∀ n < 10, ∃ e ∈ inv digit ++ [(t!"0", t!"oh")], e.1 = [Char.ofNat (48 + n)] ∧ VText e.2 := by
    decide +kernel
  obtain ⟨⟨_, y⟩, he, rfl, hy⟩ := key n hn
  refine ⟨y, hy, ?_⟩
  rcases List.mem_append.1 he with he | he
  · exact .inl ⟨he, rfl⟩
  · rcases List.mem_singleton.1 he with he
    obtain ⟨h1, h2⟩ := Prod.mk.inj he
    rw [h1, h2]
    exact .inr (den_crossS.2 ⟨rfl, rfl, rfl⟩)

theorem singleDigits_reads {s : Str} (hne : s ≠ []) (h : ∀ c ∈ s, Digit c) :
    ∃ y, VText y ∧ singleDigits.den s y 0 := by
  cases s with
  | nil => exact absurd rfl hne
  | cons c s =>
    obtain ⟨y, hy, h1⟩ := digitG_reads (h c (by simp))
    have hs : ∀ d ∈ s, Digit d := fun d hd => h d (by simp [hd])
    have key : ∃ z, VText z ∧ (G.star (isp + digitOh)).den s z 0 := by
      clear h1 hne h
      induction s with
      | nil => exact ⟨[], vtext_nil, Star.nil⟩
      | cons d s ih =>
        obtain ⟨z, hz, h2⟩ := ih fun e he => hs e (by simp [he])
        obtain ⟨u, hu, h3⟩ := digitG_reads (hs d (by simp))
        refine ⟨[' '] ++ u ++ z, vtext_append (vtext_append (by decide) hu) hz, ?_⟩
        exact Star.cons (R := (isp + digitOh).den) (x := [d]) (w := 0) (w' := 0)
          (den_insert_add.2 ⟨u, rfl, h3⟩) h2
    obtain ⟨z, hz, h2⟩ := key
    exact ⟨y ++ z, vtext_append hy hz, .inr ⟨[c], y, 0, s, z, 0, h1, h2, rfl, rfl, rfl⟩⟩

theorem finalGraph_reads {s : Str} (hne : s ≠ []) (h : ∀ c ∈ s, Digit c) : ∃ y w, VText y ∧ finalGraph.den s y w := by
  obtain ⟨y, hy, h1⟩ := singleDigits_reads hne h
  exact ⟨y, 0 + 10, hy, .inl (.inl (.inl (.inl (.inr ⟨0, h1, rfl⟩))))⟩

theorem plainly_digits {e : Env} {s : Str} (hne : s ≠ []) (h : ∀ c ∈ s, Digit c) : Plainly e (classify e) s := by
  obtain ⟨y, w, hy, hd⟩ := finalGraph_reads hne h
  have hpl : ∀ c ∈ s, c ≠ '"' ∧ c ≠ '\\' := by
    intro c hc
    have := h c hc
    constructor <;> (rintro rfl; revert this; decide)
  have hesc : esc s = s := esc_eq hpl
  have hv : VText s := by
    intro c hc
    have := h c hc
    simp only [vchar, bne_iff_ne]
    rintro rfl; revert this; decide
  refine plainly_tok (k := oneTok t!"cardinal" t!"integer" s) (tag_union (taggerUnion_eq e) (rule_mem e).2.1 rfl (w := w)
    (one_tagger rfl ?_)) ⟨oneTok_writable (by decide) (by decide), rfl, vtext_oneTok (by decide) (by decide) hv, ?_⟩
  · have h2 : (tagField t!"integer" finalGraph).den s (t!"integer" ++ t!": \"" ++ esc s ++ t!"\"") w :=
      den_tagField.2 ⟨by simp, hv, y, hd⟩
    exact ⟨[], [], 0, s, _, w, .inl ⟨rfl, rfl, rfl⟩, h2, by simp, by simp, (zero_add w).symm⟩
  · intro sp hsp
    refine ⟨y, w, hy, .inl (verb_union (verbalizerUnion_eq e) (rule_mem e).2.1 rfl (one_verbalizer hsp ?_))⟩
    rw [hesc]
    refine ⟨[], [], 0, _, y, w, .inl ⟨rfl, rfl, rfl⟩, ?_, rfl, rfl, (zero_add w).symm⟩
    refine den_del_add.2 ⟨t!" \"" ++ s ++ t!"\"", by simp, ?_⟩
    refine den_add_del.2 ⟨t!" \"" ++ s, by simp, ?_⟩
    refine ⟨t!" \"", [], 0, s, y, w, ?_, hd, rfl, rfl, (zero_add w).symm⟩
    exact den_add_del.2 ⟨[' '], rfl, Star.one (R := (delete (.cls isSpace)).den) ⟨rfl, ' ', rfl, rfl, rfl, rfl⟩⟩

/-! Symbols. -/

theorem whitelist_reads {c : Char} (h : c ∈ symbols) (hc : c ≠ '/') : ∃ y, VText y ∧ whitelistG.den [c] y 0 := by
  have key : ∀ c ∈ symbols, c ≠ '/' → vchar c = true ∧ ∃ p ∈ symbol, p.1 = [c] ∧ VText p.2 := by decide +kernel
  obtain ⟨hv, ⟨_, y⟩, hp, rfl, hy⟩ := key c h hc
  have hv' : VText [c] := fun d hd => by rw [List.mem_singleton.1 hd]; exact hv
  refine ⟨y, hy, .inl (.inl (.inl (.inl (.inr ⟨[c], 0, 0, ⟨rfl, den_VSIGMA.2 ⟨rfl, rfl, hv'⟩, ?_⟩, ⟨hp, rfl⟩, rfl⟩))))⟩
  · rintro ⟨z, w', he, _⟩
    exact hc (by simpa using he)

theorem plainly_symbol {e : Env} {c : Char} (h : c ∈ symbols) : Plainly e (classify e) [c] := by
  by_cases hc : c = '/'
  · subst hc
    refine plainly_word (by simp) ?_
    intro d hd
    rw [List.mem_singleton.1 hd]
    exact ⟨by decide, by decide, by rintro (h | h | h) <;> revert h <;> first | decide | (rintro ⟨_, _, _, h⟩; revert h; decide),
      by decide, by decide⟩
  obtain ⟨y, hy, hd⟩ := whitelist_reads h hc
  have key : ∀ c ∈ symbols, vchar c = true ∧ c ≠ '"' ∧ c ≠ '\\' := by decide +kernel
  have hesc : esc [c] = [c] := esc_eq fun d hd => by rw [List.mem_singleton.1 hd]; exact (key c h).2
  have hv : VText [c] := fun d hd => by rw [List.mem_singleton.1 hd]; exact (key c h).1
  refine plainly_tok (k := oneTok t!"whitelist" t!"name" [c]) (tag_union (taggerUnion_eq e) (rule_mem e).2.2 rfl (w := 0)
    (one_tagger rfl ?_)) ⟨oneTok_writable (by decide) (by decide), rfl, vtext_oneTok (by decide) (by decide) hv, ?_⟩
  · exact den_tagField.2 ⟨by simp, hv, y, hd⟩
  · intro sp hsp
    refine ⟨y, 0, hy, .inl (verb_union (verbalizerUnion_eq e) (rule_mem e).2.2 rfl (one_verbalizer hsp ?_))⟩
    rw [hesc]
    refine den_add_del.2 ⟨t!"name: \"" ++ [c], by simp, ?_⟩
    refine ⟨t!"name: \"", [], 0, [c], y, 0, ?_, hd, rfl, rfl, rfl⟩
    refine den_add_del.2 ⟨t!"name: ", rfl, den_del_add.2 ⟨[' '], rfl, ?_⟩⟩
    exact Star.one (R := (delete (.cls isSpace)).den) ⟨rfl, ' ', rfl, rfl, rfl, rfl⟩

theorem plainly_core {e : Env} {x : Str} (h : Core e.isP x) : Plainly e (classify e) x := by
  cases h with
  | word h1 h2 => exact plainly_word h1 h2
  | digits h1 h2 => exact plainly_digits h1 h2
  | symbol h => exact plainly_symbol h

/-! Punctuation. -/

theorem lightSpaces_den {s : Str} (h : ∀ c ∈ s, c = ' ') : ∃ w, lightSpaces.den s s w := by
  induction s with
  | nil => exact ⟨0, Star.nil⟩
  | cons c s ih =>
    obtain ⟨w, h1⟩ := ih fun d hd => h d (by simp [hd])
    rw [h c (by simp)]
    exact ⟨_, Star.cons (R := (G.wt (.lit t!" ") (-100000)).den) (x := [' ']) (y := [' ']) ⟨0, ⟨rfl, rfl, rfl⟩, rfl⟩ h1⟩

theorem mark_vchar {e : Env} {c : Char} (h : Mark e.isP c) : vchar c = true := by
  simp only [vchar, bne_iff_ne]
  rintro rfl
  rcases h with h | h | ⟨h | h, _⟩
  · exact absurd h (by decide)
  · exact absurd h (by decide)
  · exact absurd (e.isP_plain _ h).2 (by decide)
  · exact absurd h (by decide)

theorem marks_tagged {e : Env} {m : Str} (hne : m ≠ []) (h : ∀ c ∈ m, Mark e.isP c) : (punctPlus e).den m (esc m) 0 := by
  have one : ∀ c, Mark e.isP c → (markG e).den [c] (esc [c]) 0 := by
    intro c hc
    have := mark_iff.2 hc
    simp only [Bool.or_eq_true, decide_eq_true_eq] at this
    rcases this with (h | rfl) | rfl
    · have hp := punctMark_plain h
      rw [esc_eq (by simpa using hp)]
      exact .inl (.inl ⟨c, h, rfl, rfl, rfl⟩)
    · exact .inl (.inr (den_crossS.2 ⟨rfl, rfl, rfl⟩))
    · exact .inr (den_crossS.2 ⟨rfl, rfl, rfl⟩)
  have many : ∀ s : Str, (∀ c ∈ s, Mark e.isP c) → (G.star (markG e)).den s (esc s) 0 := by
    intro s
    induction s with
    | nil => intro _; exact Star.nil
    | cons c s ih =>
      intro hs
      have := Star.cons (R := (markG e).den) (one c (hs c (by simp))) (ih fun d hd => hs d (by simp [hd]))
      rwa [← esc_append] at this
  cases m with
  | nil => exact absurd rfl hne
  | cons c s =>
    refine ⟨[c], esc [c], 0, s, esc s, 0, one c (h c (by simp)), many s fun d hd => h d (by simp [hd]), rfl, ?_, rfl⟩
    rw [← esc_append]; rfl

/-- The marks of the verbalizer. -/
def markV (e : Env) : G :=
  G.cls (punctMark e) ||| emphasis ||| crossS ['\\', '\\'] ['\\'] ||| crossS ['\\', '"'] ['"']

theorem marks_verbalized {e : Env} {m : Str} (hne : m ≠ []) (h : ∀ c ∈ m, Mark e.isP c) : (markV e).plus.den (esc m) m 0 := by
  have one : ∀ c, Mark e.isP c → (markV e).den (esc [c]) [c] 0 := by
    intro c hc
    have := mark_iff.2 hc
    simp only [Bool.or_eq_true, decide_eq_true_eq] at this
    rcases this with (h | rfl) | rfl
    · have hp := punctMark_plain h
      rw [esc_eq (by simpa using hp)]
      exact .inl (.inl (.inl ⟨c, h, rfl, rfl, rfl⟩))
    · exact .inl (.inr (den_crossS.2 ⟨rfl, rfl, rfl⟩))
    · exact .inr (den_crossS.2 ⟨rfl, rfl, rfl⟩)
  have many : ∀ s : Str, (∀ c ∈ s, Mark e.isP c) → (G.star (markV e)).den (esc s) s 0 := by
    intro s
    induction s with
    | nil => intro _; exact Star.nil
    | cons c s ih =>
      intro hs
      have := Star.cons (R := (markV e).den) (one c (hs c (by simp))) (ih fun d hd => hs d (by simp [hd]))
      rwa [← esc_append] at this
  cases m with
  | nil => exact absurd rfl hne
  | cons c s =>
    refine ⟨esc [c], [c], 0, esc s, s, 0, one c (h c (by simp)), many s fun d hd => h d (by simp [hd]), ?_, rfl, rfl⟩
    rw [← esc_append]; rfl

theorem esc_spaces {s : Str} (h : ∀ c ∈ s, c = ' ') : esc s = s :=
  esc_eq fun c hc => by rw [h c hc]; decide

theorem plainly_punct {e : Env} {a m b : Str} (ha : ∀ c ∈ a, c = ' ') (hb : ∀ c ∈ b, c = ' ') (hne : m ≠ [])
    (hm : ∀ c ∈ m, Mark e.isP c) (hc : Clear m) : Plainly e (punct e) (a ++ (m ++ b)) := by
  have hvs : ∀ s : Str, (∀ c ∈ s, c = ' ') → VText s := fun s hs c hc => by rw [hs c hc]; rfl
  have hv : VText (a ++ (m ++ b)) :=
    vtext_append (hvs a ha) (vtext_append (fun c hc => mark_vchar (hm c hc)) (hvs b hb))
  obtain ⟨wa, h1⟩ := lightSpaces_den ha
  obtain ⟨wb, h2⟩ := lightSpaces_den hb
  have hg : ∃ w, (punctG e).den m (esc m) w := by
    by_cases he : ∃ y w, emphasis.den m y w
    · obtain ⟨y, w, he⟩ := he
      obtain ⟨rfl, v, rfl, hvv⟩ := den_emphasis he
      refine ⟨w, .inl ?_⟩
      rw [esc_eq]
      · exact he
      · have key : ∀ c ∈ v, ¬ (c = '"' ∨ c = '\\') := by
          intro c hcv hq
          exact hc ⟨[], v, [], by simp, fun d hd => notAngle_iff (hvv d hd), c, hcv, hq⟩
        intro c hcx
        simp only [List.mem_cons, List.mem_append, List.not_mem_nil, or_false] at hcx
        rcases hcx with rfl | hcx | rfl
        · decide
        · exact ⟨fun h => key c hcx (.inl h), fun h => key c hcx (.inr h)⟩
        · decide
    · refine ⟨_, .inr ⟨m, 0, 0, ⟨rfl, den_VSIGMA.2 ⟨rfl, rfl, fun c hc => mark_vchar (hm c hc)⟩, ?_⟩,
        marks_tagged hne hm, rfl⟩⟩
      rintro ⟨z, _, _, y, h⟩
      exact he ⟨y, _, h⟩
  obtain ⟨w, hg⟩ := hg
  refine plainly_tok (k := oneTok t!"p" t!"v" (a ++ (m ++ b))) (w := wa + w + wb + 200000) ⟨_, one_tagger rfl ?_, rfl⟩
    ⟨oneTok_writable (by decide) (by decide), rfl, vtext_oneTok (by decide) (by decide) hv, ?_⟩
  · refine den_add_insert.2 ⟨t!"v: \"" ++ esc (a ++ (m ++ b)), by simp, ?_⟩
    refine ⟨a ++ m, t!"v: \"" ++ esc a ++ esc m, wa + w, b, esc b, wb, ?_, ?_, by simp, by simp [esc_append], rfl⟩
    · refine ⟨a, t!"v: \"" ++ esc a, wa, m, esc m, w, den_insert_add.2 ⟨esc a, rfl, ?_⟩, .inl hg, rfl, rfl, rfl⟩
      rw [esc_spaces ha]; exact h1
    · rw [esc_spaces hb]; exact h2
  · intro sp hsp
    refine ⟨a ++ (m ++ b), wa + 0 + wb, hv, .inr (one_verbalizer hsp ?_)⟩
    refine den_add_del.2 ⟨t!"v: \"" ++ esc (a ++ (m ++ b)), by simp, ?_⟩
    refine ⟨t!"v: \"" ++ esc a ++ esc m, a ++ m, wa + 0, esc b, b, wb, ?_, ?_, by simp [esc_append], by simp, rfl⟩
    · refine ⟨t!"v: \"" ++ esc a, a, wa, esc m, m, 0, den_del_add.2 ⟨esc a, rfl, ?_⟩, marks_verbalized hne hm, rfl, rfl, rfl⟩
      rw [esc_spaces ha]; exact h1
    · rw [esc_spaces hb]; exact h2

theorem clear_single (c : Char) : Clear [c] := by
  rintro ⟨a, v, b, h, _⟩
  have := congrArg List.length h
  simp at this
  omega

/-- Marks begin with a punctuation token. -/
theorem marks_split {e : Env} {m : Str} (h : Marks e.isP m) (hne : m ≠ []) :
    ∃ p r, m = p ++ r ∧ Plainly e (punct e) p ∧ Marks e.isP r ∧ r.length < m.length := by
  obtain ⟨h1, h2⟩ := h
  replace h2 := h2.resolve_left hne
  have key : ∀ a : Str, (∀ c ∈ a, c = ' ') → ∃ p r, a ++ m = p ++ r ∧ Plainly e (punct e) p ∧ Marks e.isP r ∧
      r.length < m.length := by
    clear hne
    induction m with
    | nil => obtain ⟨c, hc, _⟩ := h2; cases hc
    | cons c m ih =>
      intro a ha
      have h1' : ∀ d ∈ m, d = ' ' ∨ Mark e.isP d := fun d hd => h1 d (by simp [hd])
      by_cases hm : Mark e.isP c
      · by_cases hr : ∃ d ∈ m, Mark e.isP d
        · refine ⟨a ++ ([c] ++ []), m, by simp, plainly_punct ha (by simp) (by simp) (by simpa using hm) (clear_single c), ⟨h1', .inr hr⟩, by simp⟩
        · have hs : ∀ d ∈ m, d = ' ' := fun d hd => (h1' d hd).resolve_right fun hd' => hr ⟨d, hd, hd'⟩
          exact ⟨a ++ ([c] ++ m), [], by simp, plainly_punct ha hs (by simp) (by simpa using hm) (clear_single c),
            ⟨by simp, .inl rfl⟩, by simp⟩
      · have hc := (h1 c (by simp)).resolve_right hm
        obtain ⟨p, r, h3, h4, h5, h6⟩ := ih h1' (by
          obtain ⟨d, hd, hd'⟩ := h2
          rcases List.mem_cons.1 hd with rfl | hd
          · exact absurd hd' hm
          · exact ⟨d, hd, hd'⟩) (a ++ [' ']) (by
            intro d hd
            rcases List.mem_append.1 hd with hd | hd
            · exact ha d hd
            · exact List.mem_singleton.1 hd)
        exact ⟨p, r, by rw [← h3, hc]; simp, h4, h5, by simp; omega⟩
  simpa using key [] (by simp)

theorem plainly_marks {e : Env} {m : Str} (h : Marks e.isP m) : Plainly e (.star (punct e)) m := by
  obtain ⟨xs, rfl, hx⟩ : ∃ xs : List Str, m = xs.flatten ∧ ∀ x ∈ xs, Plainly e (punct e) x := by
    generalize hn : m.length = n
    induction n using Nat.strong_induction_on generalizing m with
    | _ n ih =>
      by_cases hne : m = []
      · exact ⟨[], by simpa using hne, by simp⟩
      · obtain ⟨p, r, rfl, h1, h2, h3⟩ := marks_split h hne
        obtain ⟨xs, hx, h4⟩ := ih _ (by omega) h2 rfl
        exact ⟨p :: xs, by simp [hx], by simpa using ⟨h1, h4⟩⟩
  exact Plainly.star hx

/-! Chains. -/

/-- `token + (separator + token).star`. -/
def chainGraph (e : Env) : G := token e (classify e) + .star (separator e + token e (classify e))

theorem plainly_token {e : Env} {m x m' : Str} (hm : Marks e.isP m) (hx : Core e.isP x) (hm' : Marks e.isP m') :
    Plainly e (token e (classify e)) (m ++ (x ++ m')) := by
  have := ((plainly_marks hm).add (plainly_core hx)).add (plainly_marks hm')
  simpa [token] using this

theorem marks_nil {isP : Char → Bool} : Marks isP [] := ⟨by simp, .inl rfl⟩

theorem Plainly.step {e : Env} {x s y : Str} (h1 : Plainly e (token e (classify e)) x) (h2 : Plainly e (separator e) s)
    (h3 : Plainly e (chainGraph e) y) : Plainly e (chainGraph e) (x ++ (s ++ y)) := by
  have hst : Plainly e (.star (separator e + token e (classify e))) (s ++ y) := by
    obtain ⟨t, w, ks, ⟨x₁, y₁, w₁, x₂, y₂, w₂, g1, g2, rfl, rfl, rfl⟩, h4, h5, h6⟩ := h3
    obtain ⟨t', w', ks', g1', h4', h5', h6'⟩ := h2
    refine ⟨t' ++ (y₁ ++ y₂), w' + w₁ + w₂, ks' ++ ks, ?_, stream_append h4' h4, ?_, vtext_append h6' h6⟩
    · have := Star.cons (R := (separator e + token e (classify e)).den) (g1'.cat g1) g2
      show Star _ _ _ _
      simpa using this
    · intro k hk
      rcases List.mem_append.1 hk with hk | hk
      · exact h5' k hk
      · exact h5 k hk
  exact h1.add hst

theorem plainly_chain {e : Env} {y : Str} (h : Chain e.isP y) : ∀ m m', Marks e.isP m → Marks e.isP m' →
    Plainly e (chainGraph e) (m ++ (y ++ m')) := by
  induction h with
  | one h =>
    intro m m' hm hm'
    simpa [chainGraph] using (plainly_token hm h hm').add (Plainly.star (xs := []) (by simp))
  | space h hw _ ih =>
    intro m m' hm hm'
    rename_i x c y _
    have hs : Plainly e (separator e) [c] := (plainly_nil (g := delete (.cls isSpace)) (w := 0) ⟨rfl, c, of_white hw, rfl, rfl, rfl⟩).left
    have := (plainly_token hm h marks_nil).step hs (ih [] m' marks_nil hm')
    simpa using this
  | marks h hs hne _ ih =>
    intro m m' hm hm'
    obtain ⟨p, r, rfl, h1, h2, _⟩ := marks_split hs hne
    have := (plainly_token hm h marks_nil).step h1.right (ih r m' h2 hm')
    simpa using this

theorem plainly_white {e : Env} {a : Str} (h : ∀ c ∈ a, White c) : Plainly e DELETE_SPACE a := by
  refine plainly_nil (w := 0) ?_
  induction a with
  | nil => exact Star.nil
  | cons c a ih =>
    exact Star.cons (R := (delete (.cls isSpace)).den) (x := [c]) (y := []) (w := 0) (w' := 0)
      ⟨rfl, c, of_white (h c (by simp)), rfl, rfl, rfl⟩ (ih fun d hd => h d (by simp [hd]))

theorem dropFinal_vtext {t : Str} (h : VText t) : VText (dropFinalSpace t) := by
  unfold dropFinalSpace
  split
  · exact fun c hc => h c (List.dropLast_subset _ hc)
  · exact h

/-- Every readable text has a tagging that can be verbalized. -/
theorem plainly_tagger {e : Env} {x : Str} (h : Readable e.isP x ∨ Bare e.isP x) (hc : Clear x) :
    Plainly e (taggerOf e (classify e)) x := by
  have inner : Plainly e ((DELETE_SPACE + token e (classify e) + .star (separator e + token e (classify e)) + DELETE_SPACE) |||
      punct e) x := by
    rcases h with ⟨a, m, y, m', b, rfl, ha, hb, hm, hm', hy⟩ | ⟨a, m, b, rfl, ha, hb, hne, hm⟩
    · obtain ⟨t, w, ks, ⟨x₁, t₁, w₁, x₂, t₂, w₂, h1, h2, h3, rfl, rfl⟩, h4, h5, h6⟩ := plainly_chain hy m m' hm hm'
      obtain ⟨t₀, w₀, ks₀, h10, h40, h50, h60⟩ := plainly_white (e := e) ha
      obtain ⟨t₃, w₃, ks₃, h13, h43, h53, h63⟩ := plainly_white (e := e) hb
      refine Plainly.left ⟨t₀ ++ t₁ ++ t₂ ++ t₃, w₀ + w₁ + w₂ + w₃, ks₀ ++ ks ++ ks₃, ?_, ?_, ?_, ?_⟩
      · rw [h3]
        simpa using ((h10.cat h1).cat h2).cat h13
      · have := stream_append (stream_append h40 h4) h43
        simpa using this
      · intro k hk
        simp only [List.mem_append] at hk
        rcases hk with (hk | hk) | hk
        · exact h50 k hk
        · exact h5 k hk
        · exact h53 k hk
      · have := vtext_append (vtext_append h60 h6) h63
        simpa using this
    · exact (plainly_punct ha hb hne hm (clear_left (clear_right hc))).right
  obtain ⟨t, w, ks, h1, h2, h3, h4⟩ := inner
  exact ⟨dropFinalSpace t, w + 0, ks, ⟨t, w, 0, h1, den_dropFinal.2 ⟨h4, rfl, rfl⟩, rfl⟩, stream_dropFinal h2, h3, dropFinal_vtext h4⟩

/-! ### Verbalizing -/

/-- One round of the verbalizer. -/
def roundG (e : Env) : G :=
  (verbalizerU e + ((punctuationRule e).verbalizer.plus ||| G.wt isp 10)) |||
    ((punctuationRule e).verbalizer + ((punctuationRule e).verbalizer.plus ||| DELETE_SPACE))

theorem plain_star {e : Env} {ks : List Tok} (hne : ks ≠ []) (h : ∀ k ∈ ks, Plain e k) :
    ∃ y w, Star (roundG e).den (writeAll ks) y w ∧ VText y := by
  have key : ∀ k sp, Plain e k → (sp = [] ∨ sp = [' ']) → ∃ y w, VText y ∧ (roundG e).den (write k ++ sp) y w := by
    intro k sp hk hsp
    obtain ⟨y, w, hy, hd | hd⟩ := hk.verb sp hsp
    · refine ⟨y ++ [' '], w + 10, vtext_append hy (by decide), .inl ?_⟩
      exact ⟨_, y, w, [], [' '], 10, hd, .inr ⟨0, den_insert.2 ⟨rfl, rfl, rfl⟩, rfl⟩, by simp, rfl, rfl⟩
    · refine ⟨y, w + 0, hy, .inr ?_⟩
      exact ⟨_, y, w, [], [], 0, hd, .inr Star.nil, by simp, by simp, rfl⟩
  induction ks with
  | nil => exact absurd rfl hne
  | cons k ks ih =>
    cases ks with
    | nil =>
      obtain ⟨y, w, hy, hd⟩ := key k [] (h k (by simp)) (.inl rfl)
      exact ⟨y, w, by simpa [writeAll, List.intercalate] using Star.one hd, hy⟩
    | cons k' ks =>
      obtain ⟨y, w, hd, hy⟩ := ih (by simp) fun l hl => h l (by simp [hl])
      obtain ⟨y', w', hy', hd'⟩ := key k [' '] (h k (by simp)) (.inr rfl)
      refine ⟨y' ++ y, w' + w, ?_, vtext_append hy' hy⟩
      have := Star.cons hd' hd
      simpa [writeAll, List.intercalate] using this

theorem plain_verbalizer {e : Env} {ks : List Tok} (hne : ks ≠ []) (h : ∀ k ∈ ks, Plain e k) :
    ∃ y w, (verbalizerOf e (verbalizerU e)).den (writeAll ks) y w := by
  obtain ⟨y, w, h1, hy⟩ := plain_star hne h
  exact ⟨_, _, y, w, 0, h1, den_dropFinal.2 ⟨hy, rfl, rfl⟩, rfl⟩

/-- **C73.** A text of words, numbers and symbols, each parted from the next by one white space or by
punctuation marks, is normalized for every number of candidates, if no quotation mark or backslash stands
inside angle brackets. -/
theorem C73_normalized (e : Env) (tg vg : G) (ht : tagger e = some tg) (hv : verbalizer e = some vg) (p : Pipeline W)
    (hr : Runs p tokenOrders tg vg) (x : Str) (hx : Readable e.isP x ∨ Bare e.isP x) (hc : Clear x) (n : Int) (hn : 1 ≤ n) :
    ∃ fuel out, normalize p fuel x (.int n) = some (.ok out) := by
  rw [tagger_eq] at ht
  rw [verbalizer_eq] at hv
  cases ht; cases hv
  by_cases hx0 : x = []
  · subst hx0
    obtain ⟨h1, h2⟩ := Verif.NBest.C29_empty p n false hn
    by_cases h : n = 1
    · exact ⟨0, _, (h1 h).2.1⟩
    · exact ⟨0, _, (h2 h).2.1⟩
  obtain ⟨t, w, ks, h1, h2, h3, _⟩ := plainly_tagger hx hc
  obtain ⟨htne, hne⟩ := brace_stream (brace_tagger h1) h2
  have hd : ∀ k ∈ ks, Distinct k := fun k hk => (h3 k hk).writable.2.2
  obtain ⟨toks, hp, hden⟩ := (Verif.Token.C03_parse_iff_grammar t ks).2 ⟨htne, h2, hd⟩
  have hro := Verif.Token.reorder_denotes (orders := tokenOrders) hp hden
  have he : (ks.map fun k => (⟨k.name, Verif.Token.chosenFields tokenOrders k⟩ : Tok)) = ks := by
    conv_rhs => rw [← List.map_id ks]
    apply List.map_congr_left
    intro k hk
    rw [Verif.Token.chosenFields_exempt (hd k hk) (.inl (h3 k hk).noOrder)]; rfl
  rw [he] at hro
  obtain ⟨y, v, h4⟩ := plain_verbalizer hne h3
  refine normalize_succeeds hr (tagger_ok e) (verbalizer_ok e) hx0 ?_ h1 hro h4 n hn
  intro t' w' ht'
  obtain ⟨ks', vs', g1, g2, _⟩ := says_tagger ht' hc
  obtain ⟨toks', hp', _⟩ := (Verif.Token.C03_parse_iff_grammar t' ks').2 ⟨(brace_stream (brace_tagger ht') g1).1, g1, g2⟩
  exact ⟨_, Verif.Token.reorder_ok hp'⟩

/-- There are such graphs and such pipelines. -/
theorem C73_exists (e : Env) : ∃ tg vg p, tagger e = some tg ∧ verbalizer e = some vg ∧ Runs p tokenOrders tg vg :=
  ⟨_, _, _, tagger_eq e, verbalizer_eq e, runs_pipelineOf (tagger_ok e) (verbalizer_ok e)⟩

/-! ### Cases -/

/-- An environment for the examples. -/
def someEnv : Env where
  isP c := c == '«' || c == '»'
  decade := .lit []
  decade_ok := rfl
  isP_plain := by
    intro c h
    simp only [Bool.or_eq_true, beq_iff_eq] at h
    rcases h with rfl | rfl <;> decide
  isP_digit := by
    intro c h
    simp only [Bool.or_eq_true, beq_iff_eq] at h
    rcases h with rfl | rfl <;> decide

instance (isP : Char → Bool) (c : Char) : Decidable (Mark isP c) := by unfold Mark; infer_instance
instance (isP : Char → Bool) (c : Char) : Decidable (Wordy isP c) := by unfold Wordy; infer_instance

/-- A word, quotation marks, a number and a symbol. -/
example : Readable someEnv.isP " well, \"ok\" 42 & é".toList := by
  refine ⟨[' '], [], "well, \"ok\" 42 & é".toList, [], [], by decide, by decide, by decide, marks_nil, marks_nil, ?_⟩
  refine .marks (x := "well".toList) (s := ", \"".toList) (y := "ok\" 42 & é".toList) (.word (by decide) (by decide))
    ⟨by decide, .inr ⟨',', by decide, by decide⟩⟩ (by decide) ?_
  refine .marks (x := "ok".toList) (s := "\" ".toList) (y := "42 & é".toList) (.word (by decide) (by decide))
    ⟨by decide, .inr ⟨'"', by decide, by decide⟩⟩ (by decide) ?_
  refine .space (x := "42".toList) (c := ' ') (y := "& é".toList) (.digits (by decide) (by decide)) (by decide) ?_
  exact .space (x := ['&']) (c := ' ') (y := ['é']) (.symbol (by decide)) (by decide)
    (.one (.word (by decide) (by decide)))

/-- The same text meets the hypothesis about angle brackets. -/
example : Clear " well, \"ok\" 42 & é".toList := by
  rintro ⟨a, v, b, h, _⟩
  have : '<' ∈ " well, \"ok\" 42 & é".toList := by rw [h]; simp
  exact absurd this (by decide)

/-- Marks only. -/
example : Bare someEnv.isP " «?!» ".toList :=
  ⟨[' '], "«?!»".toList, [' '], by decide, by decide, by decide, by decide, by decide⟩

end Verif.EnTn
