import Verif.Wfst.Loose
import Verif.Wfst.Reads
import Verif.EnItn.Model

/-
The taggers of the English inverse normalizer write tokens that quote the input, with white space left
out between the quoted pieces.
-/

namespace Verif.EnItn

open Verif.Wfst
open Verif.Wfst.Spec (Quoted quotes)
open Verif.Token.Spec (esc write writeAll Tok Writable Block Fields Spaces IsName Distinct)

/-- Fields with fixed values: they tell the verbalizer what kind of text was found. -/
def markers : List (Str × Str) :=
  [(t!"preserve_order", t!"true"), (t!"style", t!"to"), (t!"kind", t!"phone"), (t!"kind", t!"ssn"),
   (t!"kind", t!"ip"), (t!"kind", t!"credit_card"), (t!"kind", t!"serial")]

theorem tokens_one (n k : Str) (graph : G)
    (h : (paths (paths [[.ins (n ++ t!" { ")]] [[.ins (k ++ t!": \""), .fld, .ins t!"\""]])
      [[.ins t!" } "]]).all (pathOkBut markers isSpace) = true) :
    TokensBut markers isSpace (addTokens n (tagField k graph)) :=
  Flat.tokens (flat_addTokens flat_tagField) h

theorem tokens_cardinal : TokensBut markers isSpace cardinalRule.tagger :=
  Flat.tokens (by unfold cardinalRule ds isp; flat) (by decide +kernel)

theorem tokens_ordinal : TokensBut markers isSpace ordinalRule.tagger :=
  tokens_one _ _ _ (by decide +kernel)

theorem tokens_decimal : TokensBut markers isSpace decimalRule.tagger :=
  Flat.tokens (by
    unfold decimalRule decimalPlain decimalQuantity cardinalQuantity optNegative integerPart fracPart ds isp
    flat) (by decide +kernel)

theorem tokens_date : TokensBut markers isSpace dateRule.tagger :=
  Flat.tokens (by unfold dateRule dateTagger month day year po ds isp; flat) (by decide +kernel)

/-- `insert(' minute: ""')` quotes the empty text. -/
theorem flat_noMinute : Flat (Wfst.insert t!" minute: \"\"")
    [[.ins t!" minute: \"", .fld, .ins t!"\""]] := by
  intro x t w h
  obtain ⟨rfl, rfl, _⟩ := den_insert.1 h
  refine ⟨_, List.mem_singleton.2 rfl, ?_⟩
  have := Fills.ins (s := t!" minute: \"") (.fld (v := []) (by intro c hc; cases hc)
    (.ins (s := t!"\"") .nil))
  simpa [esc] using this

theorem tokens_time : TokensBut markers isSpace timeRule.tagger :=
  Flat.tokens (by
    unfold timeRule timeTagger suffix zoneOpt styleTo hour ds isp
    repeat' first
      | exact flat_noMinute
      | exact flat_tagField | exact flat_insert | exact flat_del
      | apply flat_addTokens | apply flat_ques | apply flat_add | apply flat_or) (by decide +kernel)

theorem tokens_measure : TokensBut markers isSpace measureRule.tagger :=
  Flat.tokens (by unfold measureRule ds isp; flat) (by decide +kernel)

theorem tokens_money : TokensBut markers isSpace moneyRule.tagger :=
  Flat.tokens (by unfold moneyRule moneyTagger currencyField ds isp; flat) (by decide +kernel)

theorem tokens_telephone : TokensBut markers isSpace telephoneRule.tagger :=
  Flat.tokens (by unfold telephoneRule telTagger numberField optCc ds isp; flat) (by decide +kernel)

theorem tokens_electronic : TokensBut markers isSpace electronicRule.tagger :=
  Flat.tokens (by unfold electronicRule ds isp; flat) (by decide +kernel)

theorem tokens_whitelist : TokensBut markers isSpace whitelistRule.tagger :=
  tokens_one _ _ _ (by decide +kernel)

theorem wordChar_plain {c : Char} (h : wordChar c = true) : plainChar c = true := by
  simp only [wordChar, notSpace, Bool.and_eq_true] at h
  simp [plainChar, h.1.1.1, h.1.2, h.2]

theorem star_word {x y : Str} {w : W} (h : Star (G.cls wordChar).den x y w) :
    y = x ∧ x.all wordChar = true := by
  induction h with
  | nil => simp
  | cons h1 _ ih =>
    obtain ⟨c, hc, rfl, rfl, _⟩ := h1
    obtain ⟨rfl, h2⟩ := ih
    exact ⟨rfl, by simpa [hc] using h2⟩

/-- Words have no characters to escape. -/
theorem flat_word : Flat (G.cls wordChar).plus [[.fld]] := by
  rintro x t w ⟨x₁, y₁, w₁, x₂, y₂, w₂, h1, h2, rfl, rfl, rfl⟩
  obtain ⟨e, hall⟩ := star_word (Star.cons (R := (G.cls wordChar).den) h1 h2)
  rw [e]
  refine flat_lit (s := x₁ ++ x₂) ?_ _ _ 0 ⟨rfl, rfl, rfl⟩
  rw [List.all_eq_true] at hall ⊢
  exact fun c hc => wordChar_plain (hall c hc)

theorem tokens_word : TokensBut markers isSpace wordRule.tagger :=
  Flat.tokens (by
    unfold wordRule
    exact flat_addTokens (flat_add (flat_add flat_insert flat_word) flat_insert)) (by decide +kernel)

theorem tokens_char : TokensBut markers isSpace charRule.tagger :=
  Flat.tokens (by unfold charRule; flat) (by decide +kernel)

theorem punct_word {c : Char} (h : puncts.contains c = true) : wordChar c = true := by
  have : puncts.all wordChar = true := by decide +kernel
  exact List.all_eq_true.1 this c (by simpa using h)

theorem flat_punct : Flat (G.cls fun c => puncts.contains c) [[.fld]] := by
  rintro x t w ⟨c, hc, rfl, rfl, _⟩
  refine flat_lit (s := [c]) ?_ _ _ 0 ⟨rfl, rfl, rfl⟩
  simpa using wordChar_plain (punct_word hc)

theorem tokens_punctuation : TokensBut markers isSpace punctuationRule.tagger :=
  Flat.tokens (by
    unfold punctuationRule
    exact flat_addTokens (flat_add (flat_add flat_insert flat_punct) flat_insert)) (by decide +kernel)

/-- The union of the taggers. -/
def classify : G := (taggerUnion rules).getD (.lit [])
/-- The union of the verbalizers. -/
def verbalizerU : G := (verbalizerUnion verbalizerRules).getD (.lit [])

theorem taggerUnion_eq : taggerUnion rules = some classify := rfl
theorem verbalizerUnion_eq : verbalizerUnion verbalizerRules = some verbalizerU := rfl

theorem tagger_eq : tagger = some (taggerOf classify) := rfl
theorem verbalizer_eq : verbalizer = some (verbalizerOf verbalizerU) := rfl

theorem tokens_classify : TokensBut markers isSpace classify := by
  refine tokens_union taggerUnion_eq ?_
  intro s hs hk
  simp only [rules, List.mem_cons, List.not_mem_nil, or_false] at hs
  rcases hs with rfl | rfl | rfl | rfl | rfl | rfl | rfl | rfl | rfl | rfl | rfl | rfl
  · exact tokens_date
  · exact tokens_time
  · exact tokens_measure
  · exact tokens_money
  · exact tokens_whitelist
  · exact tokens_telephone
  · exact tokens_electronic
  · exact tokens_ordinal
  · exact tokens_decimal
  · exact tokens_cardinal
  · exact tokens_word
  · exact tokens_char

/-! ### The whole tagger -/

theorem stream_append {s t : Str} {ks ls : List Tok} (h : Verif.Token.Spec.Stream s ks)
    (h' : Verif.Token.Spec.Stream t ls) : Verif.Token.Spec.Stream (s ++ t) (ks ++ ls) := by
  have sp : ∀ {a b : Str}, Spaces a → Spaces b → Spaces (a ++ b) := by
    intro a b ha hb c hc
    rcases List.mem_append.1 hc with hc | hc
    · exact ha c hc
    · exact hb c hc
  induction h with
  | done hs =>
    cases h' with
    | done hs' => exact .done (sp hs hs')
    | block hs' hb hr => rw [← List.append_assoc]; exact .block (sp hs hs') hb hr
  | block hs hb _ ih =>
    rw [List.append_assoc, List.append_assoc]
    exact .block hs hb ih

/-- `t` is a stream of tokens that quote `x`. -/
def Says (x t : Str) : Prop :=
  ∃ ks : List Tok, Verif.Token.Spec.Stream t ks ∧ (∀ k ∈ ks, Distinct k) ∧
    Quoted (Seps isSpace) (ks.flatMap (quotes markers)) x

theorem Says.append {x t x' t' : Str} (h : Says x t) (h' : Says x' t') : Says (x ++ x') (t ++ t') := by
  obtain ⟨ks, h11, h13, h14⟩ := h
  obtain ⟨ls, h21, h23, h24⟩ := h'
  refine ⟨ks ++ ls, stream_append h11 h21, ?_, ?_⟩
  · intro k hk
    rcases List.mem_append.1 hk with hk | hk
    · exact h13 k hk
    · exact h23 k hk
  · rw [List.flatMap_append]; exact Quoted.append h14 h24

/-- White space may be dropped, spaces may be inserted. -/
theorem says_space {s t : Str} (hs : ∀ c ∈ s, isSpace c = true) (ht : ∀ c ∈ t, c = ' ') : Says s t :=
  ⟨[], .done ht, by simp, .done hs⟩

/-- The outputs are streams of tokens that quote the input. -/
def Streams (g : G) : Prop := ∀ x t w, g.den x t w → Says x t

theorem Streams.add {a b : G} (ha : Streams a) (hb : Streams b) : Streams (a + b) := by
  rintro x t w ⟨x₁, y₁, w₁, x₂, y₂, w₂, h1, h2, rfl, rfl, rfl⟩
  exact (ha _ _ _ h1).append (hb _ _ _ h2)

theorem streams_nil : Says [] [] := says_space (by simp) (by simp)

theorem Streams.star {a : G} (ha : Streams a) : Streams (.star a) := by
  intro x t w h
  have h : Star a.den x t w := h
  clear * - ha h
  induction h with
  | nil => exact streams_nil
  | cons h1 _ ih => exact (ha _ _ _ h1).append ih

theorem Streams.ques {a : G} (ha : Streams a) : Streams a.ques := by
  rintro x t w (⟨rfl, rfl, _⟩ | h)
  · exact streams_nil
  · exact ha _ _ _ h

theorem Streams.wt {a : G} {k : W} (ha : Streams a) : Streams (.wt a k) := by
  rintro x t w ⟨w₀, h, _⟩
  exact ha _ _ _ h

theorem streams_ds : Streams (del t!" ") := by
  intro x t w h
  obtain ⟨rfl, rfl, _⟩ := den_del.1 h
  exact says_space (by decide) (by simp)

theorem TokensBut.streams {g : G} (h : TokensBut markers isSpace g) : Streams g := by
  intro x t w hd
  obtain ⟨ks, bs, h1, rfl, h3, h4, h5⟩ := h.loose _ _ _ hd
  obtain ⟨t, ht, _, hst⟩ := stream_blocks h3 h1
  rw [ht]
  refine ⟨ks, ?_, h4, h5⟩
  simpa using stream_append hst (.done (sp := [' ']) (by simp [Spaces]))

theorem star_cls {p : Char → Bool} {x y : Str} {w : W} (h : Star (G.cls p).den x y w) :
    y = x ∧ ∀ c ∈ x, p c = true := by
  induction h with
  | nil => simp
  | cons h1 _ ih =>
    obtain ⟨c, hc, rfl, rfl, _⟩ := h1
    obtain ⟨rfl, h2⟩ := ih
    exact ⟨rfl, by simpa [hc] using h2⟩

theorem den_extraSpace {x y : Str} {w : W} : DELETE_EXTRA_SPACE.den x y w ↔
    y = [' '] ∧ x ≠ [] ∧ (∀ c ∈ x, isSpace c = true) ∧ w = 0 := by
  constructor
  · rintro ⟨rfl, x₁, y₁, w₁, x₂, y₂, w₂, ⟨c, hc, rfl, rfl, rfl⟩, h2, rfl, _, rfl⟩
    have h2 : Star (G.cls isSpace).den x₂ y₂ w₂ := h2
    refine ⟨rfl, by simp, ?_, ?_⟩
    · intro d hd
      rcases List.mem_cons.1 hd with rfl | hd
      · exact hc
      · exact (star_cls h2).2 d hd
    · have : w₂ = 0 := by
        clear * - h2
        induction h2 with
        | nil => rfl
        | cons h1 _ ih => obtain ⟨c, _, _, _, rfl⟩ := h1; rw [ih]; rfl
      rw [this]; rfl
  · rintro ⟨rfl, hne, hall, rfl⟩
    refine ⟨rfl, ?_⟩
    cases x with
    | nil => exact absurd rfl hne
    | cons c x =>
      refine ⟨[c], [c], 0, x, x, 0, ⟨c, hall c (by simp), rfl, rfl, rfl⟩, ?_, rfl, rfl, rfl⟩
      have hx : ∀ d ∈ x, isSpace d = true := fun d hd => hall d (by simp [hd])
      clear hall hne
      induction x with
      | nil => exact .nil
      | cons d x ih =>
        exact Star.cons (R := (G.cls isSpace).den) ⟨d, hx d (by simp), rfl, rfl, rfl⟩
          (ih fun e he => hx e (by simp [he]))

theorem streams_extraSpace : Streams DELETE_EXTRA_SPACE := by
  intro x t w h
  obtain ⟨rfl, _, h2, _⟩ := den_extraSpace.1 h
  exact says_space h2 (by simp)

theorem streams_token : Streams (token classify) :=
  ((((TokensBut.streams tokens_punctuation).wt).add streams_ds.ques).star.add
    (TokensBut.streams tokens_classify)).add
      (streams_ds.ques.add (TokensBut.streams tokens_punctuation).wt).star

theorem streams_tagger : Streams (taggerOf classify) :=
  (streams_ds.star.add (streams_token.add (streams_extraSpace.add streams_token).star)).add streams_ds.star

/-- Something other than spaces is written. -/
theorem tagger_writes {x t : Str} {w : W} (h : (taggerOf classify).den x t w) : ¬ Spaces t := by
  obtain ⟨_, _, _, _, _, _, ⟨_, _, _, _, _, _, _, ⟨_, _, _, _, _, _, ⟨_, _, _, _, _, _, ⟨_, _, _, _, _, _, _, h1, _, rfl, _⟩,
    _, _, rfl, _⟩, _, _, rfl, _⟩, _, rfl, _⟩, _, _, rfl, _⟩ := h
  obtain ⟨ks, hne, rfl, _⟩ := tokens_classify _ _ _ h1
  intro he
  cases ks with
  | nil => exact absurd rfl hne
  | cons k ks =>
    have := he '{' (by simp [spaced, write])
    revert this; decide

theorem not_spaces_ne {t : Str} (h : ¬ Spaces t) : t ≠ [] := by
  rintro rfl
  exact h (by intro c hc; cases hc)

end Verif.EnItn
