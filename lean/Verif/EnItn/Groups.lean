import Verif.EnItn.Heard
import Verif.EnItn.StreamProps
import Verif.Wfst.Bounds

/-
How the English inverse normalizer cuts a text of words into tokens, and what the tokens are.
-/

namespace Verif.EnItn

open Verif.Wfst Spec
open Verif.Token.Spec (esc write Tok)

/-! ### One token -/

/-- The token of a number. -/
def cardinalTok (c : Str) : Tok := ⟨t!"cardinal", [(t!"integer", c)]⟩
/-- The token of a year. -/
def yearTok (c : Str) : Tok := ⟨t!"date", [(t!"year", c), (t!"preserve_order", t!"true")]⟩
/-- The token of a number of millions and so on. -/
def shortTok (u q : Str) : Tok := ⟨t!"decimal", [(t!"integer_part", u), (t!"quantity", q)]⟩

/-- The tokens that matter for words that are not bad. -/
inductive Token1 : Str → Str → W → Prop
  | word {c} : ' ' ∉ c → c ≠ [] → Token1 c (write (valueTok t!"word" c) ++ [' ']) 5000000
  | char {c t} : Token1 [c] t 10000000
  | cardinal {c y w} : VText c → integer.den c y w → Token1 c (write (cardinalTok c) ++ [' ']) (w + 110000)
  | year {c y w} : VText c → yearG.den c y w → Token1 c (write (yearTok c) ++ [' ']) (w + 109000)
  | short {u q y w} : VText u → upTo999.den u y w → q ∈ scaleNames.tail →
      Token1 (u ++ ' ' :: q) (write (shortTok u q) ++ [' ']) (w + 109900)

theorem cardinal_token {x t : Str} {w : W} (h : cardinalRule.tagger.den x t w) : Bad (words x) ∨ Token1 x t (w + 110000) := by
  obtain ⟨m, rfl, h'⟩ := den_addTokens.1 h
  obtain ⟨x1, y1, w1, x2, y2, w2, h1, h2, rfl, rfl, rfl⟩ := h'
  rcases h1 with ⟨rfl, rfl, rfl⟩ | h1
  · right
    obtain ⟨rfl, hv, z, hz⟩ := den_tagField.1 h2
    have := Token1.cardinal hv hz
    rw [Int.zero_add]
    simpa [write, cardinalTok] using this
  · left
    exact (inferInstance : Core false .hard (tagField t!"negative" negative + ds + isp + tagField t!"integer" integer)).reads _ _ _
      ⟨x1, y1, w1, x2, y2, w2, h1, h2, rfl, rfl, rfl⟩

theorem year_token {x t : Str} {w : W} (h : dateRule.tagger.den x t w) : Bad (words x) ∨ Token1 x t (w + 109000) := by
  obtain ⟨m, rfl, h'⟩ := den_addTokens.1 h
  clear h
  unfold dateTagger po at h'
  rcases h' with ((((((((((((h | h) | h) | h) | h) | h) | h) | h) | h) | h) | h) | h))
  case inl.inl.inl.inl.inl.inl.inr =>
    right
    obtain ⟨m, rfl, h1⟩ := den_add_insert.1 h
    obtain ⟨rfl, hv, z, hz⟩ := den_tagField.1 h1
    have := Token1.year hv hz
    simpa [write, yearTok, (by decide : esc t!"true" = t!"true")] using this
  all_goals
    left
    exact Core.reads (s := false) (i := .hard) _ _ _ h

theorem short_token {x t : Str} {w : W} (h : decimalRule.tagger.den x t w) : Bad (words x) ∨ Token1 x t (w + 110000) := by
  obtain ⟨m, rfl, h'⟩ := den_addTokens.1 h
  clear h
  rcases h' with h | ⟨w0, h | h, rfl⟩
  · exact .inl ((inferInstance : Core true .hard decimalPlain).reads _ _ _ h)
  · exact .inl ((inferInstance : Core true .hard decimalQuantity).reads _ _ _ h)
  · obtain ⟨x1, y1, w1, x2, y2, w2, h1, h2, rfl, rfl, rfl⟩ := h
    obtain ⟨y3, rfl, ⟨x4, y4, w4, x5, y5, w5, h4, h5, rfl, rfl, rfl⟩⟩ := den_add_insert.1 h1
    obtain ⟨rfl, rfl, rfl⟩ := den_ds.1 h5
    obtain ⟨x6, y6, w6, x7, y7, w7, h6, h7, rfl, rfl, rfl⟩ := h4
    obtain ⟨rfl, hq, z2, g2⟩ := den_tagField.1 h2
    obtain ⟨rfl, hv, z7, g7⟩ := den_tagField.1 h7
    have hx2 : Bad (words x2) ∨ x2 ∈ scaleNames.tail := by
      obtain ⟨he, -⟩ := g2
      obtain ⟨e, he', e1⟩ := List.mem_map.1 he
      cases e1
      obtain ⟨he, hne⟩ := List.mem_filter.1 he'
      by_cases hs : e.1 ∈ scaleNames
      · right
        have : scaleNames = t!"thousand" :: scaleNames.tail := rfl
        rw [this] at hs
        rcases List.mem_cons.1 hs with hs | hs
        · rw [hs] at hne; simp at hne
        · exact hs
      · left
        have key : ∀ e ∈ thousands, words e.1 = [e.1] := by decide +kernel
        rw [key e he]
        exact .inl ⟨e.1, by simp, .inr (.inr (.inr (.inr (.inr (.inr (.inl ⟨e, he, rfl, hs⟩))))))⟩
    rcases h6 with ⟨rfl, rfl, rfl⟩ | h6
    · rcases hx2 with hx2 | hx2
      · left
        rw [List.nil_append, List.append_assoc, List.singleton_append, words_append_space]
        exact hx2.right
      · right
        have e : w2 = 0 := g2.2
        have := Token1.short hv g7 hx2
        rw [e, show (0 + w7 + 0 + 0 + -100 + 110000 : Int) = w7 + 109900 by omega]
        simpa [write, shortTok] using this
    · left
      rcases (inferInstance : Trail true .hard (tagField t!"negative" minus + ds + isp)).reads _ _ _ h6 with ⟨-, hp⟩ | ⟨p, rfl, hp⟩
      · exact Bad.left (a := []) hp
      have e : p ++ [' '] ++ x7 ++ [' '] ++ x2 = p ++ ' ' :: (x7 ++ [' '] ++ x2) := by simp
      rw [e, words_append_space]
      exact Bad.left hp

theorem word_token {x t : Str} {w : W} (h : wordRule.tagger.den x t w) : Token1 x t (w + 5000000) := by
  obtain ⟨m, rfl, h1⟩ := den_addTokens.1 h
  obtain ⟨m1, rfl, h2⟩ := den_add_insert.1 h1
  obtain ⟨m2, rfl, x1, y1, w1, x2, y2, w2, h3, h4, rfl, rfl, rfl⟩ := den_insert_add.1 h2
  have h5 := Star.cons (R := (G.cls wordChar).den) h3 h4
  obtain ⟨e, hall⟩ := star_word h5
  have hw : (w1 + w2 : Int) = 0 := by
    have a := star_lo (R := (G.cls wordChar).den) (by rintro x y w ⟨c, -, -, -, rfl⟩; exact Int.le_refl _) h5
    have b := star_hi (R := (G.cls wordChar).den) (by rintro x y w ⟨c, -, -, -, rfl⟩; exact Int.le_refl _) h5
    exact Int.le_antisymm b a
  have hne : x1 ++ x2 ≠ [] := by
    obtain ⟨c, -, rfl, -⟩ := h3
    simp
  have hsp : ' ' ∉ x1 ++ x2 := fun hm => absurd (List.all_eq_true.1 hall _ hm) (by decide)
  have hesc : esc (x1 ++ x2) = x1 ++ x2 := esc_plain (List.all_eq_true.2 fun c hc => wordChar_plain (List.all_eq_true.1 hall c hc))
  have := Token1.word hsp hne
  rw [e, show (w1 + w2 + 5000000 : Int) = 5000000 by rw [hw]; rfl]
  simpa [write, valueTok, hesc] using this

theorem char_token {x t : Str} {w : W} (h : charRule.tagger.den x t w) : Token1 x t (w + 10000000) := by
  have h0 : w = 0 := by
    have a := G.lo_den (g := charRule.tagger) (k := 0) (by decide +kernel) h
    have b := G.hi_den (g := charRule.tagger) (k := 0) (by decide +kernel) h
    exact Int.le_antisymm b a
  obtain ⟨m, rfl, hm⟩ := den_addTokens.1 h
  obtain ⟨m', rfl, hm'⟩ := den_add_insert.1 hm
  obtain ⟨m'', rfl, hC⟩ := den_insert_add.1 hm'
  obtain ⟨c, rfl⟩ : ∃ c, x = [c] := by
    rcases hC with (⟨c, hc, rfl, _⟩ | hC) | hC
    · exact ⟨c, rfl⟩
    · exact ⟨_, (den_crossS.1 hC).1⟩
    · exact ⟨_, (den_crossS.1 hC).1⟩
  rw [h0]
  exact .char

theorem whitelist_token {x t : Str} {w : W} (h : whitelistRule.tagger.den x t w) :
    ∃ e ∈ whitelist ++ whitelistW, x = e.2 := by
  obtain ⟨m, rfl, hm⟩ := den_addTokens.1 h
  obtain ⟨-, -, z, hz⟩ := den_tagField.1 hm
  rcases hz with hz | ⟨w0, hz, -⟩
  · obtain ⟨e, he, e1⟩ := List.mem_map.1 hz.1
    exact ⟨e, List.mem_append_left _ he, (congrArg Prod.fst e1).symm⟩
  · obtain ⟨e, he, e1⟩ := List.mem_map.1 hz.1
    exact ⟨e, List.mem_append_right _ he, (congrArg Prod.fst e1).symm⟩

/-- What one token can be. -/
theorem classify_token {x t : Str} {w : W} (h : classify.den x t w) :
    Bad (words x) ∨ (∃ e ∈ whitelist ++ whitelistW, x = e.2) ∨ Token1 x t w := by
  obtain ⟨s, hs, k, w₀, hk, h0, rfl⟩ := ((tagger_union rules).2 classify taggerUnion_eq x t w).1 h
  simp only [rules, List.mem_cons, List.not_mem_nil, or_false] at hs
  rcases hs with rfl | rfl | rfl | rfl | rfl | rfl | rfl | rfl | rfl | rfl | rfl | rfl <;> cases hk
  · exact (year_token h0).imp id .inr
  · exact .inl ((inferInstance : Core true .hard timeRule.tagger).reads _ _ _ h0)
  · exact .inl ((inferInstance : Core true .hard measureRule.tagger).reads _ _ _ h0)
  · exact .inl ((inferInstance : Core true .hard moneyRule.tagger).reads _ _ _ h0)
  · exact .inr (.inl (whitelist_token h0))
  · exact .inl ((inferInstance : Core true .hard telephoneRule.tagger).reads _ _ _ h0)
  · exact .inl ((inferInstance : Core true .hard electronicRule.tagger).reads _ _ _ h0)
  · exact .inl ((inferInstance : Core true .hard ordinalRule.tagger).reads _ _ _ h0)
  · exact (short_token h0).imp id .inr
  · exact (cardinal_token h0).imp id .inr
  · exact .inr (.inr (word_token h0))
  · exact .inr (.inr (char_token h0))

/-! ### The tokens of a text -/

/-- No punctuation, and no white space but spaces. -/
def Unmarked (x : Str) : Prop := ∀ c ∈ x, ¬ Mark c ∧ (White c → c = ' ')

theorem Unmarked.left {x y : Str} (h : Unmarked (x ++ y)) : Unmarked x := fun c hc => h c (by simp [hc])
theorem Unmarked.right {x y : Str} (h : Unmarked (x ++ y)) : Unmarked y := fun c hc => h c (by simp [hc])

theorem wordsFrom_mem {c : Char} {x : Str} (cur : Str) (h : c ∈ x) : c = ' ' ∨ ∃ v ∈ wordsFrom cur x, c ∈ v := by
  have key : ∀ (x cur : Str), ∀ c ∈ cur, ∃ v ∈ wordsFrom cur x, c ∈ v := by
    intro x
    induction x with
    | nil => intro cur c hc; exact ⟨cur, by simp [wordsFrom], hc⟩
    | cons d x ih =>
      intro cur c hc
      simp only [wordsFrom]
      split
      · exact ⟨cur, by simp, hc⟩
      · exact ih _ _ (by simp [hc])
  induction x generalizing cur with
  | nil => cases h
  | cons d x ih =>
    simp only [wordsFrom]
    split
    · rename_i hd
      rcases List.mem_cons.1 h with rfl | h
      · exact .inl hd
      · rcases ih [] h with e | ⟨v, h1, h2⟩
        · exact .inl e
        · exact .inr ⟨v, by simp [h1], h2⟩
    · rcases List.mem_cons.1 h with rfl | h
      · exact .inr (key _ _ _ (by simp))
      · exact ih _ h

theorem unmarked_words {x : Str} (h : ∀ v ∈ words x, ∀ c ∈ v, Wordy c ∧ ¬ Mark c) : Unmarked x := by
  intro c hc
  rcases wordsFrom_mem [] hc with rfl | ⟨v, h1, h2⟩
  · exact ⟨by decide, fun _ => rfl⟩
  · obtain ⟨h3, h4⟩ := h v h1 c h2
    exact ⟨h4, fun h5 => absurd h5 h3.2.1⟩

theorem left_none {x t : Str} {w : W} (h : Star (G.wt punctuationRule.tagger 110000 + (del t!" ").ques).den x t w)
    (hu : Unmarked x) : x = [] ∧ t = [] ∧ w = 0 := by
  cases h with
  | nil => exact ⟨rfl, rfl, rfl⟩
  | cons h1 _ =>
    obtain ⟨x₁, y₁, w₁, x₂, y₂, w₂, h1, h2, rfl, rfl, rfl⟩ := h1
    obtain ⟨c, hc, rfl⟩ := punct_reads h1
    exact absurd hc (hu c (by simp)).1

theorem right_none {x t : Str} {w : W} (h : Star ((del t!" ").ques + G.wt punctuationRule.tagger 110000).den x t w)
    (hu : Unmarked x) : x = [] ∧ t = [] ∧ w = 0 := by
  cases h with
  | nil => exact ⟨rfl, rfl, rfl⟩
  | cons h1 _ =>
    obtain ⟨x₁, y₁, w₁, x₂, y₂, w₂, h1, h2, rfl, rfl, rfl⟩ := h1
    obtain ⟨c, hc, rfl⟩ := punct_reads h2
    exact absurd hc (hu c (by simp)).1

theorem token_unmarked {x t : Str} {w : W} (h : (token classify).den x t w) (hu : Unmarked x) : classify.den x t w := by
  obtain ⟨_, _, _, x₃, _, _, ⟨x₁, _, _, x₂, _, _, h1, h2, rfl, rfl, rfl⟩, h3, rfl, rfl, rfl⟩ := h
  obtain ⟨rfl, rfl, rfl⟩ := left_none h1 hu.left.left
  obtain ⟨rfl, rfl, rfl⟩ := right_none h3 hu.right
  rw [Int.zero_add]
  simpa using h2

/-- What a token reads, how it is written, and its weight. -/
abbrev Group := Str × Str × W

theorem star_sep {x t : Str} {w : W} (h : Star (DELETE_EXTRA_SPACE + token classify).den x t w) (hu : Unmarked x) : Sep x := by
  cases h with
  | nil => exact .inl rfl
  | cons h1 _ =>
    obtain ⟨x₁, _, _, x₂, _, _, h1, h2, rfl, _, _⟩ := h1
    obtain ⟨_, hne, hw, _⟩ := den_extraSpace.1 h1
    cases x₁ with
    | nil => exact absurd rfl hne
    | cons c x₁ =>
      right
      rw [(hu c (by simp)).2 (space_iff.1 (hw c (by simp)))]
      exact ⟨_, rfl⟩

theorem star_groups {x t : Str} {w : W} (h : Star (DELETE_EXTRA_SPACE + token classify).den x t w) (hu : Unmarked x)
    (hne : ∀ v ∈ more x, v ≠ []) : ∃ gs : List Group, (∀ g ∈ gs, classify.den g.1 g.2.1 g.2.2) ∧
      more x = gs.flatMap (fun g => words g.1) ∧ t = gs.flatMap (fun g => ' ' :: g.2.1) ∧ w = (gs.map fun g => g.2.2).sum := by
  induction h with
  | nil => exact ⟨[], by simp, rfl, rfl, rfl⟩
  | @cons x y w x' y' w' h1 h2 ih =>
    have hsep := star_sep h2 hu.right
    obtain ⟨x₁, y₁, w₁, x₂, y₂, w₂, h1, h3, rfl, rfl, rfl⟩ := h1
    obtain ⟨rfl, hne1, hw, rfl⟩ := den_extraSpace.1 h1
    cases x₁ with
    | nil => exact absurd rfl hne1
    | cons c x₁ =>
      obtain rfl := (hu c (by simp)).2 (space_iff.1 (hw c (by simp)))
      have e0 : ' ' :: x₁ ++ x₂ ++ x' = ' ' :: (x₁ ++ (x₂ ++ x')) := by simp
      obtain rfl : x₁ = [] := by
        cases x₁ with
        | nil => rfl
        | cons d x₁ =>
          obtain rfl := (hu d (by simp)).2 (space_iff.1 (hw d (by simp)))
          exact absurd rfl (hne [] (by rw [e0, more_space]; exact List.mem_cons_self))
      rw [e0, more_space, List.nil_append, words_append hsep] at hne
      obtain ⟨gs, g1, g2, g3, g4⟩ := ih hu.right fun v hv => hne v (by simp [hv])
      refine ⟨(x₂, y₂, w₂) :: gs, ?_, ?_, ?_, ?_⟩
      · intro g hg
        rcases List.mem_cons.1 hg with rfl | hg
        · exact token_unmarked h3 hu.left.right
        · exact g1 g hg
      · rw [e0, more_space, List.nil_append, words_append hsep, g2]; simp
      · rw [g3]; simp
      · rw [g4]; simp

theorem join_flat (a : Str) (l : List Str) : join (a :: l) = a ++ l.flatMap (' ' :: ·) := by
  induction l generalizing a with
  | nil => simp [join]
  | cons b l ih => simp only [join, ih b]; simp

/-- A tagging of a text of words is a sequence of tokens. -/
theorem tagger_groups {x t : Str} {w : W} (h : (taggerOf classify).den x t w) (hu : Unmarked x) (hne : ∀ v ∈ words x, v ≠ []) :
    ∃ gs : List Group, gs ≠ [] ∧ (∀ g ∈ gs, classify.den g.1 g.2.1 g.2.2) ∧ words x = gs.flatMap (fun g => words g.1) ∧
      t = join (gs.map fun g => g.2.1) ∧ w = (gs.map fun g => g.2.2).sum := by
  obtain ⟨_, _, _, x₄, t₄, w₄, ⟨x₁, t₁, w₁, _, _, _, h1, ⟨x₂, t₂, w₂, x₃, t₃, w₃, h2, h3, rfl, rfl, rfl⟩, rfl, rfl, rfl⟩, h4,
    rfl, rfl, rfl⟩ := h
  have hz : ∀ {x t : Str} {w : W}, Star (del t!" ").den x t w → x = [] → t = [] ∧ w = 0 := by
    intro x t w h
    cases h with
    | nil => exact fun _ => ⟨rfl, rfl⟩
    | cons h1 _ =>
      intro e
      obtain ⟨rfl, -⟩ := den_del.1 h1
      cases e
  have e1 : x₁ = [] := by
    cases x₁ with
    | nil => rfl
    | cons c x₁ =>
      have := star_ds h1 c (by simp)
      subst this
      refine absurd rfl (hne [] ?_)
      show [] ∈ words (' ' :: _)
      exact List.mem_cons_self
  have e4 : x₄ = [] := by
    cases x₄ with
    | nil => rfl
    | cons c x₄ =>
      have := star_ds h4 c (by simp)
      subst this
      have hs : ∀ d ∈ x₄, d = ' ' := fun d hd => star_ds h4 d (by simp [hd])
      refine absurd rfl (hne [] ?_)
      rw [words_append_space]
      refine List.mem_append_right _ ?_
      cases x₄ with
      | nil => exact List.mem_cons_self
      | cons d x₄ => rw [hs d (by simp)]; exact List.mem_cons_self
  obtain ⟨rfl, rfl⟩ := hz h1 e1
  obtain ⟨rfl, rfl⟩ := hz h4 e4
  subst e1 e4
  simp only [List.nil_append, List.append_nil] at hu hne ⊢
  have hsep := star_sep h3 hu.right
  rw [words_append hsep] at hne ⊢
  obtain ⟨gs, g1, g2, g3, g4⟩ := star_groups h3 hu.right fun v hv => hne v (by simp [hv])
  refine ⟨(x₂, t₂, w₂) :: gs, by simp, ?_, ?_, ?_, ?_⟩
  · intro g hg
    rcases List.mem_cons.1 hg with rfl | hg
    · exact token_unmarked h2 hu.left
    · exact g1 g hg
  · rw [g2]; simp
  · rw [g3, List.map_cons, join_flat, List.flatMap_map]
  · have : (0 + (w₂ + w₃) + 0 : Int) = w₂ + w₃ := by omega
    rw [List.map_cons, List.sum_cons, ← g4]
    exact this

end Verif.EnItn
