import Verif.Wfst.Loose
import Verif.Wfst.Maps
import Verif.JaItn.Model

/-
The taggers of the Japanese inverse normalizer write tokens that quote the input without gaps, and its
grammars read every text character by character.
-/

namespace Verif.JaItn

open Verif.Wfst
open Verif.Wfst.Spec (Quoted values)
open Verif.Token.Spec (esc write writeAll Tok Writable Block Fields Spaces IsName Distinct)

theorem f2h_nodup : (fullToHalf.map fun e => e.1.toNat).Nodup :=
  (nodup_of_distinct (m := 0) (by decide +kernel)).1

theorem f2h_vchar : fullToHalf.all (fun e => vchar e.2) = true := by decide +kernel

/-- The half-width form of a character. -/
def half (h : Bool) (c : Char) : Char := if h then (fullToHalf.lookup c).getD c else c

theorem maps_preprocessor (h : Bool) : Maps (preprocessor h) (fun c => [half h c]) := by
  cases h
  · exact maps_id
  · have := maps_id.comp (maps_table f2h_nodup) vtext_single
    simpa [preprocessor, whenDo, half] using this

theorem half_vchar {h : Bool} {c : Char} (hc : vchar c = true) : vchar (half h c) = true := by
  cases h
  · exact hc
  · exact table_vchar f2h_vchar hc _ (by simp [half])

/-- A grammar behind the preprocessor reads the half-width form of the text. -/
theorem den_pre {h : Bool} {g : G} {x y : Str} {w : W} :
    (pre h g).den x y w ↔ VText x ∧ g.den (x.map (half h)) y w :=
  den_comp_maps (maps_preprocessor h)

/-- No characters are left out between the fields of a token. -/
def sepChar (_ : Char) : Bool := false

theorem tokens_value (n : Str) (graph : G)
    (h : (paths (paths [[.ins (n ++ t!" { ")]] [[.ins (t!"value" ++ t!": \""), .fld, .ins t!"\""]])
      [[.ins t!" } "]]).all (pathOk sepChar) = true) : Tokens sepChar (valueRule n graph).tagger :=
  Flat.tokens (flat_addTokens flat_tagField) h

theorem tokens_cardinal (c : Config) : Tokens sepChar (cardinalRule c).tagger :=
  tokens_value _ _ (by decide +kernel)

theorem tokens_char (h : Bool) : Tokens sepChar (charRule h).tagger :=
  tokens_value _ _ (by decide +kernel)

theorem tokens_math (c : Config) : Tokens sepChar (mathRule c).tagger :=
  tokens_value _ _ (by decide +kernel)

theorem tokens_measure (c : Config) : Tokens sepChar (measureRule c).tagger :=
  tokens_value _ _ (by decide +kernel)

theorem tokens_ordinal (c : Config) : Tokens sepChar (ordinalRule c).tagger :=
  tokens_value _ _ (by decide +kernel)

theorem tokens_whitelist (h : Bool) : Tokens sepChar (whitelistRule h).tagger :=
  tokens_value _ _ (by decide +kernel)

theorem tokens_date (h : Bool) : Tokens sepChar (dateRule h).tagger :=
  Flat.tokens (by unfold dateRule; flat) (by decide +kernel)

theorem tokens_fraction (h : Bool) : Tokens sepChar (fractionRule h).tagger :=
  Flat.tokens (by unfold fractionRule; flat) (by decide +kernel)

theorem tokens_money (c : Config) : Tokens sepChar (moneyRule c).tagger :=
  Flat.tokens (by unfold moneyRule; flat) (by decide +kernel)

/-- A token with one field and a few spaces around it. -/
theorem block_one {n k v s₁ s₂ : Str} (hn : IsName n) (hk : IsName k) (h1 : Spaces s₁) (h2 : Spaces s₂) :
    Block (n ++ t!" { " ++ s₁ ++ k ++ t!": \"" ++ esc v ++ t!"\"" ++ s₂ ++ t!"}") ⟨n, [(k, v)]⟩ := by
  have := Block.mk hn (Fields.field h1 hk (Verif.Token.value_esc v) (Fields.close h2))
  simpa using this

theorem loose_one {n k x t : Str} {s₁ s₂ : Str} (hn : IsName n) (hk : IsName k) (h1 : Spaces s₁)
    (h2 : Spaces s₂) (hp : k ≠ t!"preserve_order")
    (ht : t = n ++ t!" { " ++ s₁ ++ k ++ t!": \"" ++ esc x ++ t!"\"" ++ s₂ ++ t!"} ") :
    ∃ (ks : List Tok) (bs : List Str), ks ≠ [] ∧ t = spacedB bs ∧
      List.Forall₂ Block bs ks ∧ (∀ k ∈ ks, Distinct k) ∧ Quoted (Seps sepChar) (ks.flatMap values) x := by
  refine ⟨[⟨n, [(k, x)]⟩], [_], by simp, ?_, .cons (block_one (v := x) hn hk h1 h2) .nil, ?_, ?_⟩
  · rw [ht]; simp [spacedB]
  · intro k' hk'
    rw [List.mem_singleton.1 hk']
    simp [Distinct]
  · have hne : (k, x) ∉ Verif.Wfst.Spec.orderMarker :=
      fun he => hp (congrArg Prod.fst (List.mem_singleton.1 he))
    have hv : values ⟨n, [(k, x)]⟩ = [x] := by
      unfold values Verif.Wfst.Spec.quotes
      simp only
      rw [List.filter_cons_of_pos (by rw [decide_eq_false hne]; rfl)]
      rfl
    rw [List.flatMap_cons, hv]
    have : Quoted (Seps sepChar) [x] ([] ++ (x ++ [])) :=
      .next (by intro c hc; cases hc) (.done (by intro c hc; cases hc))
    simpa using this

/-- The hour alone is followed by two spaces, the second alone is preceded by two. -/
theorem loose_time (h : Bool) : Loose sepChar (timeRule h).tagger := by
  intro x t w hd
  obtain ⟨m, rfl, hm⟩ := den_addTokens.1 hd
  rcases hm with (hm | hm) | hm
  · have hT : Tokens sepChar (addTokens t!"time"
        ((tagField t!"hour" (hourG h) + Wfst.insert t!" ").ques + tagField t!"minute" (minuteG h) +
          (Wfst.insert t!" " + tagField t!"second" (secondG h)).ques)) :=
      Flat.tokens (by flat) (by decide +kernel)
    exact hT.loose _ _ _ (den_addTokens.2 ⟨m, rfl, hm⟩)
  · obtain ⟨m', rfl, hm'⟩ := den_add_insert.1 hm
    obtain ⟨rfl, _⟩ := den_tagField.1 hm'
    exact loose_one (n := t!"time") (k := t!"hour") (s₁ := []) (s₂ := t!"  ") (by decide) (by decide)
      (by simp [Spaces]) (by simp [Spaces]) (by decide) (by simp)
  · obtain ⟨m', rfl, hm'⟩ := den_insert_add.1 hm
    obtain ⟨rfl, _⟩ := den_tagField.1 hm'
    exact loose_one (n := t!"time") (k := t!"second") (s₁ := t!" ") (s₂ := t!" ") (by decide) (by decide)
      (by simp [Spaces]) (by simp [Spaces]) (by decide) (by simp)

/-- The union of the taggers. -/
def taggerU (c : Config) : G := (taggerUnion (rules c)).getD (.lit [])
/-- The union of the verbalizers. -/
def verbalizerU (c : Config) : G := (verbalizerUnion (rules c)).getD (.lit [])

theorem taggerUnion_eq (c : Config) : taggerUnion (rules c) = some (taggerU c) := rfl
theorem verbalizerUnion_eq (c : Config) : verbalizerUnion (rules c) = some (verbalizerU c) := rfl

theorem tagger_eq (c : Config) : tagger c = some (stream (taggerU c)) := rfl
theorem verbalizer_eq (c : Config) : verbalizer c = some (.star (verbalizerU c)) := rfl

theorem loose_tagger (c : Config) : Loose sepChar (taggerU c) := by
  refine loose_union (taggerUnion_eq c) ?_
  intro s hs hk
  simp only [rules, List.mem_cons, List.not_mem_nil, or_false] at hs
  rcases hs with rfl | rfl | rfl | rfl | rfl | rfl | rfl | rfl | rfl | rfl
  · exact (tokens_cardinal _).loose
  · exact (tokens_char _).loose
  · exact (tokens_date _).loose
  · exact (tokens_fraction _).loose
  · exact (tokens_math _).loose
  · exact (tokens_measure _).loose
  · exact (tokens_money _).loose
  · exact (tokens_ordinal _).loose
  · exact loose_time _
  · exact (tokens_whitelist _).loose

theorem tagger_ok (c : Config) : (stream (taggerU c)).ok = true := by
  obtain ⟨b0, b1, b2, b3⟩ := c
  revert b0 b1 b2 b3
  decide +kernel

theorem verbalizer_ok (c : Config) : (G.star (verbalizerU c)).ok = true := by
  obtain ⟨b0, b1, b2, b3⟩ := c
  revert b0 b1 b2 b3
  decide +kernel

theorem den_char {h : Bool} {c : Char} (hc : vchar c = true) : (pre h VCHAR).den [c] [half h c] 0 :=
  den_pre.2 ⟨vtext_single c hc, den_cls.2 ⟨half h c, half_vchar hc, rfl, rfl, rfl⟩⟩

theorem fallback (c : Config) : Fallback tokenOrders (taggerU c) (verbalizerU c) where
  noOrder := by decide +kernel
  tag d hd := by
    refine ⟨_, tag_union (taggerUnion_eq c) (s := ⟨charRule c.fullToHalf, some 10000000, true⟩)
      (by simp [rules]) rfl (w := 0) (den_addTokens.2 ⟨_, ?_, den_tagField.2 ⟨rfl, vtext_single d hd, _,
        den_char hd⟩⟩)⟩
    simp [write, charTok]
  verb d sp hd hsp := by
    refine ⟨_, 0, verb_union (verbalizerUnion_eq c) (s := ⟨charRule c.fullToHalf, some 10000000, true⟩)
      (by simp [rules]) rfl (den_deleteTokens.2 ⟨t!"value" ++ t!": \"" ++ esc [d] ++ t!"\"", sp, hsp, ?_,
        (verbalize_tagged t!"value" _ [d] _ 0 (vtext_single d hd)).2 (den_char hd)⟩)⟩
    simp [write, charTok]

end Verif.JaItn
