import Verif.ZhTn.Tokens

/-
Properties C51 and C52 of the Chinese normalizer: every text can be normalized, and every tagging is
a token stream that quotes the text.
-/

namespace Verif.ZhTn

open Verif.Wfst
open Verif.Wfst.Spec (Quoted values)
open Verif.Token.Spec (write writeAll Tok Writable)
open Verif.NBest (Pipeline normalize)

/-- **C52.** Every tagging of a non-empty text is the canonical writing of tokens, the parser reads
these tokens from it, and their values in order, with nothing but separator characters between them,
are the text. -/
theorem C52_quotes (c : Config) (g : G) (hg : tagger c = some g) (x t : Str) (w : W) (hx : x ≠ [])
    (h : g.den x t w) :
    ∃ ks toks, t = writeAll ks ∧ Verif.Token.parse t = .ok toks ∧
      List.Forall₂ Verif.Token.Denotes toks ks ∧
      Quoted (fun s => ∀ c ∈ s, c ∈ " /-.:：".toList) (ks.flatMap values) x := by
  rw [tagger_eq] at hg
  cases hg
  obtain ⟨ks, hne, rfl, hw, hq⟩ := stream_tokens (tokens_tagger c) h hx
  obtain ⟨toks, h1, h2⟩ := Verif.Token.C01_write_parse ks hne hw
  refine ⟨ks, toks, rfl, h1, h2, ?_⟩
  have : Seps sepChar = fun s => ∀ c ∈ s, c ∈ " /-.:：".toList := by
    funext s
    simp [Seps, sepChar]
  rw [← this]; exact hq

/-- **C51.** Whatever the switches and however ties between paths are broken, every text that is not
empty and has no NUL is normalized, for every valid `nbest`. -/
theorem C51_zh_tn (c : Config) (tg vg : G) (ht : tagger c = some tg) (hv : verbalizer c = some vg)
    (p : Pipeline W) (hr : Runs p tokenOrders tg vg) (x : Str) (hx : VText x) (hne : x ≠ []) (n : Int)
    (hn : 1 ≤ n) : ∃ fuel out, normalize p fuel x (.int n) = some (.ok out) := by
  rw [tagger_eq] at ht
  rw [verbalizer_eq] at hv
  cases ht; cases hv
  exact normalize_total hr (tagger_ok _) (verbalizer_ok c) (tokens_tagger c) (fallback c) hx hne n hn

/-- There are such graphs and such pipelines. -/
theorem C51_zh_tn_exists (c : Config) : ∃ tg vg p, tagger c = some tg ∧ verbalizer c = some vg ∧
    Runs p tokenOrders tg vg :=
  ⟨_, _, _, tagger_eq c, verbalizer_eq c, runs_pipelineOf (tagger_ok _) (verbalizer_ok c)⟩

/-- **C51.** The tagging character by character is one of the taggings of the text, reordering keeps
it, and it can be verbalized. -/
theorem C51_zh_tn_chars (c : Config) (tg vg : G) (ht : tagger c = some tg) (hv : verbalizer c = some vg)
    (x : Str) (hx : VText x) (hne : x ≠ []) :
    let t := writeAll (x.map fun d => ⟨"char".toList, [("value".toList, [d])]⟩)
    (∃ w, tg.den x t w) ∧ Verif.Token.reorder tokenOrders t = .ok t ∧ ∃ y w, vg.den t y w := by
  rw [tagger_eq] at ht
  rw [verbalizer_eq] at hv
  cases ht; cases hv
  exact char_by_char (fallback c) hx hne

/-- The taggings of a quotation mark and a digit: in each the values spell the text. -/
example : ((tagger {}).map fun g => (g.outputs t!"\"2").map Prod.fst) = some
    [t!"char { value: \"\\\"\" } math { value: \"2\" }",
      t!"char { value: \"\\\"\" } char { value: \"2\" }"] := by
  decide +kernel

/-- In the tagging as a fraction the solidus is the separator between the two values. -/
example : ((tagger {}).map fun g => ((g.outputs t!"1/2").map Prod.fst).head?) = some
    (some t!"fraction { numerator: \"1\" denominator: \"2\" }") := by
  decide +kernel

/-- Quoting the text with the solidus as separator. -/
example : Quoted (fun s => ∀ c ∈ s, c ∈ " /-.:：".toList) [t!"1", t!"2"] t!"1/2" :=
  .next (s := []) (v := t!"1") (x := t!"/2") (by decide)
    (.next (s := t!"/") (v := t!"2") (x := []) (by decide) (.done (by decide)))

end Verif.ZhTn
