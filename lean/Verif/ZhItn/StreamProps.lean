import Verif.ZhItn.Tokens

/-
Properties C51 and C52 of the Chinese inverse normalizer: every text can be normalized, and every
tagging is a token stream that quotes the text.
-/

namespace Verif.ZhItn

open Verif.Wfst
open Verif.Wfst.Spec (Quoted values)
open Verif.Token.Spec (write writeAll Tok Writable)
open Verif.NBest (Pipeline normalize)

theorem quoted_seps {vs : List Str} {x : Str} (h : Quoted (Seps sepChar) vs x) : x = vs.flatten := by
  have hn : ∀ s, Seps sepChar s → s = [] := by
    intro s hs
    cases s with
    | nil => rfl
    | cons c s => exact absurd (hs c (by simp)) (by simp [sepChar])
  induction h with
  | done hs => rw [hn _ hs]; rfl
  | next hs _ ih => rw [hn _ hs, ih]; rfl

/-- **C52.** Every tagging of a non-empty text is the canonical writing of tokens, the parser reads
these tokens from it, and their values in order spell the text, without anything left out. -/
theorem C52_quotes (c : Config) (g : G) (hg : tagger c = some g) (x t : Str) (w : W) (hx : x ≠ [])
    (h : g.den x t w) :
    ∃ ks toks, t = writeAll ks ∧ Verif.Token.parse t = .ok toks ∧
      List.Forall₂ Verif.Token.Denotes toks ks ∧ x = (ks.flatMap values).flatten := by
  rw [tagger_eq] at hg
  cases hg
  obtain ⟨ks, hne, rfl, hw, hq⟩ := stream_tokens (tokens_tagger c) h hx
  obtain ⟨toks, h1, h2⟩ := Verif.Token.C01_write_parse ks hne hw
  exact ⟨ks, toks, rfl, h1, h2, quoted_seps hq⟩

/-- **C51.** Whatever the switches and however ties between paths are broken, every text that is not
empty and has no NUL is normalized, for every valid `nbest`. -/
theorem C51_zh_itn (c : Config) (tg vg : G) (ht : tagger c = some tg) (hv : verbalizer c = some vg)
    (p : Pipeline W) (hr : Runs p tokenOrders tg vg) (x : Str) (hx : VText x) (hne : x ≠ []) (n : Int)
    (hn : 1 ≤ n) : ∃ fuel out, normalize p fuel x (.int n) = some (.ok out) := by
  rw [tagger_eq] at ht
  rw [verbalizer_eq] at hv
  cases ht; cases hv
  exact normalize_total hr (tagger_ok _) (verbalizer_ok c) (tokens_tagger c) (fallback c) hx hne n hn

/-- There are such graphs and such pipelines. -/
theorem C51_zh_itn_exists (c : Config) : ∃ tg vg p, tagger c = some tg ∧ verbalizer c = some vg ∧
    Runs p tokenOrders tg vg :=
  ⟨_, _, _, tagger_eq c, verbalizer_eq c, runs_pipelineOf (tagger_ok _) (verbalizer_ok c)⟩

/-- **C51.** The tagging character by character is one of the taggings of the text, reordering keeps
it, and it can be verbalized. -/
theorem C51_zh_itn_chars (c : Config) (tg vg : G) (ht : tagger c = some tg) (hv : verbalizer c = some vg)
    (x : Str) (hx : VText x) (hne : x ≠ []) :
    let t := writeAll (x.map fun d => ⟨"char".toList, [("value".toList, [d])]⟩)
    (∃ w, tg.den x t w) ∧ Verif.Token.reorder tokenOrders t = .ok t ∧ ∃ y w, vg.den t y w := by
  rw [tagger_eq] at ht
  rw [verbalizer_eq] at hv
  cases ht; cases hv
  exact char_by_char (fallback c) hx hne

/-- The tagging as a fraction: the word between the numbers belongs to the denominator. -/
example : ((tagger {}).map fun g => ((g.outputs t!"二分之一").map Prod.fst).head?) = some
    (some t!"fraction { sign: \"\" denominator: \"二分之\" numerator: \"一\" }") := by
  decide +kernel

end Verif.ZhItn
