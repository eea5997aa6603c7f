import Verif.Wfst.Pipeline

/-
Taggers that write tokens with additional spaces: as in Tokens.lean, but the outputs are any written
tokens of the wire format instead of the canonical ones.
-/

namespace Verif.Wfst

open Verif.Token.Spec (esc write writeAll Tok Writable IsName Distinct Block Stream Spaces)
open Verif.Token (Orders)
open Verif.NBest (Pipeline normalize)
open Spec (Quoted quotes values orderMarker)

/-- Texts, each followed by a space. -/
def spacedB (bs : List Str) : Str := bs.flatMap fun b => b ++ t!" "

/-- The outputs of a grammar are written tokens, each followed by a space, that quote the input. -/
def LooseBut (ms : List (Str × Str)) (sep : Char → Bool) (g : G) : Prop :=
  ∀ x t w, g.den x t w → ∃ (ks : List Tok) (bs : List Str), ks ≠ [] ∧ t = spacedB bs ∧
    List.Forall₂ Block bs ks ∧ (∀ k ∈ ks, Distinct k) ∧ Quoted (Seps sep) (ks.flatMap (quotes ms)) x

/-- The same with `preserve_order` as the only marker. -/
abbrev Loose (sep : Char → Bool) (g : G) : Prop := LooseBut orderMarker sep g

theorem TokensBut.loose {ms} {sep : Char → Bool} {g : G} (h : TokensBut ms sep g) : LooseBut ms sep g := by
  intro x t w hd
  obtain ⟨ks, h1, rfl, h3, h4⟩ := h _ _ _ hd
  refine ⟨ks, ks.map write, h1, ?_, ?_, fun k hk => (h3 k hk).2.2, h4⟩
  · simp [spaced, spacedB, List.flatMap_map]
  · rw [List.forall₂_map_left_iff, List.forall₂_same]
    intro k hk
    exact Verif.Token.block_write (h3 k hk).1 (h3 k hk).2.1

theorem star_loose {ms} {sep : Char → Bool} {g : G} (hg : LooseBut ms sep g) {x t : Str} {w : W}
    (h : Star g.den x t w) : ∃ (ks : List Tok) (bs : List Str), t = spacedB bs ∧
      List.Forall₂ Block bs ks ∧ (∀ k ∈ ks, Distinct k) ∧ Quoted (Seps sep) (ks.flatMap (quotes ms)) x ∧
      (ks = [] → x = []) := by
  induction h with
  | nil => exact ⟨[], [], rfl, .nil, by simp, .done (by intro c hc; cases hc), fun _ => rfl⟩
  | cons h1 _ ih =>
    obtain ⟨ks, bs, h11, rfl, h12, h13, h14⟩ := hg _ _ _ h1
    obtain ⟨ls, cs, rfl, h22, h23, h24, _⟩ := ih
    refine ⟨ks ++ ls, bs ++ cs, by simp [spacedB], List.rel_append h12 h22, ?_, ?_, by simp [h11]⟩
    · intro k hk
      rcases List.mem_append.1 hk with hk | hk
      · exact h13 k hk
      · exact h23 k hk
    · rw [List.flatMap_append]; exact Quoted.append h14 h24

theorem stream_blocks {bs : List Str} {ks : List Tok} (h : List.Forall₂ Block bs ks) (hne : ks ≠ []) :
    ∃ t, spacedB bs = t ++ [' '] ∧ t ≠ [] ∧ Stream t ks := by
  have hsp : ∀ {s : Str}, s = [] ∨ s = [' '] → Spaces s := by
    rintro s (rfl | rfl)
    · simp [Spaces]
    · simp [Spaces]
  have hb : ∀ {b : Str} {k : Tok}, Block b k → b ≠ [] := by
    rintro _ _ ⟨h, _⟩ he
    exact h.1 (List.append_eq_nil_iff.1 he).1
  have key : ∀ (sp : Str), sp = [] ∨ sp = [' '] → ∃ t, sp ++ spacedB bs = t ++ [' '] ∧ t ≠ [] ∧ Stream t ks := by
    induction h with
    | nil => exact absurd rfl hne
    | @cons b k bs ks hbk hrest ih =>
      intro sp hs
      cases hrest with
      | nil =>
        refine ⟨sp ++ (b ++ []), by simp [spacedB], ?_, .block (hsp hs) hbk (.done (hsp (.inl rfl)))⟩
        simp [hb hbk]
      | cons h1 h2 =>
        obtain ⟨t, ht, hn, hst⟩ := ih (by simp) [' '] (.inr rfl)
        refine ⟨sp ++ (b ++ t), ?_, by simp [hb hbk], .block (hsp hs) hbk hst⟩
        rw [List.append_assoc, List.append_assoc, ← ht]
        simp [spacedB]
  simpa using key [] (.inl rfl)

/-- Taggings of a non-empty text are token streams that quote it. -/
theorem stream_loose {ms} {sep : Char → Bool} {g : G} (hg : LooseBut ms sep g) {x t : Str} {w : W}
    (h : (stream g).den x t w) (hx : x ≠ []) : ∃ ks : List Tok, t ≠ [] ∧ Stream t ks ∧
      (∀ k ∈ ks, Distinct k) ∧ Quoted (Seps sep) (ks.flatMap (quotes ms)) x := by
  obtain ⟨m, w₁, w₂, h1, h2, _⟩ := h
  obtain ⟨_, rfl, _⟩ := den_dropFinal.1 h2
  obtain ⟨ks, bs, rfl, h3, h4, h5, h6⟩ := star_loose hg h1
  have hne : ks ≠ [] := fun hk => hx (h6 hk)
  obtain ⟨t, ht, hn, hst⟩ := stream_blocks h3 hne
  rw [ht, dropFinalSpace_append]
  exact ⟨ks, hn, hst, h4, h5⟩

theorem loose_union {ms} {sep : Char → Bool} {specs : List RuleSpec} {u : G} (h : taggerUnion specs = some u)
    (hs : ∀ s ∈ specs, s.taggerWeight.isSome = true → LooseBut ms sep s.rule.tagger) : LooseBut ms sep u := by
  intro x t w hd
  obtain ⟨s, hmem, k, w₀, hk, h0, _⟩ := ((tagger_union specs).2 u h x t w).1 hd
  exact hs s hmem (by rw [hk]; rfl) x t w₀ h0

/-- With tokens as outputs and the fallback rule, normalization never fails. -/
theorem normalize_total_loose {p : Pipeline W} {orders : Orders} {ms} {sep : Char → Bool} {tu vu : G}
    (hr : Runs p orders (stream tu) (.star vu)) (ht : (stream tu).ok = true) (hv : (G.star vu).ok = true)
    (htok : LooseBut ms sep tu) (hf : Fallback orders tu vu) {x : Str} (hx : VText x) (hne : x ≠ [])
    (n : Int) (hn : 1 ≤ n) : ∃ fuel out, normalize p fuel x (.int n) = some (.ok out) := by
  obtain ⟨⟨w, h1⟩, h2, y, v, h3⟩ := char_by_char hf hx hne
  refine normalize_succeeds hr ht hv hne ?_ h1 h2 h3 n hn
  intro t w ht
  obtain ⟨ks, hn, hst, hd, _⟩ := stream_loose htok ht hne
  obtain ⟨toks, hp, _⟩ := (Verif.Token.C03_parse_iff_grammar t ks).2 ⟨hn, hst, hd⟩
  exact ⟨_, Verif.Token.reorder_ok hp⟩

end Verif.Wfst
