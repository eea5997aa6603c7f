import Verif.JaItn.StreamProps
import Verif.Wfst.Must
import Verif.Wfst.Plain

/-
Property C77 for the Japanese inverse normalizer: a text without numerals has one tagging, character by
character, and one result.
-/

namespace Verif.JaItn

open Verif.Wfst
open Verif.Token.Spec (write writeAll Tok esc)
open Verif.NBest (Pipeline normalize)

/-- The text in the form the rules see: full-width characters are made half-width if the switch says so. -/
def seen (k : Config) (x : Str) : Str :=
  if k.fullToHalf then x.map fun c => (fullToHalf.lookup c).getD c else x

/-- The rules see no numeral in the text. -/
def Unread (k : Config) (x : Str) : Prop :=
  (∀ c ∈ seen k x, c ∉ "〇零一二三四五六七八九两十百千".toList) ∧ ¬ "ゼロ".toList <:+: seen k x ∧
    ¬ "れい".toList <:+: seen k x

theorem seen_eq (k : Config) (x : Str) : seen k x = x.map (half k.fullToHalf) := by
  unfold seen half
  cases k.fullToHalf <;> simp

theorem Unread.infix {k : Config} {u x : Str} (h : Unread k x) (hu : u <:+: x) : Unread k u := by
  have hs : seen k u <:+: seen k x := by
    rw [seen_eq, seen_eq]
    exact hu.map _
  exact ⟨fun c hc => h.1 c (hs.mem hc), fun hk => h.2.1 (hk.trans hs), fun hk => h.2.2 (hk.trans hs)⟩

/-- The words that `Unread` excludes. -/
def numerals : List Str := t!"〇零一二三四五六七八九两十百千".map (fun c => [c]) ++ [t!"ゼロ", t!"れい"]

theorem unread_sees {k : Config} {g : G} (hm : Sees numerals (half k.fullToHalf) g) {x y : Str} {w : W}
    (hx : Unread k x) (h : g.den x y w) : False := by
  obtain ⟨n, hn, hi⟩ := hm _ _ _ h
  rw [← seen_eq] at hi
  rcases List.mem_append.1 hn with hn | hn
  · obtain ⟨c, hc, rfl⟩ := List.mem_map.1 hn
    exact hx.1 c (hi.mem (by simp)) hc
  · simp only [List.mem_cons, List.not_mem_nil, or_false] at hn
    rcases hn with rfl | rfl
    · exact hx.2.1 hi
    · exact hx.2.2 hi

theorem sees_pre {h : Bool} {g : G} (hm : mustW numerals g = true) : Sees numerals (half h) (pre h g) := by
  intro x y w hd
  exact mustW_den hm (den_pre.1 hd).2

theorem sees_value {h : Bool} {n : Str} {g : G} (hm : mustW numerals g = true) :
    Sees numerals (half h) (valueRule n (pre h g)).tagger :=
  sees_addTokens (sees_tagField (sees_pre hm))

/-- Every configuration. -/
theorem every_config {P : Config → Bool} (h : ([true, false].all fun a => [true, false].all fun b =>
    [true, false].all fun c => [true, false].all fun d => P ⟨a, b, c, d⟩) = true) (k : Config) : P k = true := by
  obtain ⟨a, b, c, d⟩ := k
  simp only [List.all_cons, List.all_nil, Bool.and_true, Bool.and_eq_true] at h
  obtain ⟨⟨⟨⟨_, _⟩, _, _⟩, ⟨_, _⟩, _, _⟩, ⟨⟨_, _⟩, _, _⟩, ⟨_, _⟩, _, _⟩ := h
  cases a <;> cases b <;> cases c <;> cases d <;> simp_all

theorem unread_tagger (k : Config) {x t : Str} {w : W} (hx : Unread k x)
    (h : (taggerU k).den x t w) : ∃ c, x = [c] ∧ t = write (charTok c) ++ [' '] := by
  obtain ⟨s, hs, j, w₀, hj, h1, _⟩ := ((tagger_union _).2 _ (taggerUnion_eq k) x t w).1 h
  simp only [rules, List.mem_cons, List.not_mem_nil, or_false] at hs
  rcases hs with rfl | rfl | rfl | rfl | rfl | rfl | rfl | rfl | rfl | rfl
  · exact (unread_sees (sees_value (every_config (P := fun k => mustW numerals (cardinalG k))
      (by decide +kernel) k)) hx h1).elim
  · obtain ⟨m, rfl, h2⟩ := den_addTokens.1 h1
    obtain ⟨rfl, _, z, h3⟩ := den_tagField.1 h2
    obtain ⟨c, _, hc, _⟩ := (den_pre.1 h3).2
    obtain ⟨d, rfl, _⟩ := List.map_eq_singleton_iff.1 hc
    exact ⟨d, rfl, by simp [write, charTok]⟩
  · refine (unread_sees (g := (dateRule k.fullToHalf).tagger) ?_ hx h1).elim
    have hy := sees_tagField (n := t!"year") (sees_pre (h := k.fullToHalf)
      (g := tenThousandMinus + (toG + tenThousandMinus).ques + del t!"年") (by decide +kernel))
    have hm := sees_tagField (n := t!"month") (sees_pre (h := k.fullToHalf)
      (g := .tab month + (toG + .tab month).ques + del t!"月") (by decide +kernel))
    have he := sees_tagField (n := t!"year") (sees_pre (h := k.fullToHalf)
      (g := eraContext + eraName + tenThousandMinus) (by decide +kernel))
    exact sees_addTokens (sees_or (sees_or (sees_or (sees_right hm) (sees_left (sees_left hm)))
      (sees_left (sees_left (sees_right hm)))) he)
  · refine (unread_sees (g := (fractionRule k.fullToHalf).tagger) ?_ hx h1).elim
    have hn := sees_tagField (n := t!"numerator") (sees_pre (h := k.fullToHalf)
      (g := .star (del t!" ") + fractionNumber) (by decide +kernel))
    exact sees_addTokens (sees_right hn)
  · exact (unread_sees (sees_value (every_config (P := fun k => mustW numerals
      ((anyInteger k.million ||| decimal k.million) +
        (.tab operator + (anyInteger k.million ||| decimal k.million)).plus))
      (by decide +kernel) k)) hx h1).elim
  · exact (unread_sees (sees_value (every_config (P := fun k => mustW numerals
      (((someNumber k ||| decimal k.million) + G.tab unitEn + perUnit.ques) |||
        ((someNumber k ||| decimal k.million) + G.wt (.tab unitJa) 100)))
      (by decide +kernel) k)) hx h1).elim
  · refine (unread_sees (g := (moneyRule k).tagger) ?_ hx h1).elim
    exact sees_addTokens (sees_left (sees_left (sees_tagField (sees_pre
      (every_config (P := fun k => mustW numerals (someNumber k ||| decimal k.million)) (by decide +kernel) k)))))
  · exact (unread_sees (sees_value (every_config (P := fun k => mustW numerals
      ((number k.million + G.lit t!"番目") ||| (G.lit t!"第" + number k.million)))
      (by decide +kernel) k)) hx h1).elim
  · refine (unread_sees (g := (timeRule k.fullToHalf).tagger) ?_ hx h1).elim
    have h1 := sees_tagField (n := t!"hour") (sees_pre (h := k.fullToHalf) (g := .tab hour) (by decide +kernel))
    have h2 := sees_tagField (n := t!"minute") (sees_pre (h := k.fullToHalf) (g := .tab minute) (by decide +kernel))
    have h3 := sees_tagField (n := t!"second") (sees_pre (h := k.fullToHalf) (g := .tab second) (by decide +kernel))
    exact sees_addTokens (sees_or (sees_or (sees_left (sees_right h2)) (sees_left h1)) (sees_right h3))
  · exact (unread_sees (sees_value (g := .tab whitelist) (by decide +kernel)) hx h1).elim

theorem onlyChar_value (h : Bool) : OnlyChar (charRule h).verbalizer (fun c => [half h c]) where
  name p y w hd := by
    obtain ⟨m, sp, _, rfl, _⟩ := den_deleteTokens.1 hd
    exact ⟨'c', _, rfl, by decide⟩
  char c p y w r s hd he := by
    obtain ⟨m, sp, hsp, rfl, h1⟩ := den_deleteTokens.1 hd
    obtain ⟨v, rfl, hv⟩ := den_verbalizeField.1 h1
    obtain ⟨t, rfl, _, ht⟩ := den_decoded_some.1 hv
    rw [write_charTok] at he ⊢
    have e1 : t!"char { value: \"" ++ (esc t ++ '"' :: (t!" }" ++ sp ++ r)) =
        t!"char { value: \"" ++ (esc [c] ++ '"' :: (t!" }" ++ s)) := by
      simpa using he
    have e2 := (Verif.Token.value_prefix_unique (Verif.Token.value_esc t) (Verif.Token.value_esc [c])
      (List.append_cancel_left e1)).1
    have e3 : t = [c] := by
      rw [← Verif.Token.escapeValue_eq_esc, ← Verif.Token.escapeValue_eq_esc] at e2
      exact Verif.Token.C02_escape_injective e2
    subst e3
    obtain ⟨d, _, hc, rfl, _⟩ := (den_pre.1 ht).2
    simp only [List.map_cons, List.map_nil, List.cons.injEq, and_true] at hc
    refine ⟨?_, by rw [hc]⟩
    rcases hsp with rfl | rfl
    · left; simp
    · right; simp

theorem onlyChar (k : Config) : OnlyChar (verbalizerU k) (fun c => [half k.fullToHalf c]) := by
  refine onlyChar_union (verbalizerUnion_eq k) ?_
  intro s hs
  simp only [rules, List.mem_cons, List.not_mem_nil, or_false] at hs
  rcases hs with rfl | rfl | rfl | rfl | rfl | rfl | rfl | rfl | rfl | rfl
  · exact .inl (otherName_delete (by decide))
  · exact .inr (onlyChar_value _)
  all_goals exact .inl (otherName_delete (by decide))

/-- **C77.** A text without anything to read has one tagging: character by character. -/
theorem C77_ja_itn_tagging (k : Config) (tg : G) (ht : tagger k = some tg) (x : Str) (hne : x ≠ [])
    (hx : Unread k x) (t : Str) (w : W) (h : tg.den x t w) :
    t = writeAll (x.map fun c => ⟨"char".toList, [("value".toList, [c])]⟩) := by
  rw [tagger_eq] at ht
  cases ht
  exact plain_stream hne (fun u hu t w hd => unread_tagger k (hx.infix hu) hd) h

/-- **C77.** A text without anything to read has exactly one result, whatever the switches, for every
valid `nbest` and however ties are broken: the text itself, in half-width characters if the switch says
so. -/
theorem C77_ja_itn (k : Config) (tg vg : G) (ht : tagger k = some tg) (hv : verbalizer k = some vg)
    (p : Pipeline W) (hr : Runs p tokenOrders tg vg) (x : Str) (hx : VText x) (hne : x ≠ []) (hu : Unread k x)
    (n : Int) (hn : 1 ≤ n) : ∃ fuel out, normalize p fuel x (.int n) = some (.ok out) ∧
      out.toList = [if k.fullToHalf then x.map fun c => (fullToHalf.lookup c).getD c else x] := by
  rw [tagger_eq] at ht
  rw [verbalizer_eq] at hv
  cases ht; cases hv
  obtain ⟨fuel, out, h1, h2⟩ := plain_normalize hr (tagger_ok _) (verbalizer_ok k) (fallback k) (onlyChar k)
    hx hne (fun u hu' t w hd => unread_tagger k (hu.infix hu') hd) n hn
  refine ⟨fuel, out, h1, ?_⟩
  rw [h2]
  congr 1
  show _ = seen k x
  rw [seen_eq, List.map_eq_flatMap]

example : Unread {} t!"これは 2024 年の、いい天気です。" := ⟨by decide +kernel, by decide +kernel, by decide +kernel⟩

example : ¬ Unread {} t!"きれい" := fun h => h.2.2 ⟨t!"き", [], rfl⟩

end Verif.JaItn
