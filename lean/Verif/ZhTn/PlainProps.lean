import Verif.ZhTn.StreamProps
import Verif.ZhTn.PostProps
import Verif.Wfst.Must
import Verif.Wfst.Plain

/-
Property C77 for the Chinese normalizer: a text without digits and without the few other things the
rules can read has one tagging, character by character, and one result.
-/

namespace Verif.ZhTn

open Verif.Wfst
open Verif.Token.Spec (write writeAll Tok)
open Verif.NBest (Pipeline normalize)

/-- The text has no digit, none of the four operators, no 儿, and none of the three words that the
rules read. -/
structure Unread (x : Str) : Prop where
  chars : ∀ c ∈ x, c ∉ "0123456789０１２３４５６７８９×÷≥≤儿".toList
  ge : ¬ ">=".toList <:+: x
  le : ¬ "<=".toList <:+: x
  mvp : ¬ "M.V.P".toList <:+: x

instance (x : Str) : Decidable (Unread x) :=
  if h1 : ∀ c ∈ x, c ∉ "0123456789０１２３４５６７８９×÷≥≤儿".toList then
    if h2 : ">=".toList <:+: x then isFalse fun h => h.ge h2
    else if h3 : "<=".toList <:+: x then isFalse fun h => h.le h3
    else if h4 : "M.V.P".toList <:+: x then isFalse fun h => h.mvp h4
    else isTrue ⟨h1, h2, h3, h4⟩
  else isFalse fun h => h1 h.chars

theorem Unread.infix {u x : Str} (h : Unread x) (hu : u <:+: x) : Unread u :=
  ⟨fun c hc => h.chars c (hu.mem hc), fun hk => h.ge (hk.trans hu), fun hk => h.le (hk.trans hu),
    fun hk => h.mvp (hk.trans hu)⟩

/-- The characters that `Unread` excludes. -/
def triggers : Str := t!"0123456789０１２３４５６７８９×÷≥≤儿"

theorem unread_must {g : G} (hm : must triggers g = true) {x y : Str} {w : W} (hx : Unread x)
    (h : g.den x y w) : False := by
  obtain ⟨c, hc, hq⟩ := must_den hm h
  exact hx.chars c hc hq

/-- The rest of the table reads one of the three words. -/
theorem unread_tab {t : List (Str × Str)}
    (ht : t.all (fun e => hasAny triggers e.1 || [t!">=", t!"<=", t!"M.V.P"].contains e.1) = true)
    {x y : Str} {w : W} (hx : Unread x) (h : (G.tab t).den x y w) : False := by
  obtain ⟨hm, _⟩ := h
  have := List.all_eq_true.1 ht _ hm
  simp only [Bool.or_eq_true, List.contains_eq_mem, decide_eq_true_eq, List.mem_cons, List.not_mem_nil,
    or_false] at this
  rcases this with h | h | h | h
  · obtain ⟨c, hc, hq⟩ := hasAny_iff.1 h
    exact hx.chars c hc hq
  · exact hx.ge (h ▸ List.infix_refl _)
  · exact hx.le (h ▸ List.infix_refl _)
  · exact hx.mvp (h ▸ List.infix_refl _)

theorem unread_tagger (k : Config) {x t : Str} {w : W} (hx : Unread x)
    (h : (taggerU k.removeErhua).den x t w) : ∃ c, x = [c] ∧ t = write (charTok c) ++ [' '] := by
  obtain ⟨s, hs, j, w₀, hj, h1, _⟩ := ((tagger_union _).2 _ (taggerUnion_eq k) x t w).1 h
  simp only [rules, List.mem_cons, List.not_mem_nil, or_false] at hs
  rcases hs with rfl | rfl | rfl | rfl | rfl | rfl | rfl | rfl | rfl | rfl | rfl
  · exact (unread_must (g := dateRule.tagger) (by decide +kernel) hx h1).elim
  · obtain ⟨m, rfl, h2⟩ := den_addTokens.1 h1
    rcases h2 with h2 | h2
    · exact (unread_must (g := G.wt (Wfst.insert t!"erhua: \"" + G.lit t!"儿" + Wfst.insert t!"\"") 10000)
        (by decide +kernel) hx h2).elim
    · obtain ⟨_, _, z, h3⟩ := den_tagField.1 h2
      rcases h3 with h3 | h3
      · exact (unread_tab (t := whitelist) (by decide +kernel) hx h3).elim
      · exact (unread_tab (t := erhuaWhitelist) (by decide +kernel) hx h3).elim
  · exact (unread_must (g := sportRule.tagger) (by decide +kernel) hx h1).elim
  · exact (unread_must (g := fractionRule.tagger) (by decide +kernel) hx h1).elim
  · exact (unread_must (g := measureRule.tagger) (by decide +kernel) hx h1).elim
  · exact (unread_must (g := moneyRule.tagger) (by decide +kernel) hx h1).elim
  · exact (unread_must (g := timeRule.tagger) (by decide +kernel) hx h1).elim
  · exact (unread_must (g := cardinalRule.tagger) (by decide +kernel) hx h1).elim
  · obtain ⟨m, rfl, h2⟩ := den_addTokens.1 h1
    obtain ⟨_, _, z, h3⟩ := den_tagField.1 h2
    rcases h3 with h3 | h3
    · exact (unread_must (g := number + .star ((del t!" ").ques + (.tab operator ||| symbols) +
        (del t!" ").ques + number)) (by decide +kernel) hx h3).elim
    · exact (unread_tab (t := unambiguousOperator) (by decide +kernel) hx h3).elim
  · exact char_tagged h1
  · cases hj

theorem onlyChar (k : Config) : OnlyChar (.comp (verbalizerU k.removeErhua) (postprocessor k))
    (fun c =>
      let c := if k.traditionalToSimple then (traditionalToSimple.lookup c).getD c else c
      if k.removeInterjections && (c == '呃' || c == '啊') then []
      else if k.removePuncts && (punctsZh.contains c || isPunct c) then []
      else
        let c := if k.fullToHalf then (fullToHalf.lookup c).getD c else c
        if k.tagOov && !inCharset c then "<oov>".toList ++ c :: "</oov>".toList else [c]) := by
  refine onlyChar_comp (onlyChar_union (verbalizerUnion_eq k) ?_) ?_
  · intro s hs
    simp only [rules, List.mem_cons, List.not_mem_nil, or_false] at hs
    rcases hs with rfl | rfl | rfl | rfl | rfl | rfl | rfl | rfl | rfl | rfl | rfl
    · exact .inl (otherName_delete (by decide))
    · refine .inl (otherName_alt (otherName_delete (by decide)) ?_)
      split <;> exact otherName_delete (by decide)
    · exact .inl (otherName_delete (by decide))
    · exact .inl (otherName_delete (by decide))
    · exact .inl (otherName_alt (otherName_delete (by decide)) (otherName_delete (by decide)))
    · exact .inl (otherName_delete (by decide))
    · exact .inl (otherName_delete (by decide))
    · exact .inl (otherName_delete (by decide))
    · exact .inl (otherName_delete (by decide))
    · exact .inr onlyChar_default
    · exact .inl (otherName_delete (by decide))
  · intro c y w h
    obtain ⟨_, _, rfl⟩ := (C59_postprocess k [c] y w).1 h
    simp

/-- **C77.** A text without anything to read has one tagging: character by character. -/
theorem C77_zh_tn_tagging (k : Config) (tg : G) (ht : tagger k = some tg) (x : Str) (hne : x ≠ [])
    (hx : Unread x) (t : Str) (w : W) (h : tg.den x t w) :
    t = writeAll (x.map fun c => ⟨"char".toList, [("value".toList, [c])]⟩) := by
  rw [tagger_eq] at ht
  cases ht
  exact plain_stream hne (fun u hu t w hd => unread_tagger k (hx.infix hu) hd) h

/-- **C77.** A text without anything to read has exactly one result, whatever the switches, for every
valid `nbest` and however ties are broken: each character goes through the switches by itself. -/
theorem C77_zh_tn (k : Config) (tg vg : G) (ht : tagger k = some tg) (hv : verbalizer k = some vg)
    (p : Pipeline W) (hr : Runs p tokenOrders tg vg) (x : Str) (hx : VText x) (hne : x ≠ []) (hu : Unread x)
    (n : Int) (hn : 1 ≤ n) : ∃ fuel out, normalize p fuel x (.int n) = some (.ok out) ∧
      out.toList = [x.flatMap fun c =>
        let c := if k.traditionalToSimple then (traditionalToSimple.lookup c).getD c else c
        if k.removeInterjections && (c == '呃' || c == '啊') then []
        else if k.removePuncts && (punctsZh.contains c || isPunct c) then []
        else
          let c := if k.fullToHalf then (fullToHalf.lookup c).getD c else c
          if k.tagOov && !inCharset c then "<oov>".toList ++ c :: "</oov>".toList else [c]] := by
  rw [tagger_eq] at ht
  rw [verbalizer_eq] at hv
  cases ht; cases hv
  exact plain_normalize hr (tagger_ok _) (verbalizer_ok k) (fallback k) (onlyChar k) hx hne
    (fun u hu' t w hd => unread_tagger k (hu.infix hu') hd) n hn

/-- **C77.** With the default switches, a text of characters that are neither traditional nor
full-width nor interjections comes back unchanged. -/
theorem C77_zh_tn_unchanged (tg vg : G) (ht : tagger {} = some tg) (hv : verbalizer {} = some vg)
    (p : Pipeline W) (hr : Runs p tokenOrders tg vg) (x : Str) (hx : VText x) (hne : x ≠ []) (hu : Unread x)
    (hc : ∀ c ∈ x, c ≠ '呃' ∧ c ≠ '啊' ∧ traditionalToSimple.lookup c = none ∧ fullToHalf.lookup c = none)
    (n : Int) (hn : 1 ≤ n) : ∃ fuel out, normalize p fuel x (.int n) = some (.ok out) ∧ out.toList = [x] := by
  obtain ⟨fuel, out, h1, h2⟩ := C77_zh_tn {} tg vg ht hv p hr x hx hne hu n hn
  refine ⟨fuel, out, h1, ?_⟩
  rw [h2]
  congr 1
  clear * - hc
  induction x with
  | nil => rfl
  | cons c x ih =>
    rw [List.flatMap_cons, ih (fun d hd => hc d (by simp [hd]))]
    obtain ⟨h1, h2, h3, h4⟩ := hc c (by simp)
    simp [h1, h2, h3, h4]

example : Unread t!"你好，world - a+b~c：今天天气不错。" := by decide +kernel

example : ¬ Unread t!"a>=b" := by decide +kernel

example : ∀ c ∈ t!"你好，world", c ≠ '呃' ∧ c ≠ '啊' ∧ traditionalToSimple.lookup c = none ∧
    (c = '，' ∨ fullToHalf.lookup c = none) := by decide +kernel

end Verif.ZhTn
