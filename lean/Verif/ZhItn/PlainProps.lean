import Verif.ZhItn.StreamProps
import Verif.Wfst.Must
import Verif.Wfst.Plain

/-
Property C77 for the Chinese inverse normalizer: a text without numerals and without the few other
things the rules can read has one tagging, character by character, and one result.
-/

namespace Verif.ZhItn

open Verif.Wfst
open Verif.Token.Spec (write writeAll Tok)
open Verif.NBest (Pipeline normalize)

/-- The text has no character for zero to ten, no 百分, none of the two numeral-free words of the
whitelist, and no licence plate without digits: a province followed by six letters. -/
structure Unread (x : Str) : Prop where
  chars : ∀ c ∈ x, c ∉ "零洞一幺壹二两贰三叁四肆五伍六陆七柒拐八捌九玖十".toList
  percent : ¬ "百分".toList <:+: x
  word₁ : ¬ "几百万".toList <:+: x
  word₂ : ¬ "几千万".toList <:+: x
  plate : ∀ c ls, c ∈ "京津沪渝冀豫云辽黑湘皖鲁新苏浙赣鄂桂甘晋蒙陕吉闽贵粤青藏川宁琼".toList →
    ls.length = 6 → (∀ l ∈ ls, 'a' ≤ l ∧ l ≤ 'z' ∨ 'A' ≤ l ∧ l ≤ 'Z') → ¬ c :: ls <:+: x

theorem Unread.infix {u x : Str} (h : Unread x) (hu : u <:+: x) : Unread u :=
  ⟨fun c hc => h.chars c (hu.mem hc), fun hk => h.percent (hk.trans hu), fun hk => h.word₁ (hk.trans hu),
    fun hk => h.word₂ (hk.trans hu), fun c ls h1 h2 h3 hk => h.plate c ls h1 h2 h3 (hk.trans hu)⟩

/-- A text without a province and without 百分, 几 and numerals. -/
theorem Unread.easy {x : Str} (h : ∀ c ∈ x, c ∉ "零洞一幺壹二两贰三叁四肆五伍六陆七柒拐八捌九玖十百几".toList ∧
    c ∉ "京津沪渝冀豫云辽黑湘皖鲁新苏浙赣鄂桂甘晋蒙陕吉闽贵粤青藏川宁琼".toList) : Unread x where
  chars c hc hm := (h c hc).1 (List.mem_append_left t!"百几" hm)
  percent hk := (h '百' (hk.mem (by decide))).1 (by decide)
  word₁ hk := (h '几' (hk.mem (by decide))).1 (by decide)
  word₂ hk := (h '几' (hk.mem (by decide))).1 (by decide)
  plate c ls hc _ _ hk := (h c (hk.mem List.mem_cons_self)).2 hc

/-- The characters that `Unread` excludes. -/
def triggers : Str := t!"零洞一幺壹二两贰三叁四肆五伍六陆七柒拐八捌九玖十"

theorem unread_must {g : G} (hm : must triggers g = true) {x y : Str} {w : W} (hx : Unread x)
    (h : g.den x y w) : False := by
  obtain ⟨c, hc, hq⟩ := must_den hm h
  exact hx.chars c hc hq

theorem unread_percent (b : Bool) {x y : Str} {w : W} (hx : Unread x)
    (h : (percent b).den x y w) : False := by
  obtain ⟨_, _, _, _, _, _, h1, _, rfl, _, _⟩ := h
  obtain ⟨_, _, _, _, _, _, h1, _, rfl, _, _⟩ := h1
  obtain ⟨_, _, _, _, _, _, h1, _, rfl, _, _⟩ := h1
  obtain ⟨s, _, _, _, _, _, _, h1, rfl, _, _⟩ := h1
  obtain ⟨rfl, _, _⟩ := den_del.1 h1
  refine hx.percent ⟨s, ?_, ?_⟩
  rotate_left
  · simp only [List.append_assoc]
    rfl

theorem unread_measure (c : Config) {x y : Str} {w : W} (hx : Unread x)
    (h : (measureRule c).tagger.den x y w) : False := by
  obtain ⟨m, rfl, h2⟩ := den_addTokens.1 h
  rcases h2 with h2 | h2
  · obtain ⟨_, _, z, h3⟩ := den_tagField.1 h2
    rcases h3 with ((h3 | h3) | h3) | h3
    · refine unread_must (g := measure c) ?_ hx h3
      rcases c with ⟨r, a, b, d⟩; cases r <;> cases a <;> cases b <;> cases d <;> decide +kernel
    · refine unread_must (g := measureSpecial c.zeroToNine) ?_ hx h3
      cases c.zeroToNine <;> decide +kernel
    · exact unread_percent _ hx h3
    · refine unread_must (g := moneyColloquial c.million) ?_ hx h3
      cases c.million <;> decide +kernel
  · refine unread_must (g := tagField t!"denominator" measureDenominator + Wfst.insert t!" " +
      tagField t!"numerator" (measure c)) ?_ hx h2
    rcases c with ⟨r, a, b, d⟩; cases r <;> cases a <;> cases b <;> cases d <;> decide +kernel

theorem letters_pow {n : Nat} {x y : Str} {w : W} (hx : ∀ c ∈ x, c ∉ triggers)
    (h : ((G.cls isAlpha ||| digits).pow n).den x y w) : x.length = n ∧ ∀ c ∈ x, isAlpha c = true := by
  induction n generalizing x y w with
  | zero => obtain ⟨rfl, _⟩ := h; simp
  | succ n ih =>
    obtain ⟨x₁, y₁, w₁, x₂, y₂, w₂, h1, h2, rfl, _, _⟩ := h
    obtain ⟨h3, h4⟩ := ih (fun c hc => hx c (by simp [hc])) h2
    rcases h1 with h1 | h1
    · obtain ⟨c, hc, rfl, _⟩ := h1
      refine ⟨by simp [h3, Nat.add_comm], ?_⟩
      intro d hd
      rcases List.mem_append.1 hd with hd | hd
      · rw [List.mem_singleton.1 hd]; exact hc
      · exact h4 d hd
    · exfalso
      obtain ⟨c, hc, hq⟩ := must_den (q := triggers) (g := digits) (by decide +kernel) h1
      exact hx c (by simp [hc]) hq

theorem unread_plate {x y : Str} {w : W} (hx : Unread x) (h : plate.den x y w) : False := by
  have key : ∀ n x y w, Unread x → ((.tab province + .cls isAlpha + (.cls isAlpha ||| digits).pow (n + 5)) : G).den x y w →
      False := by
    intro n x y w hx h
    obtain ⟨_, _, _, ls, _, _, h1, h2, rfl, _, _⟩ := h
    obtain ⟨p, z, _, _, _, _, h3, h4, rfl, _, _⟩ := h1
    obtain ⟨l, hl, rfl, _⟩ := h4
    obtain ⟨hlen, hal⟩ := letters_pow (fun c hc => hx.chars c (by simp [hc])) h2
    obtain ⟨c, rfl, hc⟩ : ∃ c, p = [c] ∧ c ∈ "京津沪渝冀豫云辽黑湘皖鲁新苏浙赣鄂桂甘晋蒙陕吉闽贵粤青藏川宁琼".toList := by
      obtain ⟨hm, _⟩ := h3
      have hall : province.all (fun e => match e.1 with
          | [c] => t!"京津沪渝冀豫云辽黑湘皖鲁新苏浙赣鄂桂甘晋蒙陕吉闽贵粤青藏川宁琼".contains c
          | _ => false) = true := by decide +kernel
      have := List.all_eq_true.1 hall _ hm
      match p, this with
      | [c], h => exact ⟨c, rfl, by simpa using h⟩
    refine hx.plate c (l :: ls.take 5) hc (by simp [hlen]) ?_ ?_
    · intro d hd
      have : isAlpha d = true := by
        rcases List.mem_cons.1 hd with rfl | hd
        · exact hl
        · exact hal d (List.mem_of_mem_take hd)
      simpa [isAlpha, isLower, isUpper] using this
    · refine ⟨[], ls.drop 5, ?_⟩
      simp
  rcases h with h | h
  · exact key 0 x y w hx h
  · exact key 1 x y w hx h

theorem unread_tagger (k : Config) {x t : Str} {w : W} (hx : Unread x)
    (h : (taggerU k).den x t w) : ∃ c, x = [c] ∧ t = write (charTok c) ++ [' '] := by
  obtain ⟨s, hs, j, w₀, hj, h1, _⟩ := ((tagger_union _).2 _ (taggerUnion_eq k) x t w).1 h
  simp only [rules, List.mem_cons, List.not_mem_nil, or_false] at hs
  rcases hs with rfl | rfl | rfl | rfl | rfl | rfl | rfl | rfl | rfl | rfl | rfl
  · exact (unread_must (g := dateRule.tagger) (by decide +kernel) hx h1).elim
  · obtain ⟨m, rfl, h2⟩ := den_addTokens.1 h1
    obtain ⟨_, _, z, hm, _⟩ := den_tagField.1 h2
    have hall : whitelist.all (fun e => hasAny triggers e.1 || [t!"几百万", t!"几千万"].contains e.1) = true := by
      decide +kernel
    have := List.all_eq_true.1 hall _ hm
    simp only [Bool.or_eq_true, List.contains_eq_mem, decide_eq_true_eq, List.mem_cons, List.not_mem_nil,
      or_false] at this
    rcases this with h | h | h
    · obtain ⟨c, hc, hq⟩ := hasAny_iff.1 h
      exact (hx.chars c hc hq).elim
    · exact (hx.word₁ (h ▸ List.infix_refl _)).elim
    · exact (hx.word₂ (h ▸ List.infix_refl _)).elim
  · refine (unread_must (g := (fractionRule k.million).tagger) ?_ hx h1).elim
    cases k.million <;> decide +kernel
  · exact (unread_measure k hx h1).elim
  · refine (unread_must (g := (moneyRule k).tagger) ?_ hx h1).elim
    rcases k with ⟨r, a, b, d⟩; cases r <;> cases a <;> cases b <;> cases d <;> decide +kernel
  · exact (unread_must (g := timeRule.tagger) (by decide +kernel) hx h1).elim
  · refine (unread_must (g := (cardinalRule k).tagger) ?_ hx h1).elim
    rcases k with ⟨r, a, b, d⟩; cases r <;> cases a <;> cases b <;> cases d <;> decide +kernel
  · refine (unread_must (g := (mathRule k.million).tagger) ?_ hx h1).elim
    cases k.million <;> decide +kernel
  · obtain ⟨m, rfl, h2⟩ := den_addTokens.1 h1
    obtain ⟨_, _, z, h3⟩ := den_tagField.1 h2
    exact (unread_plate hx h3).elim
  · exact (unread_must (g := trainRule.tagger) (by decide +kernel) hx h1).elim
  · exact char_tagged h1

theorem onlyChar (k : Config) : OnlyChar (.comp (verbalizerU k) (postprocessor k.removeInterjections))
    (fun c => if k.removeInterjections && (c == '呃' || c == '啊') then [] else [c]) := by
  refine onlyChar_comp (onlyChar_union (verbalizerUnion_eq k) ?_) ?_
  · intro s hs
    simp only [rules, List.mem_cons, List.not_mem_nil, or_false] at hs
    rcases hs with rfl | rfl | rfl | rfl | rfl | rfl | rfl | rfl | rfl | rfl | rfl
    · exact .inl (otherName_delete (by decide))
    · exact .inl (otherName_delete (by decide))
    · exact .inl (otherName_delete (by decide))
    · exact .inl (otherName_alt (otherName_delete (by decide)) (otherName_delete (by decide)))
    · exact .inl (otherName_delete (by decide))
    · exact .inl (otherName_delete (by decide))
    · exact .inl (otherName_delete (by decide))
    · exact .inl (otherName_delete (by decide))
    · exact .inl (otherName_delete (by decide))
    · exact .inl (otherName_delete (by decide))
    · exact .inr onlyChar_default
  · intro c y w h
    obtain ⟨_, rfl, rfl⟩ := (maps_postprocessor _ [c] y w).1 h
    simp [isInterjection]

/-- **C77.** A text without anything to read has one tagging: character by character. -/
theorem C77_zh_itn_tagging (k : Config) (tg : G) (ht : tagger k = some tg) (x : Str) (hne : x ≠ [])
    (hx : Unread x) (t : Str) (w : W) (h : tg.den x t w) :
    t = writeAll (x.map fun c => ⟨"char".toList, [("value".toList, [c])]⟩) := by
  rw [tagger_eq] at ht
  cases ht
  exact plain_stream hne (fun u hu t w hd => unread_tagger k (hx.infix hu) hd) h

/-- **C77.** A text without anything to read has exactly one result, whatever the switches, for every
valid `nbest` and however ties are broken: the text itself, without its interjections when the switch
says so. -/
theorem C77_zh_itn (k : Config) (tg vg : G) (ht : tagger k = some tg) (hv : verbalizer k = some vg)
    (p : Pipeline W) (hr : Runs p tokenOrders tg vg) (x : Str) (hx : VText x) (hne : x ≠ []) (hu : Unread x)
    (n : Int) (hn : 1 ≤ n) : ∃ fuel out, normalize p fuel x (.int n) = some (.ok out) ∧
      out.toList = [if k.removeInterjections then x.filter fun c => c != '呃' && c != '啊' else x] := by
  rw [tagger_eq] at ht
  rw [verbalizer_eq] at hv
  cases ht; cases hv
  obtain ⟨fuel, out, h1, h2⟩ := plain_normalize hr (tagger_ok _) (verbalizer_ok k) (fallback k) (onlyChar k)
    hx hne (fun u hu' t w hd => unread_tagger k (hu.infix hu') hd) n hn
  refine ⟨fuel, out, h1, ?_⟩
  rw [h2]
  congr 1
  clear * -
  cases k.removeInterjections with
  | false => simp
  | true =>
    induction x with
    | nil => rfl
    | cons c x ih =>
      rw [List.flatMap_cons, ih]
      by_cases h1 : c = '呃'
      · simp [h1]
      · by_cases h2 : c = '啊'
        · simp [h2]
        · simp [h1, h2]

example : Unread t!"你好，world 2024年3.5%" := .easy (by decide +kernel)

example : ¬ Unread t!"百分百" := fun h => h.percent ⟨[], t!"百", rfl⟩

end Verif.ZhItn
