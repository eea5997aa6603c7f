import Verif.JaTn.StreamProps
import Verif.JaTn.PostProps
import Verif.Wfst.Must
import Verif.Wfst.Plain

/-
Property C77 for the Japanese normalizer: a text without digits and without the few other things the
rules can read has one tagging, character by character, and one result.
-/

namespace Verif.JaTn

open Verif.Wfst
open Verif.Token.Spec (write writeAll Tok)
open Verif.NBest (Pipeline normalize)

/-- The text in the form the rules see: full-width characters are made half-width if the switch says so. -/
def seen (k : Config) (x : Str) : Str :=
  if k.fullToHalf then x.map fun c => (fullToHalf.lookup c).getD c else x

/-- The text has no digit and no at sign of either width, the rules do not see M.V.P in it, nor, if
transliteration is switched on, an entry of its table. -/
structure Unread (k : Config) (x : Str) : Prop where
  chars : ∀ c ∈ x, c ∉ "0123456789０１２３４５６７８９@＠".toList
  mvp : ¬ "M.V.P".toList <:+: seen k x
  words : k.transliterate = true → ∀ e ∈ transliterationTable, ¬ e.1 <:+: seen k x

theorem seen_eq (k : Config) (x : Str) : seen k x = x.map (half k.fullToHalf) := by
  unfold seen half
  cases k.fullToHalf <;> simp

theorem seen_infix (k : Config) {u x : Str} (h : u <:+: x) : seen k u <:+: seen k x := by
  rw [seen_eq, seen_eq]
  exact h.map _

theorem Unread.infix {k : Config} {u x : Str} (h : Unread k x) (hu : u <:+: x) : Unread k u :=
  ⟨fun c hc => h.chars c (hu.mem hc), fun hk => h.mvp (hk.trans (seen_infix k hu)),
    fun ht e he hk => h.words ht e he (hk.trans (seen_infix k hu))⟩

/-- The characters that `Unread` excludes. -/
def triggers : Str := t!"0123456789０１２３４５６７８９@＠"

theorem unread_must {k : Config} {g : G} (hm : must triggers g = true) {x y : Str} {w : W} (hx : Unread k x)
    (h : g.den x y w) : False := by
  obtain ⟨c, hc, hq⟩ := must_den hm h
  exact hx.chars c hc hq

theorem half_trigger (b : Bool) : ∀ c, half b c ∈ triggers → c ∈ triggers := by
  intro c hc
  cases b with
  | false => simpa [half] using hc
  | true =>
    have hall : (fullToHalf.all fun e => !triggers.contains e.2 || triggers.contains e.1) = true := by
      decide +kernel
    unfold half at hc
    rw [if_pos rfl] at hc
    cases hl : fullToHalf.lookup c with
    | none => rw [hl] at hc; exact hc
    | some d =>
      rw [hl] at hc
      have hm : (c, d) ∈ fullToHalf := by
        obtain ⟨l₁, l₂, e, _⟩ := List.lookup_eq_some_iff.1 hl
        rw [e]; simp
      have := List.all_eq_true.1 hall _ hm
      simp only [Bool.or_eq_true, Bool.not_eq_true', List.contains_eq_mem, decide_eq_true_eq,
        decide_eq_false_iff_not] at this
      exact this.resolve_left (fun h => h hc)

theorem unread_whitelist (k : Config) {x y : Str} {w : W} (hx : Unread k x)
    (h : (pre k.fullToHalf (.tab whitelist)).den x y w) : False := by
  obtain ⟨_, hm, _⟩ := den_pre.1 h
  have hall : whitelist.all (fun e => hasAny triggers e.1 || e.1 == t!"M.V.P") = true := by
    decide +kernel
  have := List.all_eq_true.1 hall _ hm
  simp only [Bool.or_eq_true, beq_iff_eq] at this
  rcases this with h | h
  · obtain ⟨c, hc, hq⟩ := hasAny_iff.1 h
    obtain ⟨d, hd, rfl⟩ := List.mem_map.1 hc
    exact hx.chars d hd (half_trigger _ d hq)
  · refine hx.mvp ?_
    rw [seen_eq, h]
    exact List.infix_refl _

theorem unread_tagger (k : Config) {x t : Str} {w : W} (hx : Unread k x)
    (h : (taggerU k).den x t w) : ∃ c, x = [c] ∧ t = write (charTok c) ++ [' '] := by
  obtain ⟨s, hs, j, w₀, hj, h1, _⟩ := ((tagger_union _).2 _ (taggerUnion_eq k) x t w).1 h
  simp only [rules, List.mem_append, List.mem_cons, List.not_mem_nil, or_false] at hs
  rcases hs with hs | hs
  · rcases hs with rfl | rfl | rfl | rfl | rfl | rfl | rfl | rfl | rfl | rfl | rfl
    · refine (unread_must (g := (cardinalRule k.fullToHalf).tagger) ?_ hx h1).elim
      cases k.fullToHalf <;> decide +kernel
    · exact char_tagged h1
    · refine (unread_must (g := (dateRule k.fullToHalf).tagger) ?_ hx h1).elim
      cases k.fullToHalf <;> decide +kernel
    · refine (unread_must (g := (fractionRule k.fullToHalf).tagger) ?_ hx h1).elim
      cases k.fullToHalf <;> decide +kernel
    · refine (unread_must (g := (mathRule k.fullToHalf).tagger) ?_ hx h1).elim
      cases k.fullToHalf <;> decide +kernel
    · refine (unread_must (g := (measureRule k.fullToHalf).tagger) ?_ hx h1).elim
      cases k.fullToHalf <;> decide +kernel
    · refine (unread_must (g := (moneyRule k.fullToHalf).tagger) ?_ hx h1).elim
      cases k.fullToHalf <;> decide +kernel
    · refine (unread_must (g := (sportRule k.fullToHalf).tagger) ?_ hx h1).elim
      cases k.fullToHalf <;> decide +kernel
    · refine (unread_must (g := (timeRule k.fullToHalf).tagger) ?_ hx h1).elim
      cases k.fullToHalf <;> decide +kernel
    · obtain ⟨m, rfl, h2⟩ := den_addTokens.1 h1
      obtain ⟨_, _, z, h3⟩ := den_tagField.1 h2
      exact (unread_whitelist k hx h3).elim
    · cases hj
  · by_cases ht : k.transliterate = true
    · rw [if_pos ht, List.mem_singleton] at hs
      subst hs
      obtain ⟨m, rfl, h2⟩ := den_addTokens.1 h1
      obtain ⟨_, _, z, h3⟩ := den_tagField.1 h2
      obtain ⟨_, hm, _⟩ := den_pre.1 h3
      refine (hx.words ht _ hm ?_).elim
      rw [seen_eq]
    · simp [ht] at hs

theorem onlyChar (k : Config) : OnlyChar (.comp (verbalizerU k) (postprocessor k))
    (fun c =>
      let c := if k.fullToHalf then (fullToHalf.lookup c).getD c else c
      if k.removePuncts && (punctsJa.contains c || isPunct c) then []
      else if k.tagOov && !inCharset c then "<oov>".toList ++ c :: "</oov>".toList else [c]) := by
  refine onlyChar_comp (onlyChar_union (verbalizerUnion_eq k) ?_) ?_
  · intro s hs
    rcases mem_rules hs with hs | rfl
    · simp only [rules, List.mem_append, List.mem_cons, List.not_mem_nil, or_false, Bool.false_eq_true,
        if_false] at hs
      rcases hs with rfl | rfl | rfl | rfl | rfl | rfl | rfl | rfl | rfl | rfl | rfl
      · exact .inl (otherName_delete (by decide))
      · exact .inr onlyChar_default
      all_goals exact .inl (otherName_delete (by decide))
    · exact .inl (otherName_delete (by decide))
  · intro c y w h
    obtain ⟨_, _, rfl⟩ := (C68_postprocess k [c] y w).1 h
    simp

/-- **C77.** A text without anything to read has one tagging: character by character. -/
theorem C77_ja_tn_tagging (k : Config) (tg : G) (ht : tagger k = some tg) (x : Str) (hne : x ≠ [])
    (hx : Unread k x) (t : Str) (w : W) (h : tg.den x t w) :
    t = writeAll (x.map fun c => ⟨"char".toList, [("value".toList, [c])]⟩) := by
  rw [tagger_eq] at ht
  cases ht
  exact plain_stream hne (fun u hu t w hd => unread_tagger k (hx.infix hu) hd) h

/-- **C77.** A text without anything to read has exactly one result, whatever the switches, for every
valid `nbest` and however ties are broken: each character goes through the switches by itself. -/
theorem C77_ja_tn (k : Config) (tg vg : G) (ht : tagger k = some tg) (hv : verbalizer k = some vg)
    (p : Pipeline W) (hr : Runs p tokenOrders tg vg) (x : Str) (hx : VText x) (hne : x ≠ []) (hu : Unread k x)
    (n : Int) (hn : 1 ≤ n) : ∃ fuel out, normalize p fuel x (.int n) = some (.ok out) ∧
      out.toList = [x.flatMap fun c =>
        let c := if k.fullToHalf then (fullToHalf.lookup c).getD c else c
        if k.removePuncts && (punctsJa.contains c || isPunct c) then []
        else if k.tagOov && !inCharset c then "<oov>".toList ++ c :: "</oov>".toList else [c]] := by
  rw [tagger_eq] at ht
  rw [verbalizer_eq] at hv
  cases ht; cases hv
  exact plain_normalize hr (tagger_ok _) (verbalizer_ok k) (fallback k) (onlyChar k) hx hne
    (fun u hu' t w hd => unread_tagger k (hu.infix hu') hd) n hn

/-- **C77.** With the default switches, a text of half-width characters comes back unchanged. -/
theorem C77_ja_tn_unchanged (tg vg : G) (ht : tagger {} = some tg) (hv : verbalizer {} = some vg)
    (p : Pipeline W) (hr : Runs p tokenOrders tg vg) (x : Str) (hx : VText x) (hne : x ≠ [])
    (hd : ∀ c ∈ x, c ∉ "0123456789@".toList) (hm : ¬ "M.V.P".toList <:+: x)
    (hc : ∀ c ∈ x, fullToHalf.lookup c = none)
    (n : Int) (hn : 1 ≤ n) : ∃ fuel out, normalize p fuel x (.int n) = some (.ok out) ∧ out.toList = [x] := by
  have hseen : seen {} x = x := by
    show (x.map fun c => (fullToHalf.lookup c).getD c) = x
    conv => rhs; rw [← List.map_id x]
    apply List.map_congr_left
    intro c h
    rw [hc c h]; rfl
  have hu : Unread {} x := by
    refine ⟨?_, by rwa [hseen], fun h => by cases h⟩
    intro c h hmem
    have hall : ∀ d ∈ "0123456789０１２３４５６７８９@＠".toList,
        d ∈ "0123456789@".toList ∨ fullToHalf.lookup d ≠ none := by decide +kernel
    rcases hall c hmem with h1 | h1
    · exact hd c h h1
    · exact h1 (hc c h)
  obtain ⟨fuel, out, h1, h2⟩ := C77_ja_tn {} tg vg ht hv p hr x hx hne hu n hn
  refine ⟨fuel, out, h1, ?_⟩
  rw [h2]
  congr 1
  clear * - hc
  induction x with
  | nil => rfl
  | cons c x ih =>
    rw [List.flatMap_cons, ih (fun d hd => hc d (by simp [hd]))]
    simp [hc c (by simp)]

example : Unread {} t!"今日は、いい天気ですね。Hello" := by
  refine ⟨by decide +kernel, by decide +kernel, fun h => by cases h⟩

example : Unread { transliterate := true } t!"今日は" := by
  refine ⟨by decide +kernel, by decide +kernel, fun _ => ?_⟩
  have : transliterationTable.all (fun e => decide ¬ e.1 <:+: seen { transliterate := true } t!"今日は") = true := by
    decide +kernel
  intro e he
  simpa using List.all_eq_true.1 this e he

end Verif.JaTn
