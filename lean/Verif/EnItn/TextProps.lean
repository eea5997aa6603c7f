import Verif.EnItn.Parts

/-
Property C92 of the English inverse normalizer: what is written for a text with names of numbers in it.
-/

namespace Verif.EnItn

open Verif.Wfst Spec
open Verif.Token (chosenFields)
open Verif.Token.Spec (esc write writeAll Tok Writable Distinct Stream Spaces)
open Verif.NBest (Pipeline normalize grammar)
open Verif.NBest.Spec (Cost)

/-! ### The lightest tokens of a text -/

theorem join_join {ls : List (List Str)} (h : ∀ l ∈ ls, l ≠ []) : join (ls.map join) = join ls.flatten := by
  induction ls with
  | nil => rfl
  | cons l ls ih =>
    have hl := h l (by simp)
    cases ls with
    | nil => simp [join]
    | cons l' ls =>
      have hl' := h l' (by simp)
      have hf : (l' :: ls).flatten ≠ [] := by simp [hl']
      rw [List.map_cons, join_cons (by simp), ih fun m hm => h m (by simp [hm]), List.flatten_cons (l := l), join_append hl hf]

theorem tag_build {gs : List Group} (hne : gs ≠ []) (h : ∀ g ∈ gs, classify.den g.1 g.2.1 g.2.2) :
    (taggerOf classify).den (join (gs.map fun g => g.1)) (join (gs.map fun g => g.2.1)) (weight gs) := by
  have htok : ∀ {x t w}, classify.den x t w → (token classify).den x t w := by
    intro x t w h
    have := ((show G.den (.star (G.wt punctuationRule.tagger 110000 + (del t!" ").ques)) [] [] 0 from Star.nil).cat h).cat
      (show G.den (.star ((del t!" ").ques + G.wt punctuationRule.tagger 110000)) [] [] 0 from Star.nil)
    have e : (0 + w + 0 : Int) = w := by omega
    rw [← e]
    simpa [token] using this
  have hstar : ∀ gs : List Group, (∀ g ∈ gs, classify.den g.1 g.2.1 g.2.2) →
      Star (DELETE_EXTRA_SPACE + token classify).den ((gs.map fun g => g.1).flatMap (' ' :: ·)) ((gs.map fun g => g.2.1).flatMap (' ' :: ·))
        (weight gs) := by
    intro gs
    induction gs with
    | nil => intro _; exact Star.nil
    | cons g gs ih =>
      intro h
      have h1 : DELETE_EXTRA_SPACE.den [' '] [' '] 0 := den_extraSpace.2 ⟨rfl, by simp, by decide, rfl⟩
      have h2 : (DELETE_EXTRA_SPACE + token classify).den _ _ _ := h1.cat (htok (h g (by simp)))
      have h3 := Star.cons h2 (ih fun g' hg => h g' (by simp [hg]))
      have e : (0 + g.2.2 + weight gs : Int) = g.2.2 + weight gs := by rw [Int.zero_add]
      rw [e] at h3
      simpa [weight] using h3
  cases gs with
  | nil => exact absurd rfl hne
  | cons g gs =>
    have h1 := htok (h g (by simp))
    have h2 := hstar gs fun g' hg => h g' (by simp [hg])
    have hs : G.den (.star (del t!" ")) [] [] 0 := Star.nil
    have h3 := (hs.cat (h1.cat (show G.den (.star (DELETE_EXTRA_SPACE + token classify)) _ _ _ from h2))).cat hs
    have e : (0 + (g.2.2 + weight gs) + 0 : Int) = g.2.2 + weight gs := by rw [Int.zero_add, Int.add_zero]
    rw [e] at h3
    rw [List.map_cons, List.map_cons, join_flat, join_flat]
    simpa [weight, taggerOf] using h3

/-- The tokens, each of which is written as the text beside it. -/
def Said (ts : List Str) (ys : List Str) : Prop := ∃ ks : List Tok, ts = ks.map (fun k => write k ++ [' ']) ∧ List.Forall₂ Speaks ks ys

theorem all_best {ps : List Part} {ys : List Str} (h : List.Forall₂ Part.Written ps ys)
    (hw : ∀ p ∈ ps, ∀ e ∈ whitelist ++ whitelistW, words e.2 ≠ p.words) : ∃ M : W,
    (∃ gs : List Group, (∀ g ∈ gs, classify.den g.1 g.2.1 g.2.2) ∧ gs.map (fun g => g.1) = ps.map (fun p => join p.words) ∧
      Said (gs.map fun g => g.2.1) ys ∧ weight gs = M) ∧
    ∀ gss, List.Forall₂ (fun (p : Part) (gs : List Group) => gs.flatMap (fun g => words g.1) = p.words) ps gss → (∀ gs ∈ gss, Fair gs) →
      (M : Int) ≤ weight gss.flatten ∧ (weight gss.flatten = M → Said (gss.flatten.map fun g => g.2.1) ys) := by
  have wapp : ∀ a b : List Group, weight (a ++ b) = (weight a + weight b : Int) := by intro a b; simp [weight]
  induction h with
  | nil =>
    refine ⟨0, ⟨[], by simp, rfl, ⟨[], rfl, .nil⟩, rfl⟩, ?_⟩
    intro gss h _
    cases h
    exact ⟨Int.le_refl _, fun _ => ⟨[], rfl, .nil⟩⟩
  | @cons p y ps ys hp _ ih =>
    obtain ⟨M, ⟨gs, g1, g2, ⟨ks, g3, g4⟩, g5⟩, g6⟩ := ih fun q hq => hw q (by simp [hq])
    obtain ⟨m, hm⟩ := best_part hp (hw p (by simp))
    obtain ⟨k, k1, k2⟩ := hm.exist
    refine ⟨(m + M : Int), ⟨(join p.words, write k ++ [' '], m) :: gs, ?_, ?_, ⟨k :: ks, ?_, .cons k2 g4⟩, ?_⟩, ?_⟩
    · intro g hg
      rcases List.mem_cons.1 hg with rfl | hg
      · exact k1
      · exact g1 g hg
    · rw [List.map_cons, List.map_cons, g2]
    · rw [List.map_cons, List.map_cons, g3]
    · rw [← g5]; simp [weight]
    · intro gss h hf
      cases h with
      | @cons _ g _ gss h1 h2 =>
        obtain ⟨a1, a2⟩ := g6 gss h2 fun l hl => hf l (by simp [hl])
        have b1 := hm.least g (hf g (by simp)) h1
        rw [List.flatten_cons, wapp]
        refine ⟨Int.add_le_add b1 a1, fun he => ?_⟩
        have key : ∀ a b c d : Int, a ≤ b → c ≤ d → b + d = a + c → b = a ∧ d = c := by intros; omega
        obtain ⟨e1, e2⟩ := key _ _ _ _ b1 a1 he
        obtain ⟨ks', c1, c2⟩ := a2 e2
        obtain ⟨k', c3, c4⟩ := hm.unique g (hf g (by simp)) h1 e1
        exact ⟨k' :: ks', by rw [List.map_append, c1, c3]; rfl, .cons c4 c2⟩

theorem part_sub {ps : List Part} {p : Part} (h : p ∈ ps) : p.words <:+: ps.flatMap Part.words := by
  obtain ⟨a, b, rfl⟩ := List.append_of_mem h
  exact ⟨a.flatMap Part.words, b.flatMap Part.words, by simp⟩

theorem group_sub {gs : List Group} {g : Group} (h : g ∈ gs) : words g.1 <:+: gs.flatMap (fun g => words g.1) := by
  obtain ⟨a, b, rfl⟩ := List.append_of_mem h
  exact ⟨a.flatMap (fun g => words g.1), b.flatMap (fun g => words g.1), by simp⟩

theorem token_names {x t : Str} {w : W} (h : Token1 x t w) (hb : ¬ Bad (words x)) (hn : ∀ v ∈ words x, v ≠ []) :
    (words x).length = 1 ∨ ∀ v ∈ words x, v ∈ numberNames := by
  cases h with
  | @word _ h1 h2 =>
    left
    have := words_join (ws := [x]) (by simp) (by intro w hw; rw [List.mem_singleton.1 hw]; exact h1)
    rw [show join [x] = x from rfl] at this
    rw [this]; rfl
  | @char c =>
    by_cases hc : c = ' '
    · subst hc
      exact absurd rfl (hn [] (by decide))
    · left
      have := words_join (ws := [[c]]) (by simp) (by intro w hw; rw [List.mem_singleton.1 hw]; simpa using fun e => hc e.symm)
      rw [show join [[c]] = [c] from rfl] at this
      rw [this]; rfl
  | cardinal _ h =>
    right
    obtain ⟨n, hn, -⟩ := cardinal_value (integer_cardinal h).1
    exact value_names hn
  | year _ h =>
    right
    obtain ⟨n, hn, -⟩ := (year_value h).resolve_left hb
    exact value_names hn
  | @short u q y w _ h hq =>
    right
    obtain ⟨m, m1, m2, m3, m4⟩ := upTo999_value h
    have hu := value_names (m4.names.value (x := u) rfl)
    have hq' : ∀ q ∈ scaleNames.tail, words q = [q] ∧ q ∈ numberNames := by decide +kernel
    obtain ⟨q1, q2⟩ := hq' q hq
    intro v hv
    rw [words_append_space, q1] at hv
    rcases List.mem_append.1 hv with hv | hv
    · exact hu v hv
    · rw [List.mem_singleton.1 hv]; exact q2

theorem text_words {ps : List Part} (hne : ps ≠ []) (hg : ∀ p ∈ ps, Good p) :
    words (join (ps.flatMap Part.words)) = ps.flatMap Part.words := by
  refine words_join ?_ ?_
  · cases ps with
    | nil => exact absurd rfl hne
    | cons p ps => simp [(hg p (by simp)).ne]
  · intro w hw hs
    obtain ⟨p, hp, hw'⟩ := List.mem_flatMap.1 hw
    exact absurd (((hg p hp).word w hw').2 _ hs).1 (by decide)

theorem good_all {ps : List Part} {ys : List Str} (h : List.Forall₂ Part.Written ps ys) : ∀ p ∈ ps, Good p := by
  intro p hp
  induction h with
  | nil => cases hp
  | cons h1 _ ih =>
    rcases List.mem_cons.1 hp with rfl | hp
    · exact good_written h1
    · exact ih hp

/-- The lightest taggings of a text are the ones of its parts. -/
theorem tag_best {ps : List Part} {ys : List Str} (hne : ps ≠ []) (hc : ps.IsChain fun p q => ¬ (p.Binds ∧ q.Binds))
    (hw : ∀ e ∈ whitelist ++ whitelistW, ¬ words e.2 <:+: ps.flatMap Part.words) (h : List.Forall₂ Part.Written ps ys) : ∃ M : W,
    (∃ ts, (taggerOf classify).den (join (ps.flatMap Part.words)) (join ts) M ∧ Said ts ys) ∧
    ∀ t w, (taggerOf classify).den (join (ps.flatMap Part.words)) t w → (M : Int) ≤ w ∧ (w = M → ∃ ts, t = join ts ∧ Said ts ys) := by
  have hg := good_all h
  have hwords := text_words hne hg
  obtain ⟨M, ⟨gs, g1, g2, g3, g4⟩, g5⟩ := all_best h fun p hp e he heq => hw e he (heq ▸ part_sub hp)
  refine ⟨M, ⟨_, ?_, g3⟩, ?_⟩
  · have hgs : gs ≠ [] := by
      rintro rfl
      cases ps with
      | nil => exact hne rfl
      | cons p ps => cases g2
    have := tag_build hgs g1
    rw [g2, g4] at this
    have e := join_join (ls := ps.map Part.words) (by
      intro l hl
      obtain ⟨p, hp, rfl⟩ := List.mem_map.1 hl
      exact (hg p hp).ne)
    rw [List.map_map] at e
    rw [List.flatMap_def, ← e]
    exact this
  · intro t w hd
    have hall : ∀ v ∈ words (join (ps.flatMap Part.words)), v ≠ [] ∧ ∀ c ∈ v, Wordy c ∧ ¬ Mark c := by
      rw [hwords]
      intro v hv
      obtain ⟨p, hp, hv'⟩ := List.mem_flatMap.1 hv
      exact (hg p hp).word v hv'
    obtain ⟨gs, -, h2, h3, rfl, rfl⟩ := tagger_groups hd (unmarked_words fun v hv => (hall v hv).2) fun v hv => (hall v hv).1
    rw [hwords] at h3
    have hfair : Fair gs := by
      intro g hg'
      have hsub : words g.1 <:+: ps.flatMap Part.words := h3 ▸ group_sub hg'
      have hb := not_bad hg hc hsub
      refine ⟨h2 g hg', ?_, hb⟩
      rcases classify_token (h2 g hg') with h | ⟨e, he, hx⟩ | h
      · exact absurd h hb
      · exact absurd (hx ▸ hsub) (hw e he)
      · exact h
    obtain ⟨gss, s1, rfl⟩ := split_parts (f := fun g : Group => words g.1) hg hc (gs := gs)
      (fun g hg' => ⟨words_ne g.1, token_names (hfair g hg').2.1 (hfair g hg').2.2 fun v hv =>
        (hall v (by rw [hwords, h3]; exact List.mem_flatMap.2 ⟨g, hg', hv⟩)).1⟩) h3.symm
    obtain ⟨a1, a2⟩ := g5 gss s1 fun l hl g hg' => hfair g (List.mem_flatten.2 ⟨l, hl, hg'⟩)
    exact ⟨a1, fun he => ⟨_, rfl, a2 he⟩⟩

/-! ### What is written for the tokens -/

theorem oneTok_space : OneTok (verbalizerU + isp) := by
  intro p y w h
  obtain ⟨y', rfl, h1⟩ := den_add_insert.1 h
  obtain ⟨m, a1, a2, a3, a4, a5⟩ := oneTok_verb _ _ _ h1
  exact ⟨m, a1, a2, a3, den_add_insert.2 ⟨y', rfl, a4⟩, den_add_insert.2 ⟨y', rfl, a5⟩⟩

theorem spoken_only {ks : List Tok} {ys : List Str} (h : List.Forall₂ Speaks ks ys) {z : Str} {w : W} (hs : Spoken (verbalizerU + isp) ks z w) :
    z = ys.flatMap (· ++ [' ']) := by
  induction h generalizing z w with
  | nil => cases hs; rfl
  | @cons k y ks ys h1 _ ih =>
    cases hs with
    | cons h2 h3 =>
      obtain ⟨y', rfl, h4⟩ := den_add_insert.1 h2
      rw [h1.only _ _ h4, ih h3, List.flatMap_cons]

theorem spoken_exists {ks : List Tok} {ys : List Str} (h : List.Forall₂ Speaks ks ys) :
    ∃ w, Spoken (verbalizerU + isp) ks (ys.flatMap (· ++ [' '])) w := by
  induction h with
  | nil => exact ⟨0, .nil⟩
  | @cons k y ks ys h1 _ ih =>
    obtain ⟨w, hw⟩ := h1.written
    obtain ⟨w', hw'⟩ := ih
    exact ⟨w + w', .cons (den_add_insert.2 ⟨y, rfl, hw⟩) hw'⟩

/-- White space is single spaces. -/
def Single : Str → Prop
  | [] => True
  | c :: s => (isSpace c = true → c = ' ' ∧ ∀ d ∈ s.head?, isSpace d = false) ∧ Single s

theorem single_rewrites {pre x y : Str} {w : W} (h : Rewrites DELETE_EXTRA_SPACE.den .any .any pre x y w) (hx : Single x) : y = x := by
  induction h with
  | done => rfl
  | keep _ _ ih => rw [ih hx.2]
  | @change pre u v w t y w' _ hu hR _ _ ih =>
    obtain ⟨rfl, -, h2, -⟩ := den_extraSpace.1 hR
    cases u with
    | nil => exact absurd rfl hu
    | cons c u =>
      obtain ⟨rfl, h3⟩ := hx.1 (h2 c (by simp))
      cases u with
      | nil => rw [ih hx.2]
      | cons d u =>
        have := h3 d (by simp)
        rw [h2 d (by simp)] at this
        cases this

theorem single_words {ws : List Str} (h : ∀ w ∈ ws, w ≠ [] ∧ ∀ c ∈ w, Wordy c) : Single (ws.flatMap (· ++ [' '])) ∧
    ∀ d ∈ (ws.flatMap (· ++ [' '])).head?, isSpace d = false := by
  have hns : ∀ {c}, Wordy c → isSpace c = false := by
    intro c hc
    by_contra he
    exact hc.2.1 (space_iff.1 (by simpa using he))
  induction ws with
  | nil => exact ⟨trivial, by simp⟩
  | cons v ws ih =>
    obtain ⟨i1, i2⟩ := ih fun w hw => h w (by simp [hw])
    obtain ⟨h1, h2⟩ := h v (by simp)
    have key : ∀ v : Str, (∀ c ∈ v, Wordy c) → Single (v ++ ' ' :: ws.flatMap (· ++ [' '])) := by
      intro v
      induction v with
      | nil => intro _; exact ⟨fun _ => ⟨rfl, i2⟩, i1⟩
      | cons c v ih =>
        intro hv
        refine ⟨fun hc => ?_, ih fun d hd => hv d (by simp [hd])⟩
        rw [hns (hv c (by simp))] at hc
        cases hc
    have e : (v :: ws).flatMap (· ++ [' ']) = v ++ ' ' :: ws.flatMap (· ++ [' ']) := by simp
    rw [e]
    refine ⟨key v h2, ?_⟩
    cases v with
    | nil => exact absurd rfl h1
    | cons c v =>
      intro d hd
      have : c = d := by simpa using hd
      rw [← this]
      exact hns (h2 c (by simp))

theorem join_spaces {ws : List Str} (hne : ws ≠ []) : ws.flatMap (· ++ [' ']) = join ws ++ [' '] := by
  induction ws with
  | nil => exact absurd rfl hne
  | cons w ws ih =>
    cases ws with
    | nil => simp [join]
    | cons v ws => rw [List.flatMap_cons, ih (by simp), join_cons (w := w) (by simp)]; simp

/-- What is written is words with single spaces between them. -/
def Clean (ys : List Str) : Prop := ∃ ls : List (List Str), ys = ls.map join ∧ ∀ l ∈ ls, l ≠ [] ∧ ∀ w ∈ l, w ≠ [] ∧ ∀ c ∈ w, Wordy c

theorem digits_wordy (n : Nat) : Nat.toDigits 10 n ≠ [] ∧ ∀ c ∈ Nat.toDigits 10 n, Wordy c := by
  refine ⟨Nat.toDigits_ne_nil, fun c hc => ?_⟩
  have h := Nat.isDigit_of_mem_toDigits (by decide) (by decide) hc
  have h1 : ∀ d ∈ '\x00' :: '"' :: '\\' :: [' ', '\t', '\n', '\x0b', '\x0c', '\r', ' '], d.isDigit = false := by decide
  have h3 : ∀ d, d.isDigit = false → c ≠ d := by rintro d hd rfl; rw [h] at hd; cases hd
  refine ⟨h3 _ (h1 _ (by simp)), fun hw => ?_, h3 _ (h1 _ (by simp)), h3 _ (h1 _ (by simp))⟩
  exact h3 c (h1 c (List.mem_cons_of_mem _ (List.mem_cons_of_mem _ (List.mem_cons_of_mem _ hw)))) rfl

theorem clean_written {ps : List Part} {ys : List Str} (h : List.Forall₂ Part.Written ps ys) : Clean ys := by
  induction h with
  | nil => exact ⟨[], rfl, by simp⟩
  | @cons p y ps ys h1 _ ih =>
    obtain ⟨ls, rfl, hl⟩ := ih
    have : ∃ l : List Str, y = join l ∧ l ≠ [] ∧ ∀ w ∈ l, w ≠ [] ∧ ∀ c ∈ w, Wordy c := by
      cases h1 with
      | word h => exact ⟨[y], rfl, by simp, fun w hw => by rw [List.mem_singleton.1 hw]; exact ⟨h.ne, fun c hc => (h.chars c hc).1⟩⟩
      | @kept b n h =>
        refine ⟨numberWords b n, rfl, numberWords_ne b n, fun w hw => ?_⟩
        have := numberWords_word b (n := n) (by omega) w hw
        exact ⟨this.1, fun c hc => (alpha_wordy (this.2 c hc)).1⟩
      | @short b n m s hs hn =>
        refine ⟨[Nat.toDigits 10 m, s], by simp [join], by simp, fun w hw => ?_⟩
        rcases List.mem_cons.1 hw with rfl | hw
        · exact digits_wordy m
        · rw [List.mem_singleton.1 hw]
          have := numberWords_word b hn s (by rw [short_words hs]; simp)
          exact ⟨this.1, fun c hc => (alpha_wordy (this.2 c hc)).1⟩
      | digits => exact ⟨[_], rfl, by simp, fun w hw => by rw [List.mem_singleton.1 hw]; exact digits_wordy _⟩
    obtain ⟨l, rfl, h2, h3⟩ := this
    refine ⟨l :: ls, rfl, ?_⟩
    intro m hm
    rcases List.mem_cons.1 hm with rfl | hm
    · exact ⟨h2, h3⟩
    · exact hl m hm

theorem verb_best {ks : List Tok} {ys : List Str} (hk : ks ≠ []) (hc : Clean ys) (h : List.Forall₂ Speaks ks ys) :
    (∃ w, (verbalizerOf verbalizerU).den (writeAll ks) (join ys) w) ∧
    ∀ z w, (verbalizerOf verbalizerU).den (writeAll ks) z w → z = join ys := by
  have hwr : ∀ k ∈ ks, Writable k := by
    clear hk hc
    intro k hk
    induction h with
    | nil => cases hk
    | cons h1 _ ih =>
      rcases List.mem_cons.1 hk with rfl | hk
      · exact h1.writable
      · exact ih hk
  have hys : ys ≠ [] := by
    rintro rfl
    cases h
    exact hk rfl
  obtain ⟨ls, rfl, hl⟩ := hc
  have hjoin : (ls.map join).flatMap (· ++ [' ']) = ls.flatten.flatMap (· ++ [' ']) := by
    clear hys h
    induction ls with
    | nil => rfl
    | cons l ls ih =>
      rw [List.map_cons, List.flatMap_cons, ih fun m hm => hl m (by simp [hm]), List.flatten_cons, List.flatMap_append,
        join_spaces (hl l (by simp)).1]
  have hwords : ∀ w ∈ ls.flatten, w ≠ [] ∧ ∀ c ∈ w, Wordy c := by
    intro w hw
    obtain ⟨l, hl', hw'⟩ := List.mem_flatten.1 hw
    exact (hl l hl').2 w hw'
  have hne : ls.flatten ≠ [] := by
    cases ls with
    | nil => exact absurd rfl hys
    | cons l ls => simp [(hl l (by simp)).1]
  have hsingle := (single_words hwords).1
  have hfin : dropFinalSpace (ls.flatten.flatMap (· ++ [' '])) = join (ls.map join) := by
    rw [join_spaces hne, dropFinalSpace_append, join_join fun l hl' => (hl l hl').1]
  have hvt : VText (ls.flatten.flatMap (· ++ [' '])) := by
    intro c hc
    obtain ⟨w, hw, hc'⟩ := List.mem_flatMap.1 hc
    rcases List.mem_append.1 hc' with hc' | hc'
    · exact vchar_iff.2 ((hwords w hw).2 c hc').1
    · rw [List.mem_singleton.1 hc']; decide
  constructor
  · obtain ⟨w, hs⟩ := spoken_exists h
    have h1 := (star_spoken oneTok_space hwr).2 hs
    rw [hjoin] at h1
    obtain ⟨z, w', h2, -⟩ := rewrites_exists DELETE_EXTRA_SPACE.den .any .any (by
      intro u v w hd
      obtain ⟨rfl, _⟩ := den_extraSpace.1 hd
      decide) _ _ [] (Nat.le_refl _) hvt
    have e := single_rewrites h2 hsingle
    subst e
    exact ⟨_, _, w + w', 0, ⟨_, w, w', h1, ⟨hvt, h2⟩, rfl⟩, den_dropFinal.2 ⟨hvt, hfin.symm, rfl⟩, rfl⟩
  · rintro z w ⟨y, w1, w2, ⟨y', w3, w4, h1, ⟨-, h2⟩, rfl⟩, h3, rfl⟩
    have e := spoken_only h ((star_spoken oneTok_space hwr).1 h1)
    rw [hjoin] at e
    subst e
    have e := single_rewrites h2 hsingle
    subst e
    rw [(den_dropFinal.1 h3).2.1, hfin]

/-- The tokens of a tagging are read and kept in their order. -/
theorem said_reorder {ts ys : List Str} (hne : ys ≠ []) (h : Said ts ys) :
    ∃ ks : List Tok, ks ≠ [] ∧ List.Forall₂ Speaks ks ys ∧ (Verif.Token.reorder tokenOrders (join ts)).toOption = some (writeAll ks) := by
  obtain ⟨ks, rfl, hk⟩ := h
  have hks : ks ≠ [] := by
    rintro rfl
    cases hk
    exact hne rfl
  have hsp : ∀ k ∈ ks, ∃ y, Speaks k y := by
    clear hne hks
    intro k hk'
    induction hk with
    | nil => cases hk'
    | cons h1 _ ih =>
      rcases List.mem_cons.1 hk' with rfl | hk'
      · exact ⟨_, h1⟩
      · exact ih hk'
  have hstream : ∀ ks : List Tok, ks ≠ [] → (∀ k ∈ ks, ∃ y, Speaks k y) → Stream (join (ks.map fun k => write k ++ [' '])) ks := by
    intro ks
    induction ks with
    | nil => intro h; exact absurd rfl h
    | cons k ks ih =>
      intro _ hall
      obtain ⟨y, hy⟩ := hall k (by simp)
      have h1 := stream_one hy.writable
      cases ks with
      | nil => exact h1
      | cons k' ks =>
        have h2 := ih (by simp) fun l hl => hall l (by simp [hl])
        rw [List.map_cons, join_cons (by simp)]
        have h3 : Stream [' '] [] := .done (by simp [Spaces])
        have := stream_append h1 (stream_append h3 h2)
        simpa using this
  refine ⟨ks, hks, hk, ?_⟩
  have hne' : join (ks.map fun k => write k ++ [' ']) ≠ [] := by
    cases ks with
    | nil => exact absurd rfl hks
    | cons k ks => rw [List.map_cons, join_flat]; simp
  obtain ⟨toks, h3, h4⟩ := (Verif.Token.C03_parse_iff_grammar _ ks).2 ⟨hne', hstream ks hks hsp, fun k hk' => by
    obtain ⟨y, hy⟩ := hsp k hk'
    exact hy.writable.2.2⟩
  rw [Verif.Token.reorder_denotes h3 h4]
  have e : ks.map (fun k => (⟨k.name, chosenFields tokenOrders k⟩ : Tok)) = ks := by
    refine (List.map_congr_left fun k hk' => ?_).trans (List.map_id ks)
    obtain ⟨y, hy⟩ := hsp k hk'
    rw [hy.fields]
    rfl
  rw [e]
  rfl

/-! ### C92 -/

/-- **C92.** The best results of a text of ordinary words and names of numbers are the one that `Text` says: numbers up
to twelve stay words, a number of millions and so on keeps the word for it, other numbers are written in digits, and the
words between them are left as they are. -/
theorem C92_en_itn (tg vg : G) (ht : tagger = some tg) (hv : verbalizer = some vg) (p : Pipeline W) (hr : Runs p tokenOrders tg vg)
    (ps : List Part) (x z : Str) (h : Text ps x z) (z' : Str) : Winner p x z' ↔ z' = z := by
  rw [tagger_eq] at ht
  rw [verbalizer_eq] at hv
  cases ht; cases hv
  obtain ⟨hne, hc, hw, rfl, ys, hy, rfl⟩ := h
  have hys : ys ≠ [] := by
    rintro rfl
    cases hy
    exact hne rfl
  have hclean := clean_written hy
  obtain ⟨M, ⟨ts, h1, h2⟩, h3⟩ := tag_best hne hc hw hy
  obtain ⟨ks, k1, k2, k3⟩ := said_reorder hys h2
  obtain ⟨⟨v, hv⟩, hall⟩ := verb_best k1 hclean k2
  have hcost : ∃ c, Cost (grammar p (join (ps.flatMap Part.words))) (join ys) c ∧ (c : Int) ≤ M := by
    obtain ⟨c, hc⟩ := exists_cost tagger_ok h1
    obtain ⟨m, hm⟩ := exists_least verbalizer_ok hv
    obtain ⟨z0, hz0⟩ := hm.1
    have hz : z0 = join ys := hall _ _ hz0.1
    subst hz
    refine ⟨c, ⟨_, c, _, m, m, (hr.tags _ _ _).2 hc, ?_, (hr.verbs _ _ _).2 hz0, ?_, (Int.add_sub_cancel c m).symm⟩, hc.2 h1⟩
    · show (Verif.Token.reorder p.orders _).toOption = _
      rw [hr.orders]
      exact k3
    · have : {u | ∃ z, (grammar p (join (ps.flatMap Part.words))).verb (writeAll ks) z = some u} =
          {u | ∃ z, CostOf (verbalizerOf verbalizerU) (writeAll ks) z u} := by
        ext u
        exact exists_congr fun z => hr.verbs _ _ _
      rw [this]
      exact hm
  have hle : ∀ z' c', Cost (grammar p (join (ps.flatMap Part.words))) z' c' → (M : Int) ≤ c' ∧ (c' = M → z' = join ys) := by
    rintro z' c' ⟨t, tw, r, v, m, a1, a2, a3, a4, rfl⟩
    have b1 := ((hr.tags _ _ _).1 a1).1
    obtain ⟨c1, c2⟩ := h3 _ _ b1
    have hmv : (m : Int) ≤ v := a4.2 ⟨z', a3⟩
    have key : ∀ M t v m : Int, M ≤ t → m ≤ v → M ≤ t + v - m ∧ (t + v - m = M → t = M) := by intros; omega
    obtain ⟨d1, d2⟩ := key M tw v m c1 hmv
    refine ⟨d1, fun he => ?_⟩
    obtain ⟨ts', rfl, e2⟩ := c2 (d2 he)
    obtain ⟨ks', f1, f2, f3⟩ := said_reorder hys e2
    have a2' : (Verif.Token.reorder p.orders (join ts')).toOption = some r := a2
    rw [hr.orders, f3] at a2'
    cases a2'
    exact (verb_best f1 hclean f2).2 _ _ ((hr.verbs _ _ _).1 a3).1
  obtain ⟨c0, g1, g2⟩ := hcost
  constructor
  · rintro ⟨c, h4, h5⟩
    refine (hle _ _ h4).2 (Int.le_antisymm (Int.le_trans (h5 _ _ g1) g2) (hle _ _ h4).1)
  · rintro rfl
    exact ⟨c0, g1, fun z' c' h4 => Int.le_trans g2 (hle _ _ h4).1⟩

/-- **C92.** Every run of the inverse normalizer on such a text gives what is to be written first, and there is one. -/
theorem C92_en_itn_normalize (tg vg : G) (ht : tagger = some tg) (hv : verbalizer = some vg) (p : Pipeline W)
    (hr : Runs p tokenOrders tg vg) (ps : List Part) (x z : Str) (h : Text ps x z) (n : Int) (hn : 1 ≤ n) :
    (∃ fuel out, normalize p fuel x (.int n) = some (.ok out)) ∧
    ∀ fuel out, normalize p fuel x (.int n) = some (.ok out) → out.toList.head? = some z := by
  have hread : Readable x := by
    obtain ⟨hne, hc, hw, rfl, ys, hy, rfl⟩ := h
    obtain ⟨M, ⟨ts, h1, -⟩, -⟩ := tag_best hne hc hw hy
    exact tagger_reads h1
  have hx : x ≠ [] := by
    obtain ⟨hne, -, -, rfl, ys, hy, rfl⟩ := h
    intro he
    have hg := good_all hy
    have hwords := text_words hne hg
    rw [he, show words [] = [[]] from rfl] at hwords
    obtain ⟨p, hp, hw⟩ := List.mem_flatMap.1 (show [] ∈ ps.flatMap Part.words by rw [← hwords]; simp)
    exact absurd rfl ((hg p hp).word _ hw).1
  refine ⟨(C71_normalized tg vg ht hv p hr x n hn).2 (.inr hread), fun fuel out hd => ?_⟩
  obtain ⟨z', h1, h2⟩ := first_winner hx hd
  rw [h1, (C92_en_itn tg vg ht hv p hr ps x z h z').1 h2]

/-! A text: "they saw one hundred and five geese and then three million fish near seven dogs". -/

theorem small_notShort {b : Bool} {n : Nat} (h : n < 1000000) : ¬ ∃ m s, Short b n m s := by
  rintro ⟨m, s, k, -, hk, rfl, hm, -⟩
  have h1 : 1000 ^ 2 ≤ 1000 ^ (k + 1) := Nat.pow_le_pow_right (by decide) (by omega)
  have h2 := Nat.mul_le_mul hm h1
  omega

theorem ordinary_of {w : Str} (h : 1 < w.length) (h1 : ∀ c ∈ w, Wordy c ∧ ¬ Mark c)
    (h2 : ¬ (w ∈ keyWords ∨ w ∈ ordinals ∨ w ∈ decades ∨ (∃ e ∈ months, w = e.1) ∨ (∃ e ∈ timeSuffix, w = lastWord e.1) ∨
      (∃ e ∈ thousands, w = e.1 ∧ w ∉ scaleNames) ∨ ∃ e ∈ measurements ++ currency, w ∈ plurals (lastWord e.2)))
    (h3 : w ∈ numberNames → w = t!"and") : Ordinary w := by
  refine ⟨by rintro rfl; simp at h, h1, ?_, h3⟩
  rintro (⟨c, rfl, -⟩ | h)
  · simp at h
  · exact h2 h

example : Text [.word t!"they", .word t!"saw", .number true 105, .word t!"geese", .word t!"and", .word t!"then",
      .number false 3000000, .word t!"fish", .word t!"near", .number true 7, .word t!"dogs"]
    t!"they saw one hundred and five geese and then three million fish near seven dogs"
    t!"they saw 105 geese and then 3 million fish near seven dogs" where
  ne := by simp
  apart := by simp [Part.Binds]
  noPhrase := by decide +kernel
  text := by decide +kernel
  written := by
    refine ⟨[t!"they", t!"saw", t!"105", t!"geese", t!"and", t!"then", t!"3 million", t!"fish", t!"near", t!"seven", t!"dogs"], ?_,
      by decide⟩
    have word : ∀ {w}, Ordinary w → Part.Written (.word w) w := .word
    refine .cons (word ?_) (.cons (word ?_) (.cons (.digits (by decide) (by decide) (small_notShort (by decide)))
      (.cons (word ?_) (.cons (word ?_) (.cons (word ?_) (.cons
        (.short (m := 3) (s := t!"million") ⟨1, by decide, by decide, by decide, by decide, by decide, by decide⟩ (by decide))
        (.cons (word ?_) (.cons (word ?_) (.cons (.kept (by decide)) (.cons (word ?_) .nil))))))))))
    all_goals exact ordinary_of (by decide) (by decide) (by decide +kernel) (by decide +kernel)

/-- Numbers of millions with "and" in them are written in digits, unlike those without. -/
example : Text [.number true 105000000] t!"one hundred and five million" t!"105000000" ∧
    Text [.number false 105000000] t!"one hundred five million" t!"105 million" := by
  have hs : ∀ m s, Short true 105000000 m s → False := by
    rintro m s ⟨k, h1, h2, h3, h4, h5, h6⟩
    have hk : k = 1 := by
      have h7 : 1000 ^ 3 ≤ 1000 ^ (k + 1) ∨ k = 1 := by
        by_cases hk : k = 1
        · exact .inr hk
        · exact .inl (Nat.pow_le_pow_right (by decide) (by omega))
      rcases h7 with h7 | h7
      · have := Nat.mul_le_mul h4 h7
        omega
      · exact h7
    subst hk
    have : m = 105 := by omega
    subst this
    exact h6 (by decide)
  constructor
  · exact ⟨by simp, by simp, by decide +kernel, by decide +kernel, _, .cons (.digits (by decide) (by decide) fun ⟨m, s, h⟩ => hs m s h) .nil, by decide⟩
  · exact ⟨by simp, by simp, by decide +kernel, by decide +kernel, _,
      .cons (.short (m := 105) (s := t!"million") ⟨1, by decide, by decide, by decide, by decide, by decide, by decide⟩ (by decide)) .nil, by decide⟩

end Verif.EnItn
