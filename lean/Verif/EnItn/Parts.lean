import Verif.EnItn.Speak

/-
The lightest tokens of one part of a text.
-/

namespace Verif.EnItn

open Verif.Wfst Spec
open Verif.Token.Spec (esc write writeAll Tok)

/-! ### Tokens there are -/

theorem word_tag {v : Str} (hne : v ≠ []) (h : ∀ c ∈ v, Wordy c) :
    classify.den v (write (valueTok t!"word" v) ++ [' ']) 5000000 := by
  refine tag_union (w := 0) taggerUnion_eq (s := ⟨wordRule, some 5000000, true⟩) (by simp [rules]) rfl (value_tagger ?_)
  rw [esc_wordy h]
  exact plus_cls_den hne fun c hc => wordy_iff.2 (h c hc)

theorem cardinal_tag {c y : Str} {w : W} (hv : VText c) (h : integer.den c y w) :
    classify.den c (write (cardinalTok c) ++ [' ']) (w + 110000) := by
  refine tag_union taggerUnion_eq (s := ⟨cardinalRule, some 110000, true⟩) (by simp [rules]) rfl
    (den_addTokens.2 ⟨t!"integer: \"" ++ esc c ++ t!"\"", by simp [write, cardinalTok], ?_⟩)
  refine ⟨[], [], 0, c, _, w, den_ques.2 (.inl ⟨rfl, rfl, rfl⟩), den_tagField.2 ⟨rfl, hv, y, h⟩, rfl, by simp, (Int.zero_add _).symm⟩

theorem short_tag {u q y : Str} {w : W} (hv : VText u) (hq : q ∈ scaleNames.tail) (h : upTo999.den u y w) :
    classify.den (u ++ ' ' :: q) (write (shortTok u q) ++ [' ']) (w + 109900) := by
  have hq' : ∀ q ∈ scaleNames.tail, VText q ∧ (q, q) ∈ (thousands.filter fun e => e.1 != t!"thousand").map fun e => (e.1, e.1) := by
    decide +kernel
  obtain ⟨hq1, hq2⟩ := hq' q hq
  have h1 : (tagField t!"integer_part" upTo999).den u (t!"integer_part: \"" ++ esc u ++ t!"\"") w := den_tagField.2 ⟨rfl, hv, y, h⟩
  have h2 : (tagField t!"quantity" quantityNoThousand).den q (t!"quantity: \"" ++ esc q ++ t!"\"") 0 :=
    den_tagField.2 ⟨rfl, hq1, q, hq2, rfl⟩
  have h3 : cardinalQuantity.den _ _ _ := ((((show optNegative.den [] [] 0 from den_ques.2 (.inl ⟨rfl, rfl, rfl⟩)).cat h1).cat
    (den_ds.2 ⟨rfl, rfl, rfl⟩ : ds.den _ _ _)).cat (den_insert.2 ⟨rfl, rfl, rfl⟩ : isp.den _ _ _)).cat h2
  have h4 := tag_union taggerUnion_eq (s := ⟨decimalRule, some 110000, true⟩) (by simp [rules]) rfl
    (den_addTokens.2 ⟨_, rfl, .inr ⟨_, .inr h3, rfl⟩⟩)
  have e : (0 + w + 0 + 0 + 0 + -100 + 110000 : Int) = w + 109900 := by omega
  rw [← e]
  simpa [write, shortTok] using h4

/-! ### Weights -/

theorem token_weight {x t : Str} {w : W} (h : Token1 x t w) : (109000 : Int) ≤ w := by
  cases h with
  | word => decide
  | char => decide
  | @cardinal _ y w hv h =>
    have : (0 : Int) ≤ w := G.lo_den (g := integer) (k := 0) (by decide +kernel) h
    show (109000 : Int) ≤ (w : Int) + 110000
    omega
  | @year _ y w hv h =>
    have : (0 : Int) ≤ w := G.lo_den (g := yearG) (k := 0) (by decide +kernel) h
    show (109000 : Int) ≤ (w : Int) + 109000
    omega
  | @short _ _ y w hv h =>
    have : (0 : Int) ≤ w := G.lo_den (g := upTo999) (k := 0) (by decide +kernel) h
    show (109000 : Int) ≤ (w : Int) + 109900
    omega

theorem integer_hi {x y : Str} {w : W} (h : integer.den x y w) : (w : Int) ≤ 80000 :=
  G.hi_den (g := integer) (k := 80000) (by decide +kernel) h

theorem classify_ok : classify.ok = true := by decide +kernel

/-! ### Single words -/

theorem year_two {x y : Str} {w : W} (h : yearG.den x y w) : Bad (words x) ∨ 2 ≤ (heard (words x)).length := by
  obtain ⟨m, w1, w2, h1, h2, rfl⟩ := h
  have two : ∀ {a b : Str}, 2 ≤ (words (a ++ ' ' :: b)).length := by
    intro a b
    rw [words_append_space, List.length_append]
    have a1 := List.length_pos_of_ne_nil (words_ne a)
    have a2 := List.length_pos_of_ne_nil (words_ne b)
    omega
  have fin : (∃ n, Digs y n ∧ n < 10000 ∧ Lead0 y ∧ Names m n) → 2 ≤ (words m).length → 2 ≤ (heard (words x)).length := by
    rintro ⟨n, a1, a2, a3, a4⟩ h2
    rw [deleteAnd_words h1, a4.heard]
    exact h2
  rcases h2 with ((h2 | h2) | h2) | h2
  · exact .inl ((inferInstance : Core false .hard (.comp deleteAnd yearTwoParts)).reads _ _ _ ⟨m, w1, w2, h1, h2, rfl⟩)
  · refine .inr (fin (yearThousands_reads h2) ?_)
    obtain ⟨_, _, _, _, _, _, ⟨_, _, _, _, _, _, ⟨_, _, _, _, _, _, _, h8, rfl, rfl, rfl⟩, _, rfl, rfl, rfl⟩, _, rfl, rfl, rfl⟩ := h2
    rw [(den_ds.1 h8).1]
    simp only [List.append_assoc, List.singleton_append]
    exact two
  · exact .inl ((inferInstance : Core false .hard (.comp deleteAnd yearHundreds)).reads _ _ _ ⟨m, w1, w2, h1, h2, rfl⟩)
  · refine .inr (fin (yearXx_reads h2) ?_)
    obtain ⟨_, _, _, _, _, _, ⟨_, _, _, _, _, _, ⟨_, _, _, _, _, _, _, h8, rfl, rfl, rfl⟩, _, rfl, rfl, rfl⟩, _, rfl, rfl, rfl⟩ := h2
    rw [(den_ds.1 h8).1]
    simp only [List.append_assoc, List.singleton_append]
    exact two

theorem cardinal_heard {x y : Str} {w : W} (h : cardinal.den x y w) : heard (words x) ≠ [] := by
  obtain ⟨m, w1, w2, h1, h2, rfl⟩ := h
  obtain ⟨y', w3, w4, h3, h4, rfl⟩ := h2
  obtain ⟨n, a1, a2, a3⟩ := bigs_reads scales_mags h3
  rw [deleteAnd_words h1, a3.heard]
  exact words_ne m

/-- A single word that is not a cardinal number can only be a word or a character. -/
theorem single_token {v t : Str} {w : W} (hv : words v = [v]) (hb : ¬ Bad (words v)) (hno : ∀ y w, ¬ integer.den v y w) (h : Token1 v t w) :
    t = write (valueTok t!"word" v) ++ [' '] ∧ w = 5000000 ∨ w = 10000000 := by
  cases h with
  | word => exact .inl ⟨rfl, rfl⟩
  | char => exact .inr rfl
  | cardinal _ h => exact absurd h (hno _ _)
  | year _ h =>
    exfalso
    have h1 := (year_two h).resolve_left hb
    have h2 : (heard (words v)).length ≤ (words v).length := List.length_filter_le _ _
    rw [hv] at h1 h2
    simp only [List.length_singleton] at h2
    omega
  | @short u q =>
    exfalso
    have h2 := congrArg List.length hv
    rw [words_append_space, List.length_append] at h2
    have a1 := List.length_pos_of_ne_nil (words_ne u)
    have a2 := List.length_pos_of_ne_nil (words_ne q)
    simp only [List.length_singleton] at h2
    omega

/-- Groups that make up one word are one group. -/
theorem one_group {gs : List Group} {v : Str} (h : gs.flatMap (fun g => words g.1) = [v]) (hv : words v = [v]) : ∃ t w, gs = [(v, t, w)] := by
  cases gs with
  | nil => cases h
  | cons g gs =>
    rw [List.flatMap_cons] at h
    cases gs with
    | nil =>
      rw [List.flatMap_nil, List.append_nil, ← hv] at h
      obtain ⟨x, t, w⟩ := g
      have := words_inj h
      exact ⟨t, w, by simp only at this; rw [this]⟩
    | cons g' gs =>
      exfalso
      have h2 := congrArg List.length h
      rw [List.flatMap_cons] at h2
      simp only [List.length_append, List.length_singleton] at h2
      have a1 := List.length_pos_of_ne_nil (words_ne g.1)
      have a2 := List.length_pos_of_ne_nil (words_ne g'.1)
      omega

/-! ### Parts -/

/-- The groups are tokens, and none is of bad words. -/
def Fair (gs : List Group) : Prop := ∀ g ∈ gs, classify.den g.1 g.2.1 g.2.2 ∧ Token1 g.1 g.2.1 g.2.2 ∧ ¬ Bad (words g.1)

/-- The weight of groups. -/
def weight (gs : List Group) : W := (gs.map fun g => g.2.2).sum

/-- The lightest tokens of the words have the weight `m`: they are one token, and it is written as `y`. -/
structure Best (ws : List Str) (y : Str) (m : W) : Prop where
  least : ∀ gs, Fair gs → gs.flatMap (fun g => words g.1) = ws → (m : Int) ≤ weight gs
  unique : ∀ gs, Fair gs → gs.flatMap (fun g => words g.1) = ws → weight gs = m → ∃ k, gs.map (fun g => g.2.1) = [write k ++ [' ']] ∧ Speaks k y
  exist : ∃ k, classify.den (join ws) (write k ++ [' ']) m ∧ Speaks k y

theorem best_single {v : Str} (hne : v ≠ []) (hw : ∀ c ∈ v, Wordy c) (hno : ∀ y w, ¬ integer.den v y w) : Best [v] v 5000000 := by
  have hv : words v = [v] := by
    refine words_join (ws := [v]) (by simp) ?_
    intro w hw' hs
    rw [List.mem_singleton.1 hw'] at hs
    exact absurd (hw _ hs) (by decide)
  have hs := speaks_word (vtext_wordy hw)
  have key : ∀ gs, Fair gs → gs.flatMap (fun g => words g.1) = [v] → ∃ t w, gs = [(v, t, w)] ∧
      (t = write (valueTok t!"word" v) ++ [' '] ∧ w = 5000000 ∨ w = 10000000) := by
    intro gs hf h
    obtain ⟨t, w, rfl⟩ := one_group h hv
    obtain ⟨-, h1, h2⟩ := hf (v, t, w) (by simp)
    exact ⟨t, w, rfl, single_token hv h2 hno h1⟩
  refine ⟨?_, ?_, ⟨_, word_tag hne hw, hs⟩⟩
  · intro gs hf h
    obtain ⟨t, w, rfl, ⟨-, rfl⟩ | rfl⟩ := key gs hf h
    · show (5000000 : Int) ≤ 5000000 + 0; decide
    · show (5000000 : Int) ≤ 10000000 + 0; decide
  · intro gs hf h he
    obtain ⟨t, w, rfl, ⟨rfl, rfl⟩ | rfl⟩ := key gs hf h
    · exact ⟨_, rfl, hs⟩
    · exact absurd (show (10000000 + 0 : Int) = 5000000 from he) (by decide)

theorem best_word {w : Str} (h : Ordinary w) : Best [w] w 5000000 := by
  refine best_single h.ne (fun c hc => (h.chars c hc).1) ?_
  intro y u hd
  have hw : words w = [w] := by
    refine words_join (ws := [w]) (by simp) ?_
    intro v hv hs
    rw [List.mem_singleton.1 hv] at hs
    exact absurd (h.chars _ hs).1 (by decide)
  have hc := (integer_cardinal hd).1
  obtain ⟨n, h1, -⟩ := cardinal_value hc
  have h2 := h.noNumber (value_names h1 w (by rw [hw]; simp))
  subst h2
  exact cardinal_heard hc (by decide)

theorem small_numbers : ∀ n < 13, ∀ b, numberWords b n = [english b n] ∧ english b n ∈ t!"zero" :: ones.tail.take 12 := by
  decide +kernel

theorem best_kept (b : Bool) {n : Nat} (h : n ≤ 12) : Best (numberWords b n) (english b n) 5000000 := by
  obtain ⟨h1, h2⟩ := small_numbers n (by omega) b
  have hn : n < 10 ^ 24 := by omega
  have hw := numberWords_word b hn
  rw [h1] at hw ⊢
  have h3 := hw _ (List.mem_singleton.2 rfl)
  exact best_single h3.1 (fun c hc => (alpha_wordy (h3.2 c hc)).1) fun y w hd => (integer_cardinal hd).2 h2

/-! ### Numbers -/

theorem integer_exists (b : Bool) {n : Nat} (h : 12 < n) (hn : n < 10 ^ 24) : ∃ w, integer.den (english b n) (Nat.toDigits 10 n) w := by
  have hv : VText (english b n) := vtext_join (numberWords_word b hn)
  obtain ⟨w, hc⟩ := cardinal_accepts b hn
  refine ⟨0 + w, english b n, 0, w, ⟨rfl, den_VSIGMA.2 ⟨rfl, rfl, hv⟩, ?_⟩, hc, rfl⟩
  rintro ⟨y, u, he⟩
  obtain ⟨g, hg, hd⟩ := den_unionOf.1 he
  have hx : english b n ∈ t!"zero" :: (range 1 13).map numToWord := by
    rcases List.mem_cons.1 hg with rfl | hg
    · rw [(den_lit.1 hd).1]; simp
    · obtain ⟨i, hi, rfl⟩ := List.mem_map.1 hg
      rw [(den_lit.1 hd).1]
      exact List.mem_cons_of_mem _ (List.mem_map_of_mem hi)
  have key : ∀ x ∈ t!"zero" :: (range 1 13).map numToWord, ∀ v ∈ value x, v ≤ 12 := by decide +kernel
  have := key _ hx n (english_value b hn)
  omega

/-- The lightest token of the name of a number from 13 on. -/
theorem number_token {b : Bool} {n : Nat} {y t : Str} {u : W} (h : (Part.number b n).Written y) (h12 : 12 < n) (ht : Token1 (english b n) t u)
    (hu : (u : Int) ≤ 190000) (hl : ∀ t' u', classify.den (english b n) t' u' → (u : Int) ≤ u') : ∃ k, t = write k ++ [' '] ∧ Speaks k y := by
  have hn : n < 10 ^ 24 := by cases h with | kept h => omega | short _ h => exact h | digits _ h _ => exact h
  have hb : ¬ Bad (words (english b n)) := by
    rw [english_words b hn]
    exact not_bad (ps := [.number b n]) (by intro p hp; rw [List.mem_singleton.1 hp]; exact good_number b hn) (by simp)
      (by simp [Part.words])
  have hv : VText (english b n) := vtext_join (numberWords_word b hn)
  generalize hx : english b n = x at ht
  cases ht with
  | word => exact absurd hu (by decide)
  | char => exact absurd hu (by decide)
  | @cardinal _ y' w _ h1 =>
    subst hx
    refine ⟨_, rfl, ?_⟩
    cases h with
    | kept h => omega
    | digits => exact speaks_cardinal hn hv h1
    | @short _ _ m s hs _ =>
      exfalso
      obtain ⟨y'', w', h2, h3⟩ := short_cheaper hs hn (integer_cardinal h1).1
      have hw := short_words hs
      have hsm : s ∈ scaleNames.tail := by
        obtain ⟨k, k1, k2, -⟩ := hs
        have k3 := scale_get k1
        have : ∀ k < 7, 0 < k → ∀ s, scaleNames[k]? = some s → s ∈ scaleNames.tail := by
          intro k hk h0 s hs
          have : k = 1 ∨ k = 2 ∨ k = 3 ∨ k = 4 ∨ k = 5 ∨ k = 6 := by omega
          rcases this with rfl | rfl | rfl | rfl | rfl | rfl <;> cases hs <;> decide +kernel
        exact this k k3 k2 s k1
      have hvu : VText (join (below1000 b m)) := by
        refine vtext_join fun w hw' => numberWords_word b hn w ?_
        rw [hw]; simp [hw']
      have h4 := short_tag hvu hsm h2
      have e : english b n = join (below1000 b m) ++ ' ' :: s := by
        show join (numberWords b n) = _
        rw [hw, join_append (below1000_ne b m) (by simp)]
        rfl
      rw [← e] at h4
      have h5 := hl _ _ h4
      have key : ∀ a c : Int, a ≤ c → ¬ c + 110000 ≤ a + 109900 := by intro a c h1 h2; omega
      exact key _ _ h3 h5
  | @year _ y' w _ h1 =>
    subst hx
    refine ⟨_, rfl, ?_⟩
    obtain ⟨n', e1, e2, e3⟩ := speaks_year hv hb h1
    rw [english_value b hn] at e1
    cases e1
    cases h with
    | kept h => omega
    | digits => exact e3
    | @short _ _ m s hs _ =>
      exfalso
      obtain ⟨k, k1, k2, k3, k4, -⟩ := hs
      have a1 : 1000 ^ 2 ≤ 1000 ^ (k + 1) := Nat.pow_le_pow_right (by decide) (by omega)
      have a2 := Nat.mul_le_mul (show 1 ≤ m from k4) a1
      omega
  | @short u q y' w hvu h1 hq =>
    refine ⟨_, rfl, ?_⟩
    obtain ⟨m, e1, e2, e3⟩ := short_reads hn h1 hq (by rw [← hx, english_words b hn])
    cases h with
    | kept h => omega
    | digits _ _ h => exact absurd ⟨_, _, e1⟩ h
    | @short _ _ m' s' hs _ =>
      obtain ⟨rfl, rfl⟩ := short_unique e1 hs
      exact speaks_short hvu hq h1 e2 e3

theorem best_number {b : Bool} {n : Nat} {y : Str} (h : (Part.number b n).Written y) (h12 : 12 < n)
    (hw : ∀ e ∈ whitelist ++ whitelistW, words e.2 ≠ numberWords b n) : ∃ m, Best (numberWords b n) y m := by
  have hn : n < 10 ^ 24 := by cases h with | kept h => omega | short _ h => exact h | digits _ h _ => exact h
  have hb : ¬ Bad (words (english b n)) := by
    rw [english_words b hn]
    exact not_bad (ps := [.number b n]) (by intro p hp; rw [List.mem_singleton.1 hp]; exact good_number b hn) (by simp)
      (by simp [Part.words])
  have hv : VText (english b n) := vtext_join (numberWords_word b hn)
  obtain ⟨w0, h0⟩ := integer_exists b h12 hn
  have h1 := cardinal_tag hv h0
  obtain ⟨m, hm⟩ := exists_least classify_ok h1
  have hl : ∀ t' u', classify.den (english b n) t' u' → (m : Int) ≤ u' := by
    intro t' u' hd
    obtain ⟨c, hc⟩ := exists_cost classify_ok hd
    exact Int.le_trans (hm.2 ⟨t', hc⟩) (hc.2 hd)
  have hm1 : (m : Int) ≤ 190000 := by
    have a1 := hl _ _ h1
    have a2 := integer_hi h0
    have key : ∀ m w : Int, m ≤ w + 110000 → w ≤ 80000 → m ≤ 190000 := by intros; omega
    exact key _ _ a1 a2
  have hone : ∀ gs, Fair gs → gs.flatMap (fun g => words g.1) = numberWords b n →
      (∃ t u, gs = [(english b n, t, u)]) ∨ (218000 : Int) ≤ weight gs := by
    intro gs hf he
    cases gs with
    | nil => exact absurd he.symm (numberWords_ne b n)
    | cons g gs =>
      cases gs with
      | nil =>
        left
        obtain ⟨x, t, w⟩ := g
        rw [List.flatMap_cons, List.flatMap_nil, List.append_nil, ← english_words b hn] at he
        have := words_inj he
        exact ⟨t, w, by simp only at this; rw [this]⟩
      | cons g' gs =>
        right
        have a1 := token_weight (hf g (by simp)).2.1
        have a2 := token_weight (hf g' (by simp)).2.1
        have a3 : (0 : Int) ≤ weight gs := by
          refine List.sum_nonneg ?_
          intro v hv
          obtain ⟨g'', hg, rfl⟩ := List.mem_map.1 hv
          have := token_weight (hf g'' (by simp [hg])).2.1
          exact Int.le_trans (by decide) this
        have key : ∀ a b c : Int, 109000 ≤ a → 109000 ≤ b → 0 ≤ c → 218000 ≤ a + (b + c) := by intros; omega
        exact key _ _ _ a1 a2 a3
  refine ⟨m, ?_, ?_, ?_⟩
  · intro gs hf he
    rcases hone gs hf he with ⟨t, u, rfl⟩ | h2
    · have := hl _ _ (hf (english b n, t, u) (by simp)).1
      show (m : Int) ≤ u + 0
      rw [Int.add_zero]
      exact this
    · exact Int.le_trans hm1 (Int.le_trans (by decide) h2)
  · intro gs hf he hs
    rcases hone gs hf he with ⟨t, u, rfl⟩ | h2
    · have hu : u = m := by
        have : u + 0 = m := hs
        rw [← this]
        exact (Int.add_zero _).symm
      subst hu
      obtain ⟨k, rfl, hk⟩ := number_token h h12 (hf (english b n, t, u) (by simp)).2.1 hm1 hl
      exact ⟨k, rfl, hk⟩
    · rw [hs] at h2
      have key : ∀ m : Int, m ≤ 190000 → ¬ 218000 ≤ m := by intros; omega
      exact absurd h2 (key m hm1)
  · obtain ⟨t, ht⟩ := hm.1
    have h2 : Token1 (english b n) t m := by
      rcases classify_token ht.1 with h | ⟨e, he, hx⟩ | h
      · exact absurd h hb
      · exact absurd (by rw [← hx, english_words b hn]) (hw e he)
      · exact h
    obtain ⟨k, rfl, hk⟩ := number_token h h12 h2 hm1 hl
    exact ⟨k, ht.1, hk⟩

/-- Every part has a lightest token. -/
theorem best_part {p : Part} {y : Str} (h : p.Written y) (hw : ∀ e ∈ whitelist ++ whitelistW, words e.2 ≠ p.words) : ∃ m, Best p.words y m := by
  cases h with
  | word h => exact ⟨_, best_word h⟩
  | kept h => exact ⟨_, best_kept _ h⟩
  | @short b n m s hs hn =>
    refine best_number (.short hs hn) ?_ hw
    obtain ⟨k, k1, k2, k3, k4, -⟩ := hs
    have a1 : 1000 ^ 2 ≤ 1000 ^ (k + 1) := Nat.pow_le_pow_right (by decide) (by omega)
    have a2 := Nat.mul_le_mul (show 1 ≤ m from k4) a1
    omega
  | digits h1 h2 h3 => exact best_number (.digits h1 h2 h3) h1 hw

end Verif.EnItn
