import Verif.ZhItn.Local
import Verif.ZhItn.Piece
import Verif.ZhItn.TextSpec
import Verif.Wfst.Single
import Verif.Wfst.Shun
import Verif.Wfst.Run

/-
Chinese text with names of numbers in it: which tokens read a name, and what the verbalizer writes for it.
-/

namespace Verif.ZhItn

open Verif.Wfst
open Verif.ZhItn.Spec
open Verif.ZhTn.Spec (chinese)
open Verif.Token.Spec (esc write writeAll Tok Writable IsName)
open Verif.NBest (Pipeline normalize)

/-! ### Who reads names -/

theorem Numeral.measure {k : Config} {m : Bool} {x y : Str} {w : W} (h : Numeral m x) (hd : (measure k).den x y w) : False := by
  obtain ⟨a, _, _, u, _, _, h1, h2, rfl, _, _⟩ := hd
  have m1 : ∀ r s z m, must triggers (measureNumber ⟨r, s, z, m⟩ + (toG + measureNumber ⟨r, s, z, m⟩).ques) = true := by decide +kernel
  obtain ⟨d, hd, _⟩ := must_den (m1 k.removeInterjections k.standalone k.zeroToNine k.million) h1
  have h3 : ∃ c ∈ u, c ∉ numc ∨ c = '两' := by
    have : ∀ {l : List (Str × Str)}, (l.all fun e => e.1.any fun c => !numc.contains c || c == '两') = true → ∀ {u y w}, (G.tab l).den u y w →
        ∃ c ∈ u, c ∉ numc ∨ c = '两' := by
      intro l hl u y w hd
      obtain ⟨c, hc, h⟩ := List.any_eq_true.1 (List.all_eq_true.1 hl _ hd.1)
      exact ⟨c, hc, by simpa using h⟩
    rcases h2 with h2 | h2
    · obtain ⟨p, _, _, q, _, _, _, h4, rfl, _, _⟩ := h2
      obtain ⟨c, hc, h5⟩ := this (by decide +kernel) h4
      exact ⟨c, by simp [hc], h5⟩
    · obtain ⟨p, _, _, q, _, _, _, ⟨_, h4, _⟩, rfl, _, _⟩ := h2
      rcases h4 with h4 | ⟨_, h4, _⟩
      · obtain ⟨c, hc, h5⟩ := this (by decide +kernel) h4
        exact ⟨c, by simp [hc], h5⟩
      · obtain ⟨rfl, _, _⟩ := den_crossS.1 h4
        exact ⟨'度', by simp, by decide⟩
  obtain ⟨c, hc, h4 | rfl⟩ := h3
  · exact h4 (h.chars c (by simp [hc]))
  · obtain ⟨u₁, u₂, rfl⟩ := List.append_of_mem hc
    have hne : a ++ u₁ ≠ [] := by
      intro e
      rw [(List.append_eq_nil_iff.1 e).1] at hd; cases hd
    have hin : [(a ++ u₁).getLast hne, '两'] <:+: a ++ (u₁ ++ '两' :: u₂) := by
      refine ⟨(a ++ u₁).dropLast, u₂, ?_⟩
      have := congrArg (· ++ '两' :: u₂) (List.dropLast_append_getLast hne)
      simpa using this
    have hch := h.chain.infix hin
    rw [List.isChain_pair] at hch
    exact hch.1 rfl

theorem Numeral.measureRule {k : Config} {m : Bool} {x y : Str} {w : W} (h : Numeral m x)
    (hd : (measureRule k).tagger.den x y w) : False := by
  obtain ⟨_, _, h2⟩ := den_addTokens.1 hd
  rcases h2 with h2 | h2
  · obtain ⟨_, _, z, h3⟩ := den_tagField.1 h2
    rcases h3 with ((h3 | h3) | h3) | h3
    · exact h.measure h3
    · refine h.never (g := measureSpecial k.zeroToNine) ?_ h3
      cases k.zeroToNine <;> decide +kernel
    · have m1 : ∀ m, must t!"分" (percent m) = true := by decide +kernel
      obtain ⟨c, hc, hq⟩ := must_den (m1 _) h3
      rw [List.mem_singleton.1 hq] at hc
      exact absurd (h.chars _ hc) (by decide)
    · refine h.never (g := moneyColloquial k.million) ?_ h3
      cases k.million <;> decide +kernel
  · have m1 : must t!"每" (tagField t!"denominator" measureDenominator) = true := by decide +kernel
    obtain ⟨_, _, _, _, _, _, h3, _, rfl, _, _⟩ := h2
    obtain ⟨_, _, _, _, _, _, h3, _, rfl, _, _⟩ := h3
    obtain ⟨c, hc, hq⟩ := must_den m1 h3
    rw [List.mem_singleton.1 hq] at hc
    exact absurd (h.chars '每' (by simp [hc])) (by decide)

/-- The token of a number. -/
def cardTok (x : Str) : Tok := valueTok t!"cardinal" x

/-- The tagger reads a name as a cardinal or character by character. -/
theorem Numeral.tagger {k : Config} {m : Bool} {x t : Str} {w : W} (h : Numeral m x) (hd : (taggerU k).den x t w) :
    (∃ y w₀, (ZhItn.cardinal k).den x y w₀ ∧ w₀ + 106000 = w ∧ t = write (cardTok x) ++ t!" ") ∨
    (∃ c, x = [c] ∧ t = write (charTok c) ++ [' '] ∧ (10000000 : Int) ≤ w) := by
  obtain ⟨s, hs, j, w₀, hj, h1, rfl⟩ := ((tagger_union _).2 _ (taggerUnion_eq k) x t w).1 hd
  simp only [rules, List.mem_cons, List.not_mem_nil, or_false] at hs
  rcases hs with rfl | rfl | rfl | rfl | rfl | rfl | rfl | rfl | rfl | rfl | rfl
  · exact (h.never (by decide +kernel) h1).elim
  · exact (h.never (by decide +kernel) h1).elim
  · refine (h.never (g := (fractionRule k.million).tagger) ?_ h1).elim
    cases k.million <;> decide +kernel
  · exact (h.measureRule h1).elim
  · refine (h.never (g := (moneyRule k).tagger) ?_ h1).elim
    rcases k with ⟨r, a, b, d⟩; cases r <;> cases a <;> cases b <;> cases d <;> decide +kernel
  · exact (h.never (by decide +kernel) h1).elim
  · cases hj
    obtain ⟨m, rfl, h2⟩ := den_addTokens.1 h1
    obtain ⟨rfl, _, z, h3⟩ := den_tagField.1 h2
    refine .inl ⟨z, w₀, h3, rfl, ?_⟩
    rw [cardTok, write_valueTok]; simp
  · have m1 : ∀ m, must (t!"等" ++ operator.filterMap fun e => e.1.head?) (mathRule m).tagger = true := by decide +kernel
    obtain ⟨c, hc, hq⟩ := must_den (m1 _) h1
    have m2 : ∀ c ∈ (t!"等" ++ operator.filterMap fun e => e.1.head?), c ∉ numc := by decide +kernel
    exact absurd (h.chars c hc) (m2 c hq)
  · exact (h.never (by decide +kernel) h1).elim
  · exact (h.never (by decide +kernel) h1).elim
  · cases hj
    have hw := costs_den (g := charRule.tagger) (by decide +kernel) h1
    obtain ⟨c, rfl, rfl⟩ := char_tagged h1
    exact .inr ⟨c, rfl, rfl, Int.le_add_of_nonneg_left hw⟩

/-- Tokens of a name cost as much as its parts and more. -/
theorem Numeral.token_ge {k : Config} {x t : Str} {w : W} (h : Numeral k.million x) (hd : (taggerU k).den x t w) :
    toll x + 116000 ≤ w := by
  rcases h.tagger hd with ⟨y, w₀, h1, rfl, _⟩ | ⟨c, rfl, _, h1⟩
  · have key : ∀ a b : Int, a + 10000 ≤ b → a + 116000 ≤ b + 106000 := by intros; omega
    obtain ⟨_, h2 | ⟨_, _, rfl⟩⟩ := h.cardinal h1
    · exact key _ _ (Int.le_of_lt h2)
    · exact key _ _ (Int.le_refl _)
  · have h2 := toll_char c
    have key : ∀ a b : Int, a ≤ 100000 → 10000000 ≤ b → a + 116000 ≤ b := by intros; omega
    exact key _ _ h2 h1

theorem Numeral.tokens_ge {k : Config} {x t : Str} {w : W} (h : Numeral k.million x) (hd : Star (taggerU k).den x t w) :
    toll x ≤ w := by
  induction hd with
  | nil => decide
  | @cons x₁ t₁ w₁ x₂ t₂ w₂ g1 g2 ih =>
    have h1 := (h.infix (List.prefix_append _ _).isInfix).token_ge g1
    have h2 := ih (h.infix (List.suffix_append _ _).isInfix)
    have key : ∀ a b c d e : Int, a ≤ b + c → b + 116000 ≤ d → c ≤ e → a ≤ d + e := by intros; omega
    exact key _ _ _ _ _ (toll_append x₁ x₂) h1 h2

/-- The best tagging of a name is a cardinal. -/
theorem best_whole {k : Config} {x y : Str} (h : Numeral k.million x) (hne : x ≠ []) (hv : VText x)
    (hd : (cardinal k).den x y (toll x + 10000)) : Best (taggerU k) x [cardTok x] (toll x + 116000) := by
  have htag : (taggerU k).den x (write (cardTok x) ++ t!" ") (toll x + 116000) := by
    have h1 : (cardinalRule k).tagger.den x (write (cardTok x) ++ t!" ") (toll x + 10000) := by
      refine den_addTokens.2 ⟨_, ?_, den_tagField.2 ⟨rfl, hv, y, hd⟩⟩
      rw [cardTok, write_valueTok]
      simp
    have h2 := ((tagger_union _).2 _ (taggerUnion_eq k) x (write (cardTok x) ++ t!" ") (toll x + 10000 + 106000)).2
      ⟨⟨cardinalRule k, some 106000, true⟩, by simp [rules], _, _, rfl, h1, rfl⟩
    have e : ∀ a : Int, a + 10000 + 106000 = a + 116000 := by intro a; omega
    rwa [e] at h2
  have H : ∀ t w, Star (taggerU k).den x t w → w ≤ toll x + 116000 → t = spaced [cardTok x] ∧ w = toll x + 116000 := by
    intro t w hs
    generalize hy : x = x' at hs
    cases hs with
    | nil => exact absurd hy hne
    | @cons x₁ t₁ w₁ x₂ t₂ w₂ h1 h2 =>
      intro hle
      cases h2 with
      | nil =>
        rw [List.append_nil] at hy ⊢
        subst hy
        have e0 : w₁ + (0 : W) = w₁ := Int.add_zero _
        rw [e0, List.append_nil] at hle
        rw [e0]
        have h3 := h.token_ge h1
        rcases h.tagger h1 with ⟨_, _, _, _, rfl⟩ | ⟨c, rfl, _, h4⟩
        · exact ⟨by simp [spaced], by rw [List.append_nil]; exact Int.le_antisymm hle h3⟩
        · exfalso
          have key : ∀ a b : Int, a ≤ 100000 → 10000000 ≤ b → b ≤ a + 116000 → False := by intros; omega
          exact key _ _ (toll_char c) h4 hle
      | @cons y₁ s₁ v₁ y₂ s₂ v₂ g1 g2 =>
        exfalso
        subst hy
        have h3 := (h.infix (List.prefix_append _ _).isInfix).token_ge h1
        have h4 := h.infix (List.suffix_append _ _).isInfix
        have h5 := (h4.infix (List.prefix_append _ _).isInfix).token_ge g1
        have h6 := (h4.infix (List.suffix_append _ _).isInfix).tokens_ge g2
        have key : ∀ a b c d e f g h : Int, a ≤ b + c → c ≤ d + e → b + 116000 ≤ f → d + 116000 ≤ g → e ≤ h →
          f + (g + h) ≤ a + 116000 → False := by intros; omega
        exact key _ _ _ _ _ _ _ _ (toll_append _ _) (toll_append _ _) h3 h5 h6 hle
  refine ⟨by simpa [spaced] using Star.one htag, ?_, fun t hd => (H t _ hd (Int.le_refl _)).1⟩
  intro t w hd
  by_contra hlt
  have hlt := not_le.1 hlt
  rw [(H t w hd (Int.le_of_lt hlt)).2] at hlt
  exact lt_irrefl _ hlt

/-! ### What the verbalizer writes for them -/

theorem vtext_numc {x : Str} (h : ∀ c ∈ x, c ∈ numc) : VText x := by
  have : ∀ c ∈ numc, vchar c = true := by decide
  exact fun c hc => this c (h c hc)

theorem esc_numc {x : Str} (h : ∀ c ∈ x, c ∈ numc) : esc x = x := by
  have h1 : '"' ∉ numc ∧ '\\' ∉ numc := by decide
  exact esc_bare (fun hc => h1.1 (h _ hc)) (fun hc => h1.2 (h _ hc))

theorem verb_cardinal (k : Config) {x y : Str} {w : W} (hx : ∀ c ∈ x, c ∈ numc) :
    (verbalizerU k).den (write (cardTok x)) y w ↔ (cardinal k).den x y w := by
  have here : ∀ {m : Str} {g : G}, ' ' ∉ m → (deleteTokens m g).den (write (cardTok x)) y w → m = t!"cardinal" :=
    fun hm h => ((delete_write (by decide) hm).1 h).1
  have own : (cardinalRule k).verbalizer.den (write (cardTok x)) y w ↔ (cardinal k).den x y w := by
    refine (delete_write (by decide) (by decide)).trans ?_
    rw [List.flatMap_nil, List.append_nil]
    simp only [true_and]
    have := verbalize_tagged t!"value" (cardinal k) x y w (vtext_numc hx)
    simpa [fieldT] using this
  rw [(verbalizer_union _).2 _ (verbalizerUnion_eq k)]
  constructor
  · rintro ⟨s, hs, _, h1⟩
    simp only [rules, List.mem_cons, List.not_mem_nil, or_false] at hs
    rcases hs with rfl | rfl | rfl | rfl | rfl | rfl | rfl | rfl | rfl | rfl | rfl
    case inr.inr.inr.inl =>
      rcases h1 with h1 | h1
      · exact absurd (here (by decide) h1) (by decide)
      · exact absurd (here (by decide) h1) (by decide)
    case inr.inr.inr.inr.inr.inr.inl => exact own.1 h1
    all_goals exact absurd (here (by decide) h1) (by decide)
  · intro h
    exact ⟨⟨cardinalRule k, some 106000, true⟩, by simp [rules], rfl, own.2 h⟩

theorem spoken_one {vu : G} {k : Tok} {y : Str} {w : W} (h : Spoken vu [k] y w) : vu.den (write k) y w := by
  cases h with
  | @cons _ _ y z w v h1 h2 =>
    cases h2
    rw [List.append_nil, show w + (0 : W) = w from Int.add_zero _]
    exact h1

/-- A text with one cheapest tagging for which one thing is said most cheaply. -/
theorem best_cheapest {p : Pipeline W} {orders : Verif.Token.Orders} {tu vu : G} (hp : Piped p orders tu vu) {x : Str} (hx : x ≠ [])
    {ks : List Tok} {c : Int} (hb : Best tu x ks c) (hv : VText (spaced ks)) (hw : ∀ k ∈ ks, Writable k) {y : Str} {v₀ : Int}
    (hy : Spoken vu (reord orders ks) y v₀)
    (ho : ∀ z v, Spoken vu (reord orders ks) z v → v₀ ≤ v ∧ (v = v₀ → z = y)) {z : Str} : Winner p x z ↔ z = y := by
  have ht : Tagged tu x (spaced ks) ks c := tagged_write hb.tags hv hw
  rw [winner_iff hp hx]
  constructor
  · rintro ⟨t, ls, w, v, h1, h2, h3, h4⟩
    have hle : w ≤ c := h3 _ ks c y v₀ ht hy
    have hge : c ≤ w := hb.least _ _ h1.1
    obtain rfl : w = c := le_antisymm hle hge
    obtain rfl := hb.only _ h1.1
    have h5 := spoken_same hp hx h1 ht h2
    have h6 := h4 y v₀ (spoken_same hp hx ht h1 hy)
    exact (ho _ _ h5).2 (le_antisymm h6 (ho _ _ h5).1)
  · rintro rfl
    exact ⟨_, ks, c, v₀, ht, hy, fun _ ls w _ _ h1 _ => hb.least _ _ h1.1, fun z v h => (ho z v h).1⟩

/-- The names of numbers that are written in digits. -/
theorem winner_whole {k : Config} {p : Pipeline W}
    (hp : Piped p tokenOrders (taggerU k) (.comp (verbalizerU k) (postprocessor k.removeInterjections))) {n : Nat} {z : Str}
    (hs : k.standalone = true) (hz : k.zeroToNine = true ∨ 10 ≤ n) (hn : n < 10 ^ 6 ∨ k.million = true ∧ n < 10 ^ 8) :
    Winner p (chinese n) z ↔ z = Nat.toDigits 10 n := by
  have hnum := numeral_chinese (m := k.million) hn
  have hx := hnum.chars
  have hv := vtext_numc hx
  have hd := den_whole hs hz hn
  have hne := chinese_ne (n := n) (by omega)
  have hwr : Writable (cardTok (chinese n)) := writable_value (by decide)
  have hr : reord tokenOrders [cardTok (chinese n)] = [cardTok (chinese n)] := by
    simp only [reord, List.map_cons, List.map_nil]
    rw [Verif.Token.chosenFields_exempt hwr.2.2 (.inl (show tokenOrders t!"cardinal" = none by decide))]
  have hdig : ∀ c ∈ Nat.toDigits 10 n, c ∈ ZhTn.tenDigits := fun c hc => mem_toDigits hc
  have post : (postprocessor k.removeInterjections).den (Nat.toDigits 10 n) (Nat.toDigits 10 n) 0 := by
    refine (maps_postprocessor _ _ _ _).2 ⟨?_, ?_, rfl⟩
    · have : ∀ c ∈ ZhTn.tenDigits, vchar c = true := by decide
      exact fun c hc => this c (hdig c hc)
    · have h1 : ∀ c ∈ ZhTn.tenDigits, isInterjection c = false := by decide
      have : ∀ l : Str, (∀ c ∈ l, c ∈ ZhTn.tenDigits) → l = l.flatMap fun c => if k.removeInterjections && isInterjection c then [] else [c] := by
        intro l hl
        induction l with
        | nil => rfl
        | cons c l ih =>
          rw [List.flatMap_cons, ← ih fun d hd => hl d (by simp [hd]), h1 c (hl c (by simp))]
          simp
      exact this _ hdig
  refine best_cheapest hp hne (best_whole hnum hne hv hd) (v₀ := toll (chinese n) + 10000) ?_ ?_ ?_ ?_
  · have : spaced [cardTok (chinese n)] = t!"cardinal { value: \"" ++ chinese n ++ t!"\" } " := by
      simp [spaced, cardTok, write_valueTok, esc_numc hx]
    rw [this]
    intro c hc
    simp only [List.mem_append] at hc
    rcases hc with (hc | hc) | hc
    · revert c; decide
    · exact hv c hc
    · revert c; decide
  · intro t ht
    rw [List.mem_singleton.1 ht]
    exact hwr
  · rw [hr]
    have h1 : (G.comp (verbalizerU k) (postprocessor k.removeInterjections)).den (write (cardTok (chinese n))) (Nat.toDigits 10 n)
        (toll (chinese n) + 10000) := ⟨_, _, _, (verb_cardinal k hx).2 hd, post, (Int.add_zero _).symm⟩
    have h2 : Spoken _ [cardTok (chinese n)] (Nat.toDigits 10 n ++ []) (toll (chinese n) + 10000 + 0) := .cons h1 .nil
    have e : ∀ a : W, a + 0 = a := Int.add_zero
    rwa [List.append_nil, e] at h2
  · rw [hr]
    intro z v h
    obtain ⟨y, w₁, w₂, h1, h2, rfl⟩ := spoken_one h
    obtain ⟨h3, rfl, rfl⟩ := (maps_postprocessor _ _ _ _).1 h2
    have h4 := whole_only hn ((verb_cardinal k hx).1 h1)
    have e : w₁ + (0 : W) = w₁ := Int.add_zero _
    rw [e]
    refine ⟨h4.1, fun h5 => ?_⟩
    obtain rfl := h4.2 h5
    exact ((maps_postprocessor _ _ _ _).1 post).2.1.symm

/-! ### Names that are left as they are -/

theorem never_small (k : Config) {n : Nat} (hk : k.zeroToNine = false) (hn : n < 10) {u y : Str} {w : W} (hu : u <:+: chinese n)
    (hd : (cardinal k).den u y w) : False := by
  have h1 : ∀ n < 10, chinese n = [ZhTn.Spec.digitName n] := by decide +kernel
  have h2 : ∀ r s m, ∀ n < 10, ((cardinal ⟨r, s, false, m⟩).outputs [ZhTn.Spec.digitName n]).isEmpty = true := by decide +kernel
  have h3 : ∀ r s m, ((cardinal ⟨r, s, false, m⟩).outputs []).isEmpty = true := by decide +kernel
  have h4 : ∀ r s m, (cardinal ⟨r, s, false, m⟩).ok = true := by decide +kernel
  obtain ⟨r, s, z, m⟩ := k
  obtain rfl : z = false := hk
  have hm := (mem_outputs (h4 r s m)).2 hd
  rw [h1 n hn] at hu
  have h5 : u = [] ∨ u = [ZhTn.Spec.digitName n] := by
    rcases List.infix_cons_iff.1 hu with h | h
    · rcases List.prefix_cons_iff.1 h with rfl | ⟨t, rfl, h'⟩
      · exact .inl rfl
      · rw [List.prefix_nil.1 h']; exact .inr rfl
    · exact .inl (List.infix_nil.1 h)
  rcases h5 with rfl | rfl
  · rw [List.isEmpty_iff.1 (h3 r s m)] at hm; cases hm
  · rw [List.isEmpty_iff.1 (h2 r s m n hn)] at hm; cases hm

/-- A name by itself. -/
theorem winner_stands {k : Config} {p : Pipeline W}
    (hp : Piped p tokenOrders (taggerU k) (.comp (verbalizerU k) (postprocessor k.removeInterjections))) {x y z : Str}
    (hs : Stands k.standalone k.zeroToNine k.million x y) : Winner p x z ↔ z = y := by
  cases hs with
  | whole h1 h2 h3 => exact winner_whole hp h1 h2 h3
  | @kept n h1 h2 =>
    have hnum := numeral_chinese (m := k.million) h2
    rw [winner_plain hp (fallback k) (onlyChar k) (vtext_numc hnum.chars) (chinese_ne (by omega)) ?_]
    · have h3 : ∀ c ∈ numc, isInterjection c = false := by decide
      have : ∀ l : Str, (∀ c ∈ l, c ∈ numc) →
          (l.flatMap fun c => if k.removeInterjections && (c == '呃' || c == '啊') then [] else [c]) = l := by
        intro l hl
        induction l with
        | nil => rfl
        | cons c l ih =>
          have h4 : (c == '呃' || c == '啊') = false := h3 c (hl c (by simp))
          rw [List.flatMap_cons, ih fun d hd => hl d (by simp [hd]), h4]
          simp
      rw [this _ hnum.chars]
    · intro u hu t w hd
      have hn := hnum.infix hu
      rcases hn.tagger hd with ⟨y', w₀, h3, _, _⟩ | ⟨c, rfl, h3, _⟩
      · exfalso
        rcases h1 with h1 | ⟨h1, h4⟩
        · have := (hn.cardinal h3).1
          rw [h1] at this; cases this
        · exact never_small k h1 h4 hu h3
      · exact ⟨c, rfl, h3⟩

end Verif.ZhItn
