import Verif.EnItn.Accept

/-
Ordinal numbers of English ITN: the number words of an ordinal name and the suffix written after the digits.
-/

namespace Verif.EnItn

open Verif.Wfst Spec

/-! ### The suffix -/

theorem getLast_val {v : Str} {m : Nat} (h : Digs v m) {c : Char} (hc : v.getLast? = some c) :
    ∃ d < 10, c = Nat.digitChar d ∧ m % 10 = d := by
  rcases List.eq_nil_or_concat v with rfl | ⟨l, a, rfl⟩
  · cases hc
  · have : a = c := by simpa using hc
    subst this
    obtain ⟨d, hd, rfl⟩ := isDigit_digitChar (h.1 a (by simp))
    refine ⟨d, hd, rfl, ?_⟩
    have hl : Digs l (Nat.ofDigitChars 10 l 0) := ⟨fun c hc => h.1 c (by simp [hc]), rfl⟩
    have e := (hl.append (digs_digit hd)).2
    rw [List.concat_eq_append] at h
    rw [h.2] at e
    rw [e]; simp; omega

theorem Digs.left {v p : Str} {n : Nat} (h : Digs (v ++ p) n) :
    ∃ a b, Digs v a ∧ Digs p b ∧ n = a * 10 ^ p.length + b := by
  have h1 : Digs v (Nat.ofDigitChars 10 v 0) := ⟨fun c hc => h.1 c (by simp [hc]), rfl⟩
  have h2 : Digs p (Nat.ofDigitChars 10 p 0) := ⟨fun c hc => h.1 c (by simp [hc]), rfl⟩
  exact ⟨_, _, h1, h2, h.2.symm.trans (h1.append h2).2⟩

theorem notEnding_last {cs : List Char} {x y : Str} {w : W} (h : (notEnding cs).den x y w) :
    y = x ∧ ∀ c, x.getLast? = some c → c ∉ cs := by
  rcases h with ⟨rfl, rfl, -⟩ | h
  · exact ⟨rfl, by simp⟩
  · obtain ⟨x1, y1, w1, x2, y2, w2, h1, h2, rfl, rfl, rfl⟩ := h
    obtain ⟨rfl, -, -⟩ := den_VSIGMA.1 h1
    obtain ⟨c, hc, rfl, rfl, -⟩ := h2
    refine ⟨rfl, fun d hd => ?_⟩
    have : c = d := by simpa using hd
    subst this
    simp only [Bool.and_eq_true, Bool.not_eq_true', List.contains_eq_mem, decide_eq_false_iff_not] at hc
    exact hc.2

theorem notEnding_turns {cs : List Char} {x : Str} (hv : VText x) (h : ∀ c, x.getLast? = some c → c ∉ cs) :
    Turns (notEnding cs) x x := by
  rcases List.eq_nil_or_concat x with rfl | ⟨l, a, rfl⟩
  · exact Turns.left (turns_lit _)
  · rw [List.concat_eq_append] at hv h ⊢
    refine Turns.right (Turns.add ⟨0, den_VSIGMA.2 ⟨rfl, rfl, fun c hc => hv c (by simp [hc])⟩⟩ ⟨0, a, ?_, rfl, rfl, rfl⟩)
    have := h a (by simp)
    simp only [Bool.and_eq_true, Bool.not_eq_true', List.contains_eq_mem, decide_eq_false_iff_not]
    exact ⟨hv a (by simp), this⟩

theorem suffix_sound {y z : Str} {w : W} {n : Nat} (hd : Digs y n) (hy : y ≠ []) (h : ordinalSuffix.den y z w) :
    z = y ++ ordinalEnding n := by
  rcases h with (h | h) | h
  · obtain ⟨x1, y1, w1, x2, y2, w2, h1, h2, rfl, rfl, rfl⟩ := h
    obtain ⟨rfl, -, -⟩ := den_VSIGMA.1 h1
    have key : ∀ e ∈ [(t!"11", t!"11th"), (t!"12", t!"12th"), (t!"13", t!"13th")],
        e.2 = e.1 ++ t!"th" ∧ e.1.length = 2 ∧ (Digs e.1 11 ∨ Digs e.1 12 ∨ Digs e.1 13) := by decide +kernel
    obtain ⟨e1, e2, e3⟩ := key _ h2.1
    obtain ⟨a, b, -, hb, hn⟩ := Digs.left hd
    have hb' : b = 11 ∨ b = 12 ∨ b = 13 := by
      rcases e3 with e3 | e3 | e3
      · exact Or.inl (hb.2.symm.trans e3.2)
      · exact Or.inr (Or.inl (hb.2.symm.trans e3.2))
      · exact Or.inr (Or.inr (hb.2.symm.trans e3.2))
    simp only at e2
    rw [e2] at hn
    rw [ordinalEnding, if_pos (by omega)]
    simp only at e1
    rw [e1, List.append_assoc]
  · obtain ⟨x1, y1, w1, x2, y2, w2, h1, h2, rfl, rfl, rfl⟩ := h
    obtain ⟨rfl, hl⟩ := notEnding_last h1
    have key : ∀ e ∈ [(t!"1", t!"1st"), (t!"2", t!"2nd"), (t!"3", t!"3rd")],
        e.1.length = 1 ∧ ∃ b < 4, 0 < b ∧ Digs e.1 b ∧ e.2 = e.1 ++ ordinalEnding b := by decide +kernel
    obtain ⟨e1, b, hb4, hb0, hb, e2⟩ := key _ h2.1
    obtain ⟨a, b', ha, hb', hn⟩ := Digs.left hd
    have hbb : b' = b := hb'.2.symm.trans hb.2
    subst hbb
    simp only at e1 e2
    rw [e1] at hn
    have ha1 : a % 10 ≠ 1 := by
      rcases List.eq_nil_or_concat y1 with h0 | ⟨l, c, h0⟩
      · have : a = 0 := by rw [← ha.2, h0]; rfl
        omega
      · have hc : y1.getLast? = some c := by rw [h0]; simp
        obtain ⟨d, hd10, rfl, hd'⟩ := getLast_val ha hc
        intro h1
        have : d = 1 := by omega
        subst this
        exact hl _ hc (by decide)
    have e3 : ordinalEnding n = ordinalEnding b' := by
      have k1 : n % 10 = b' := by omega
      have k2 : n % 100 ≠ 11 := by omega
      have k3 : n % 100 ≠ 12 := by omega
      have k4 : n % 100 ≠ 13 := by omega
      have k5 : b' % 10 = b' := by omega
      have k6 : ¬(b' % 100 = 11 ∨ b' % 100 = 12 ∨ b' % 100 = 13) := by omega
      simp only [ordinalEnding]
      rw [if_neg (by omega : ¬(n % 100 = 11 ∨ n % 100 = 12 ∨ n % 100 = 13)), if_neg k6, k1, k5]
    rw [e2, e3, List.append_assoc]
  · obtain ⟨x1, y1, w1, x2, y2, w2, h1, h2, rfl, rfl, rfl⟩ := h
    obtain ⟨rfl, hl⟩ := notEnding_last h1
    obtain ⟨w0, h2, -⟩ := h2
    obtain ⟨rfl, rfl, -⟩ := den_insert.1 h2
    rw [List.append_nil] at hd hy ⊢
    rcases List.eq_nil_or_concat y1 with h0 | ⟨l, c, h0⟩
    · exact absurd h0 hy
    · have hc : y1.getLast? = some c := by rw [h0]; simp
      obtain ⟨d, hd10, rfl, hd'⟩ := getLast_val hd hc
      have hn := hl _ hc
      have h1 : d ≠ 1 := by rintro rfl; exact hn (by decide)
      have h2 : d ≠ 2 := by rintro rfl; exact hn (by decide)
      have h3 : d ≠ 3 := by rintro rfl; exact hn (by decide)
      have : ordinalEnding n = t!"th" := by
        simp only [ordinalEnding]
        rw [if_neg (by omega), if_neg (by omega), if_neg (by omega), if_neg (by omega)]
      rw [this]

theorem digs_vtext {y : Str} {n : Nat} (h : Digs y n) : VText y := by
  intro c hc
  have := h.1 c hc
  simp only [vchar, bne_iff_ne, ne_eq]
  rintro rfl; exact absurd this (by decide)

/-- Digits always get a suffix. -/
theorem suffix_turns {y : Str} {n : Nat} (hd : Digs y n) (hy : y ≠ []) : Turns ordinalSuffix y (y ++ ordinalEnding n) := by
  obtain ⟨z, w, hz⟩ : ∃ z, Turns ordinalSuffix y z := by
    rcases List.eq_nil_or_concat y with h0 | ⟨l, c, rfl⟩
    · exact absurd h0 hy
    rw [List.concat_eq_append] at hd ⊢
    have hv := digs_vtext hd
    by_cases hc : c ∈ ['1', '2', '3']
    · by_cases hl : l.getLast? = some '1'
      · rcases List.eq_nil_or_concat l with rfl | ⟨l', c', rfl⟩
        · cases hl
        have : c' = '1' := by simpa using hl
        subst this
        rw [List.concat_eq_append] at hv ⊢
        have hk : ∀ c ∈ ['1', '2', '3'],
            (['1', c], ['1', c, 't', 'h']) ∈ [(t!"11", t!"11th"), (t!"12", t!"12th"), (t!"13", t!"13th")] := by decide
        exact ⟨_, Turns.left (Turns.left ((Turns.add (x := l') ⟨0, den_VSIGMA.2 ⟨rfl, rfl, fun d hd => hv d (by simp [hd])⟩⟩
          (turns_tab (hk c hc))).cast (by simp) rfl))⟩
      · have hk : ∀ c ∈ ['1', '2', '3'], ∃ z, ([c], z) ∈ [(t!"1", t!"1st"), (t!"2", t!"2nd"), (t!"3", t!"3rd")] := by
          intro c hc
          simp only [List.mem_cons, List.not_mem_nil, or_false] at hc
          rcases hc with rfl | rfl | rfl
          · exact ⟨t!"1st", by simp⟩
          · exact ⟨t!"2nd", by simp⟩
          · exact ⟨t!"3rd", by simp⟩
        obtain ⟨z, hz⟩ := hk c hc
        refine ⟨_, Turns.left (Turns.right (Turns.add (notEnding_turns (fun d hd => hv d (by simp [hd])) ?_) (turns_tab hz)))⟩
        intro d hd
        simp only [List.mem_singleton]
        rintro rfl; exact hl hd
    · refine ⟨_, Turns.right ((Turns.add (notEnding_turns hv ?_) (Turns.wt (turns_insert _))).cast (by simp) rfl)⟩
      intro d hd
      have : c = d := by simpa using hd
      subst this; exact hc
  rw [suffix_sound hd hy hz] at hz
  exact ⟨w, hz⟩

/-! ### Ordinal words -/

/-- The pairs of `suffix`, ordinal.py:36. -/
def ordPairs : List (Str × Str) := ordDigit ++ ordTeen ++ [(t!"tieth", t!"ty"), (t!"th", t!"")]

theorem ordSuffix_pairs {x y : Str} {w : W} : ordSuffix.den x y w ↔ (x, y) ∈ ordPairs ∧ w = 0 := by
  unfold ordSuffix ordPairs
  constructor
  · rintro (((h | h) | h) | h)
    · exact ⟨List.mem_append_left _ (List.mem_append_left _ h.1), h.2⟩
    · exact ⟨List.mem_append_left _ (List.mem_append_right _ h.1), h.2⟩
    · obtain ⟨rfl, rfl, rfl⟩ := den_crossS.1 h; exact ⟨by simp, rfl⟩
    · obtain ⟨rfl, rfl, rfl⟩ := den_crossS.1 h; exact ⟨by simp, rfl⟩
  · rintro ⟨h, rfl⟩
    rcases List.mem_append.1 h with h | h
    · rcases List.mem_append.1 h with h | h
      · exact Or.inl (Or.inl (Or.inl ⟨h, rfl⟩))
      · exact Or.inl (Or.inl (Or.inr ⟨h, rfl⟩))
    · simp only [List.mem_cons, Prod.mk.injEq, List.not_mem_nil, or_false] at h
      rcases h with ⟨rfl, rfl⟩ | ⟨rfl, rfl⟩
      · exact Or.inl (Or.inr (den_crossS.2 ⟨rfl, rfl, rfl⟩))
      · exact Or.inr (den_crossS.2 ⟨rfl, rfl, rfl⟩)

theorem ordinal_den {x y : Str} {w : W} : ordinal.den x y w ↔
    ∃ u s t, (s, t) ∈ ordPairs ∧ x = u ++ s ∧ VText u ∧ cardinal.den (u ++ t) y w := by
  constructor
  · rintro ⟨m, w1, w2, h1, h2, rfl⟩
    obtain ⟨x1, y1, w3, x2, y2, w4, h3, h4, rfl, rfl, rfl⟩ := h1
    obtain ⟨rfl, rfl, hv⟩ := den_VSIGMA.1 h3
    obtain ⟨h5, rfl⟩ := ordSuffix_pairs.1 h4
    exact ⟨y1, x2, y2, h5, rfl, hv, by simpa using h2⟩
  · rintro ⟨u, s, t, h1, rfl, hv, h2⟩
    exact ⟨u ++ t, 0, w, ⟨u, u, 0, s, t, 0, den_VSIGMA.2 ⟨rfl, rfl, hv⟩, ordSuffix_pairs.2 ⟨h1, rfl⟩, rfl, rfl, rfl⟩,
      h2, (Int.zero_add w).symm⟩

/-- All words of number names. -/
def numWords : List Str := [t!"zero", t!"hundred"] ++ unitNames ++ teenNames ++ tyNames ++ scaleNames

/-- A word that is neither heard as a number word nor skipped. -/
def Unknown (z : Str) : Prop :=
  ' ' ∉ z ∧ unit z = none ∧ tens z = none ∧ z ≠ t!"hundred" ∧ scale z = none ∧ z ≠ t!"and" ∧ z ≠ t!"zero"

instance (z : Str) : Decidable (Unknown z) := by unfold Unknown; infer_instance

theorem stem_table : ∀ w ∈ numWords, ∀ p ∈ ordPairs, ∀ k ≤ (ordinalWord w).length,
    (ordinalWord w).drop k = p.1 → ((ordinalWord w).take k ++ p.2 = w ∨ Unknown ((ordinalWord w).take k ++ p.2)) := by
  decide +kernel

theorem stem {w v s t : Str} (hw : w ∈ numWords) (h : (s, t) ∈ ordPairs) (he : ordinalWord w = v ++ s) :
    v ++ t = w ∨ Unknown (v ++ t) := by
  have hk : v.length ≤ (ordinalWord w).length := by rw [he]; simp
  have := stem_table w hw _ h v.length hk (by rw [he, List.drop_left])
  rwa [he, List.take_left] at this

theorem ordinal_of_word : ∀ w ∈ numWords, (∃ p ∈ ordPairs, ∃ k ≤ (ordinalWord w).length,
    (ordinalWord w).drop k = p.1 ∧ (ordinalWord w).take k ++ p.2 = w) ∧ ' ' ∉ ordinalWord w ∧ VText (ordinalWord w) := by
  decide +kernel

theorem pairs_nospace : ∀ p ∈ ordPairs, ' ' ∉ p.1 := by decide +kernel

theorem wordsFrom_nospace {u : Str} (cur : Str) (hu : ' ' ∉ u) : wordsFrom cur u = [cur ++ u] := by
  induction u generalizing cur with
  | nil => simp [wordsFrom]
  | cons d u ih =>
    simp only [wordsFrom]
    rw [if_neg (fun e => hu (by simp [e])), ih _ (fun hc => hu (List.mem_cons_of_mem _ hc))]
    simp

theorem value_unknown {l : List Str} {z : Str} (x : Str) (hx : words x = l ++ [z]) (hz : Unknown z) : value x = none := by
  obtain ⟨-, h1, h2, h3, h4, h5, h6⟩ := hz
  have e : (words x).filter (· ≠ t!"and") = l.filter (· ≠ t!"and") ++ [z] := by
    rw [hx, List.filter_append, List.filter_cons_of_pos (by simpa using h5)]; rfl
  simp only [value]
  rw [e, if_neg, run_append]
  · cases run ⟨0, 0⟩ (l.filter (· ≠ t!"and")) with
    | none => rfl
    | some s =>
      simp only [Option.bind_some, run, step, h1, h2, h4]
      rw [if_neg h3]; rfl
  · intro he
    have := congrArg List.getLast? he
    simp at this
    exact h6 this

theorem join_last (l : List Str) (w : Str) : join (l ++ [w]) = (if l = [] then [] else join l ++ [' ']) ++ w := by
  by_cases h : l = []
  · subst h; rfl
  · rw [if_neg h, join_append h (by simp)]; simp [join]

theorem ordinalWords_last (l : List Str) (w : Str) : ordinalWords (l ++ [w]) = l ++ [ordinalWord w] := by
  induction l with
  | nil => rfl
  | cons v l ih =>
    cases l with
    | nil => rfl
    | cons u l => simpa [ordinalWords] using ih

/-- A suffix without spaces of `p ++ w` lies in `w` when `p` is empty or ends with a space. -/
theorem suffix_in_last {l : List Str} {w u s : Str} (hs : ' ' ∉ s)
    (h : (if l = [] then [] else join l ++ [' ']) ++ w = u ++ s) (hw : ' ' ∉ w) :
    ∃ v, u = (if l = [] then [] else join l ++ [' ']) ++ v ∧ w = v ++ s := by
  rcases List.append_eq_append_iff.1 h with ⟨a, h1, h2⟩ | ⟨a, h1, h2⟩
  · exact ⟨a, h1, h2⟩
  · by_cases hl : l = []
    · rw [if_pos hl] at h1 ⊢
      obtain ⟨rfl, rfl⟩ := List.append_eq_nil_iff.1 h1.symm
      exact ⟨[], rfl, by simpa using h2.symm⟩
    · rw [if_neg hl] at h1 ⊢
      rcases List.eq_nil_or_concat a with rfl | ⟨a', c, rfl⟩
      · exact ⟨[], by simpa using h1.symm, by simpa using h2.symm⟩
      · exfalso
        rw [List.concat_eq_append, ← List.append_assoc] at h1
        have := List.append_inj_right' h1 rfl
        have hc : c = ' ' := by simpa using this.symm
        exact hs (by rw [h2, hc]; simp)

theorem words_last (l : List Str) {w : Str} (hw : ' ' ∉ w) :
    ∃ l', words ((if l = [] then [] else join l ++ [' ']) ++ w) = l' ++ [w] := by
  by_cases h : l = []
  · rw [if_pos h]
    exact ⟨[], wordsFrom_nospace [] hw⟩
  · rw [if_neg h, List.append_assoc]
    refine ⟨words (join l), ?_⟩
    have := words_append_space (join l) w
    rw [show ([' '] ++ w : Str) = ' ' :: w from rfl, this]
    congr 1
    exact wordsFrom_nospace [] hw

/-- The ordinal grammar reads an ordinal name as the number name. -/
theorem ordinal_iff {l : List Str} {w : Str} (hw : w ∈ numWords) (hv : VText (join (l ++ [ordinalWord w]))) (y : Str) :
    Turns ordinal (join (l ++ [ordinalWord w])) y ↔ Turns cardinal (join (l ++ [w])) y := by
  obtain ⟨⟨⟨s, t⟩, hp, k, hk, e1, e2⟩, hns, -⟩ := ordinal_of_word w hw
  constructor
  · rintro ⟨c, h⟩
    obtain ⟨u, s', t', h1, h2, h3, h4⟩ := ordinal_den.1 h
    rw [join_last] at h2
    obtain ⟨v, rfl, h6⟩ := suffix_in_last (pairs_nospace _ h1) h2 hns
    rcases stem hw h1 h6 with h7 | h7
    · rw [join_last, ← h7]
      exact ⟨c, by simpa using h4⟩
    · obtain ⟨n, hn, -⟩ := cardinal_value h4
      obtain ⟨l', hl'⟩ := words_last l h7.1
      rw [value_unknown _ (by rw [List.append_assoc]; exact hl') h7] at hn
      cases hn
  · rintro ⟨c, h⟩
    refine ⟨c, ordinal_den.2 ⟨(if l = [] then [] else join l ++ [' ']) ++ (ordinalWord w).take k, s, t, hp, ?_, ?_, ?_⟩⟩
    · rw [join_last, List.append_assoc]
      simp only at e1
      rw [← e1, List.take_append_drop]
    · intro d hd
      refine hv d ?_
      rw [join_last]
      rcases List.mem_append.1 hd with hd | hd
      · exact List.mem_append_left _ hd
      · exact List.mem_append_right _ (List.mem_of_mem_take hd)
    · rw [List.append_assoc]
      simp only at e2
      rw [e2, ← join_last]; exact h

theorem below1000_num (b : Bool) {n : Nat} (h : 0 < n) (h' : n < 1000) : ∀ w ∈ below1000 b n, w ∈ numWords ∨ w = t!"and" := by
  have k1 : ∀ n < 100, 0 < n → ∀ w ∈ below100 n, w ∈ numWords := by decide +kernel
  have k2 : ∀ n < 10, 0 < n → unitNames.getD (n - 1) [] ∈ numWords := by decide +kernel
  intro w hw
  unfold below1000 at hw
  by_cases h1 : n < 100
  · rw [if_pos h1] at hw; exact Or.inl (k1 n h1 h w hw)
  · rw [if_neg h1] at hw
    rcases List.mem_append.1 hw with hw | hw
    · simp only [List.mem_cons, List.not_mem_nil, or_false] at hw
      rcases hw with rfl | rfl
      · exact Or.inl (k2 _ (by omega) (by omega))
      · exact Or.inl (by decide)
    · by_cases h2 : n % 100 = 0
      · rw [if_pos h2] at hw; cases hw
      · rw [if_neg h2] at hw
        rcases List.mem_append.1 hw with hw | hw
        · cases b with
          | true => right; simpa using hw
          | false => simp at hw
        · exact Or.inl (k1 _ (by omega) (by omega) w hw)

theorem groups_num (b : Bool) {names : List Str} (hn : ∀ s ∈ names, s ∈ numWords) {n : Nat}
    (h : n < 1000 ^ (names.length + 1)) : ∀ w ∈ groups b names n, w ∈ numWords ∨ w = t!"and" := by
  induction names generalizing n with
  | nil =>
    unfold groups
    by_cases h0 : n = 0
    · rw [if_pos h0]; simp
    · rw [if_neg h0]; exact below1000_num b (by omega) (by simpa using h)
  | cons name names ih =>
    simp only [List.length_cons] at h
    have hpos : 0 < 1000 ^ (names.length + 1) := Nat.pow_pos (by decide)
    have hq : n / 1000 ^ (names.length + 1) < 1000 := by
      rw [Nat.div_lt_iff_lt_mul hpos]
      rw [Nat.pow_succ] at h; omega
    have ih' := ih (fun s hs => hn s (List.mem_cons_of_mem _ hs)) (Nat.mod_lt n hpos)
    intro w hw
    unfold groups at hw
    rcases List.mem_append.1 hw with hw | hw
    · by_cases h0 : n / 1000 ^ (names.length + 1) = 0
      · rw [if_pos h0] at hw; cases hw
      · rw [if_neg h0] at hw
        rcases List.mem_append.1 hw with hw | hw
        · exact below1000_num b (Nat.pos_of_ne_zero h0) hq w hw
        · simp only [List.mem_singleton] at hw
          subst hw; exact Or.inl (hn _ (by simp))
    · exact ih' w hw

theorem numberWords_last (b : Bool) {n : Nat} (h : n < 10 ^ 24) :
    ∃ l w, numberWords b n = l ++ [w] ∧ w ∈ numWords ∧ (∀ v ∈ l, Word v) := by
  unfold numberWords
  by_cases h0 : n = 0
  · rw [if_pos h0]; exact ⟨[], t!"zero", rfl, by decide, by simp⟩
  · rw [if_neg h0, show scaleNames.reverse = mags from rfl]
    have hlt : n < 1000 ^ (mags.length + 1) := by
      have : (10 : Nat) ^ 24 = 1000 ^ (mags.length + 1) := by decide
      omega
    obtain ⟨g1, -, g3, -⟩ := groups_words b (names := mags) (by decide) hlt
    have g5 := groups_num b (names := mags) (by decide) hlt
    rcases List.eq_nil_or_concat (groups b mags n) with hg | ⟨l, w, hg⟩
    · exact absurd hg (groups_ne b (by omega))
    · rw [hg, List.concat_eq_append] at g1 g3 g5 ⊢
      refine ⟨l, w, rfl, ?_, fun v hv => g1 v (by simp [hv])⟩
      rcases g5 w (by simp) with h1 | h1
      · exact h1
      · exact absurd (by simp [h1]) g3

theorem vtext_join' {ws : List Str} (h : ∀ w ∈ ws, VText w) : VText (join ws) := by
  induction ws with
  | nil => intro c hc; cases hc
  | cons w ws ih =>
    cases ws with
    | nil => exact h w (by simp)
    | cons v ws =>
      intro c hc
      simp only [join, List.mem_append, List.mem_cons] at hc
      rcases hc with hc | rfl | hc
      · exact h w (by simp) c hc
      · decide
      · exact ih (fun w hw => h w (List.mem_cons_of_mem _ hw)) c hc

theorem ordinalName_iff (b : Bool) {n : Nat} (h : n < 10 ^ 24) (y : Str) :
    Turns ordinal (ordinalName b n) y ↔ Turns cardinal (english b n) y := by
  obtain ⟨l, w, h1, h2, h3⟩ := numberWords_last b h
  unfold ordinalName english
  rw [h1, ordinalWords_last]
  refine ordinal_iff h2 (vtext_join' ?_) y
  intro v hv
  rcases List.mem_append.1 hv with hv | hv
  · intro c hc
    have := (h3 v hv).2 c hc
    simp only [vchar, bne_iff_ne, ne_eq]
    rintro rfl; exact absurd this (by decide)
  · simp only [List.mem_singleton] at hv
    subst hv; exact (ordinal_of_word w h2).2.2

end Verif.EnItn
