import Verif.EnItn.Groups
import Verif.EnItn.NumberProps

/-
In a text of words and names of numbers no token crosses from one part into the next.
-/

namespace Verif.EnItn

open Verif.Wfst Spec

/-! ### Words and texts -/

theorem words_join {ws : List Str} (hne : ws ≠ []) (h : ∀ w ∈ ws, ' ' ∉ w) : words (join ws) = ws := by
  induction ws with
  | nil => exact absurd rfl hne
  | cons w ws ih =>
    cases ws with
    | nil => exact words_single (h w (by simp))
    | cons v ws =>
      rw [join, words_append_space, words_single (h w (by simp)), ih (by simp) fun u hu => h u (by simp [hu])]
      rfl

theorem join_words (x : Str) : join (words x) = x := by
  have key : ∀ (x cur : Str), join (wordsFrom cur x) = cur ++ x := by
    intro x
    induction x with
    | nil => intro cur; simp [wordsFrom, join]
    | cons c x ih =>
      intro cur
      simp only [wordsFrom]
      split
      · rename_i hc
        rw [join_cons (b := wordsFrom [] x) (words_ne x), ih]
        simp [hc]
      · rw [ih]; simp
  simpa [words] using key x []

theorem words_inj {x y : Str} (h : words x = words y) : x = y := by rw [← join_words x, h, join_words]

/-! ### Names of numbers -/

theorem toDigits_inj {m n : Nat} (h : Nat.toDigits 10 m = Nat.toDigits 10 n) : m = n := by
  rw [← (digs_toDigits m).2, h, (digs_toDigits n).2]

theorem english_value (b : Bool) {n : Nat} (h : n < 10 ^ 24) : value (english b n) = some n := by
  obtain ⟨w, hw⟩ := cardinal_accepts b h
  obtain ⟨m, h1, h2⟩ := cardinal_value hw
  rw [h1, toDigits_inj h2]

theorem numberWords_word (b : Bool) {n : Nat} (h : n < 10 ^ 24) : ∀ w ∈ numberWords b n, Word w := by
  unfold numberWords
  split
  · decide
  · refine (groups_words b (names := mags) (by decide) ?_).1
    have : (10 : Nat) ^ 24 = 1000 ^ (mags.length + 1) := by decide
    omega

theorem numberWords_ne (b : Bool) (n : Nat) : numberWords b n ≠ [] := by
  unfold numberWords
  split
  · simp
  · exact groups_ne b (by omega)

theorem english_words (b : Bool) {n : Nat} (h : n < 10 ^ 24) : words (english b n) = numberWords b n :=
  words_join (numberWords_ne b n) fun w hw => (numberWords_word b h w hw).noSpace

theorem numberWords_names (b : Bool) {n : Nat} (h : n < 10 ^ 24) : ∀ w ∈ numberWords b n, w ∈ numberNames := by
  rw [← english_words b h]
  exact value_names (english_value b h)

theorem numberWords_run (b : Bool) {n : Nat} (h : n < 10 ^ 24) (h0 : 0 < n) :
    ∃ s, run ⟨0, 0⟩ (heard (numberWords b n)) = some s ∧ s.total + s.cur = n := by
  have hv := english_value b h
  unfold value at hv
  rw [english_words b h] at hv
  simp only at hv
  split at hv
  · cases hv; omega
  · obtain ⟨s, h1, h2⟩ := Option.map_eq_some_iff.1 hv
    exact ⟨s, h1, h2⟩

theorem run_infix {u v : List Str} (h : u <:+: v) {s s' : St} (hr : run s v = some s') : ∃ t t', run t u = some t' := by
  obtain ⟨p, q, rfl⟩ := h
  rw [run_append, run_append] at hr
  cases h1 : run s p with
  | none => rw [h1] at hr; cases hr
  | some t =>
    rw [h1, Option.bind_some] at hr
    cases h2 : run t u with
    | none => rw [h2] at hr; cases hr
    | some t' => exact ⟨t, t', h2⟩

/-- No part of the name of a number is a jam. -/
theorem number_runs (b : Bool) {n : Nat} (h : n < 10 ^ 24) {u : List Str} (hu : u <:+: numberWords b n)
    (h2 : 2 ≤ (heard u).length) : ∃ t t', run t (heard u) = some t' := by
  by_cases h0 : n = 0
  · subst h0
    have h3 : (heard u).length ≤ (heard (numberWords b 0)).length := (hu.filter _).length_le
    have e : (heard (numberWords b 0)).length = 1 := by cases b <;> decide
    omega
  · obtain ⟨s, h3, -⟩ := numberWords_run b h (by omega)
    exact run_infix (hu.filter _) h3

/-! ### Parts -/

/-- What is used of a part. -/
structure Good (p : Part) : Prop where
  ne : p.words ≠ []
  binds : ∀ w ∈ p.words, w ∈ numberNames → p.Binds
  word : ∀ w ∈ p.words, w ≠ [] ∧ ∀ c ∈ w, Wordy c ∧ ¬ Mark c
  unknown : ∀ w ∈ p.words, ¬ Known w
  runs : ∀ u, u <:+: p.words → 2 ≤ (heard u).length → ∃ t t', run t (heard u) = some t'

theorem alpha_wordy {c : Char} (h : isAlpha c = true) : Wordy c ∧ ¬ Mark c := by
  have h1 : ∀ d ∈ '\x00' :: '"' :: '\\' :: [' ', '\t', '\n', '\x0b', '\x0c', '\r', '\u00a0'], isAlpha d = false := by decide
  have h2 : ∀ d ∈ "!#$%&'()*+,-./:;<=>?@^_`{|}~".toList, isAlpha d = false := by decide +kernel
  have h3 : ∀ d, isAlpha d = false → c ≠ d := by rintro d hd rfl; rw [h] at hd; cases hd
  refine ⟨⟨h3 _ (h1 _ (by simp)), ?_, h3 _ (h1 _ (by simp)), h3 _ (h1 _ (by simp))⟩, fun hm => h3 c (h2 c hm) rfl⟩
  intro hw
  exact h3 c (h1 c (List.mem_cons_of_mem _ (List.mem_cons_of_mem _ (List.mem_cons_of_mem _ hw)))) rfl

theorem good_number (b : Bool) {n : Nat} (h : n < 10 ^ 24) : Good (.number b n) where
  ne := numberWords_ne b n
  binds _ _ _ := trivial
  word w hw := ⟨(numberWords_word b h w hw).1, fun c hc => alpha_wordy ((numberWords_word b h w hw).2 c hc)⟩
  unknown w hw := number_unknown (numberWords_names b h w hw)
  runs _ hu h2 := number_runs b h hu h2

theorem good_written {p : Part} {y : Str} (h : p.Written y) : Good p := by
  cases h with
  | @word w h =>
    refine ⟨by simp [Part.words], ?_, ?_, ?_, ?_⟩
    · intro v hv hn
      obtain rfl := List.mem_singleton.1 hv
      exact h.noNumber hn
    · intro v hv
      obtain rfl := List.mem_singleton.1 hv
      exact ⟨h.ne, h.chars⟩
    · intro v hv
      obtain rfl := List.mem_singleton.1 hv
      exact h.unknown
    · intro u hu h2
      have h1 := hu.length_le
      have h3 := List.length_filter_le (fun w : Str => decide (w ≠ t!"and")) u
      simp only [Part.words, List.length_singleton] at h1
      unfold heard at h2
      omega
  | kept h => exact good_number _ (by omega)
  | short _ h => exact good_number _ h
  | digits _ h _ => exact good_number _ h

/-! ### No token crosses from one part to the next -/

theorem infix_split {P : Str → Prop} {u a b : List Str} (h : u <:+: a ++ b) (hu : ∀ w ∈ u, P w)
    (hab : ∀ v ∈ a.getLast?, ∀ w ∈ b.head?, ¬ (P v ∧ P w)) : u <:+: a ∨ u <:+: b := by
  obtain ⟨s, t, e⟩ := h
  rw [List.append_assoc] at e
  rcases List.append_eq_append_iff.1 e with ⟨a', rfl, e1⟩ | ⟨c', rfl, e1⟩
  · rcases List.append_eq_append_iff.1 e1 with ⟨a'', rfl, rfl⟩ | ⟨c', rfl, rfl⟩
    · exact .inl ⟨s, a'', by simp⟩
    · rcases List.eq_nil_or_concat a' with rfl | ⟨l, v, rfl⟩
      · exact .inr ⟨[], t, by simp⟩
      · cases c' with
        | nil => exact .inl ⟨s, [], by simp⟩
        | cons w c' =>
          exact absurd ⟨hu v (by simp), hu w (by simp)⟩ (hab v (by simp) w (by simp))
  · exact .inr ⟨c', t, by rw [e1]; simp⟩

theorem part_infix {ps : List Part} (hg : ∀ p ∈ ps, Good p) (hc : ps.IsChain fun p q => ¬ (p.Binds ∧ q.Binds))
    {u : List Str} (hne : u ≠ []) (hu : ∀ w ∈ u, w ∈ numberNames) (h : u <:+: ps.flatMap Part.words) :
    ∃ p ∈ ps, u <:+: p.words := by
  induction ps with
  | nil => exact absurd (List.infix_nil.1 (by simpa using h)) hne
  | cons p ps ih =>
    rw [List.flatMap_cons] at h
    rcases infix_split h hu (by
      intro v hv w hw ⟨h1, h2⟩
      cases ps with
      | nil => simp at hw
      | cons q ps =>
        have hq := (hg q (by simp)).ne
        obtain ⟨a, l, e⟩ := List.exists_cons_of_ne_nil hq
        rw [List.flatMap_cons, e] at hw
        simp only [List.cons_append, List.head?_cons, Option.mem_def, Option.some.injEq] at hw
        subst hw
        rw [List.isChain_cons_cons] at hc
        exact hc.1 ⟨(hg p (by simp)).binds v (List.mem_of_getLast? hv) h1,
          (hg q (by simp)).binds a (by rw [e]; simp) h2⟩) with h1 | h1
    · exact ⟨p, by simp, h1⟩
    · obtain ⟨q, hq, h2⟩ := ih (fun q hq => hg q (by simp [hq])) hc.tail h1
      exact ⟨q, by simp [hq], h2⟩

/-- No words in a row of a text are bad. -/
theorem not_bad {ps : List Part} (hg : ∀ p ∈ ps, Good p) (hc : ps.IsChain fun p q => ¬ (p.Binds ∧ q.Binds))
    {v : List Str} (hv : v <:+: ps.flatMap Part.words) : ¬ Bad v := by
  rintro (⟨w, h1, h2⟩ | ⟨u, h1, h2, h3, h4⟩)
  · obtain ⟨p, hp, hw⟩ := List.mem_flatMap.1 (hv.subset h1)
    exact (hg p hp).unknown w hw h2
  · obtain ⟨p, hp, h5⟩ := part_infix hg hc (by rintro rfl; simp [heard] at h3) h2 (h1.trans hv)
    obtain ⟨t, t', h6⟩ := (hg p hp).runs u h5 h3
    rw [h4] at h6
    cases h6

theorem split_groups {α : Type} {P : Str → Prop} {f : α → List Str} {gs : List α} {a b : List Str}
    (hf : ∀ g ∈ gs, f g ≠ [] ∧ ((f g).length = 1 ∨ ∀ w ∈ f g, P w)) (h : gs.flatMap f = a ++ b)
    (hab : ∀ v ∈ a.getLast?, ∀ w ∈ b.head?, ¬ (P v ∧ P w)) :
    ∃ g₁ g₂, gs = g₁ ++ g₂ ∧ g₁.flatMap f = a ∧ g₂.flatMap f = b := by
  induction gs generalizing a with
  | nil =>
    obtain ⟨rfl, rfl⟩ := List.append_eq_nil_iff.1 h.symm
    exact ⟨[], [], rfl, rfl, rfl⟩
  | cons g gs ih =>
    by_cases ha : a = []
    · subst ha
      exact ⟨[], g :: gs, rfl, rfl, h⟩
    have hf' : ∀ g ∈ gs, f g ≠ [] ∧ ((f g).length = 1 ∨ ∀ w ∈ f g, P w) := fun k hk => hf k (by simp [hk])
    rw [List.flatMap_cons] at h
    rcases List.append_eq_append_iff.1 h with ⟨a', rfl, e⟩ | ⟨c', e, rfl⟩
    · obtain ⟨g₁, g₂, rfl, h1, h2⟩ := ih hf' e (by
        intro v hv
        exact hab v (by
          rcases List.eq_nil_or_concat a' with rfl | ⟨l, v', rfl⟩
          · simp at hv
          · simpa using hv))
      exact ⟨g :: g₁, g₂, rfl, by rw [List.flatMap_cons, h1], h2⟩
    · cases c' with
      | nil =>
        refine ⟨[g], gs, rfl, ?_, rfl⟩
        simpa using e
      | cons w c' =>
        exfalso
        obtain ⟨l, v, rfl⟩ := (List.eq_nil_or_concat a).resolve_left ha
        rcases (hf g (by simp)).2 with h1 | h1
        · rw [e] at h1
          simp at h1
          omega
        · rw [e] at h1
          exact hab v (by simp) w (by simp) ⟨h1 v (by simp), h1 w (by simp)⟩

theorem split_parts {α : Type} {f : α → List Str} {ps : List Part} (hg : ∀ p ∈ ps, Good p)
    (hc : ps.IsChain fun p q => ¬ (p.Binds ∧ q.Binds)) {gs : List α}
    (hf : ∀ g ∈ gs, f g ≠ [] ∧ ((f g).length = 1 ∨ ∀ w ∈ f g, w ∈ numberNames)) (h : gs.flatMap f = ps.flatMap Part.words) :
    ∃ gss : List (List α), List.Forall₂ (fun p g => g.flatMap f = p.words) ps gss ∧ gss.flatten = gs := by
  induction ps generalizing gs with
  | nil =>
    refine ⟨[], .nil, ?_⟩
    cases gs with
    | nil => rfl
    | cons g gs =>
      exfalso
      rw [List.flatMap_nil, List.flatMap_cons] at h
      exact (hf g (by simp)).1 (List.append_eq_nil_iff.1 h).1
  | cons p ps ih =>
    rw [List.flatMap_cons] at h
    obtain ⟨g₁, g₂, rfl, h1, h2⟩ := split_groups hf h (by
      intro v hv w hw ⟨h1, h2⟩
      cases ps with
      | nil => simp at hw
      | cons q ps =>
        have hq := (hg q (by simp)).ne
        obtain ⟨a, l, e⟩ := List.exists_cons_of_ne_nil hq
        rw [List.flatMap_cons, e] at hw
        simp only [List.cons_append, List.head?_cons, Option.mem_def, Option.some.injEq] at hw
        subst hw
        rw [List.isChain_cons_cons] at hc
        exact hc.1 ⟨(hg p (by simp)).binds v (List.mem_of_getLast? hv) h1,
          (hg q (by simp)).binds a (by rw [e]; simp) h2⟩)
    obtain ⟨gss, h3, rfl⟩ := ih (fun q hq => hg q (by simp [hq])) hc.tail (fun g hg => hf g (by simp [hg])) h2
    exact ⟨g₁ :: gss, .cons h1 h3, rfl⟩

end Verif.EnItn
