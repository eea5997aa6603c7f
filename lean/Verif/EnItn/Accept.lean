import Verif.EnItn.Number
import Verif.Wfst.Run

/-
The cardinal grammar of English ITN accepts the English name of every number below 10²⁴.
-/

namespace Verif.EnItn

open Verif.Wfst Spec

/-- `g` turns `x` into digits that denote `n`. -/
def Writes (g : G) (x : Str) (n : Nat) : Prop := ∃ y, Turns g x y ∧ Digs y n

theorem writes_of_outputs {g : G} {x : Str} {n : Nat} (hok : g.ok = true)
    (h : (g.outputs x).any (fun o => decide (Digs o.1 n)) = true) : Writes g x n := by
  obtain ⟨⟨y, w⟩, h1, h2⟩ := List.any_eq_true.1 h
  exact ⟨y, ⟨w, (mem_outputs hok).1 h1⟩, of_decide_eq_true h2⟩

theorem join_append {a b : List Str} (ha : a ≠ []) (hb : b ≠ []) : join (a ++ b) = join a ++ ' ' :: join b := by
  induction a with
  | nil => exact absurd rfl ha
  | cons w a ih =>
    cases a with
    | nil =>
      cases b with
      | nil => exact absurd rfl hb
      | cons v b => rfl
    | cons u a =>
      have := ih (by simp)
      simp only [List.cons_append, join, List.append_assoc] at this ⊢
      rw [this]

theorem join_cons {w : Str} {b : List Str} (hb : b ≠ []) : join (w :: b) = w ++ ' ' :: join b :=
  join_append (a := [w]) (by simp) hb

/-! ### Deleting "and" between words -/

/-- A word of letters. -/
def Word (w : Str) : Prop := w ≠ [] ∧ ∀ c ∈ w, isAlpha c = true

instance (w : Str) : Decidable (Word w) := by unfold Word; infer_instance

theorem Word.noSpace {w : Str} (h : Word w) : ' ' ∉ w := fun hc => absurd (h.2 _ hc) (by decide)

theorem no_left {pre : Str} (h : pre.getLast? ≠ some ' ') : Ctx.left (.chr (· = ' ')) pre = false := by
  simp only [Ctx.left]
  cases he : pre.getLast? with
  | none => rfl
  | some c =>
    rw [he] at h
    simpa using h

theorem keep_rest {pre cs rest y : Str} {w : W} (hp : pre.getLast? ≠ some ' ') (hcs : ' ' ∉ cs)
    (h : Rewrites (del t!"and ").den (.chr (· = ' ')) (.chr isAlpha) (pre ++ cs ++ [' ']) rest y w) :
    Rewrites (del t!"and ").den (.chr (· = ' ')) (.chr isAlpha) pre (cs ++ ' ' :: rest) (cs ++ ' ' :: y) w := by
  induction cs generalizing pre with
  | nil =>
    refine .keep (fun hf => ?_) (by simpa using h)
    rw [no_left hp] at hf
    exact absurd hf.1 (by simp)
  | cons c cs ih =>
    refine .keep (fun hf => ?_) (ih ?_ ?_ (by simpa using h))
    · rw [no_left hp] at hf
      exact absurd hf.1 (by simp)
    · simp only [List.getLast?_append, List.getLast?_singleton, Option.some_or, ne_eq, Option.some.injEq]
      rintro rfl; exact hcs (by simp)
    · exact fun hc => hcs (List.mem_cons_of_mem _ hc)

theorem fires_and {s : Str} (h : Fires (del t!"and ").den (.chr isAlpha) s) : ∃ t, s = t!"and " ++ t := by
  obtain ⟨u, v, w, t, rfl, -, h, -⟩ := h
  obtain ⟨rfl, -, -⟩ := den_del.1 h
  exact ⟨t, rfl⟩

theorem keep_word {pre w rest y : Str} {c : W} (hw : Word w) (hn : w ≠ t!"and")
    (h : Rewrites (del t!"and ").den (.chr (· = ' ')) (.chr isAlpha) (pre ++ w ++ [' ']) rest y c) :
    Rewrites (del t!"and ").den (.chr (· = ' ')) (.chr isAlpha) pre (w ++ ' ' :: rest) (w ++ ' ' :: y) c := by
  cases w with
  | nil => exact absurd rfl hw.1
  | cons a w =>
    have hs := hw.noSpace
    refine .keep (fun hf => ?_) (keep_rest ?_ (fun hc => hs (List.mem_cons_of_mem _ hc)) (by simpa using h))
    · obtain ⟨t, ht⟩ := fires_and hf.2
      apply hn
      have h1 := congrArg words ht
      rw [show a :: List.append w (' ' :: rest) = (a :: w) ++ ' ' :: rest from rfl,
        show (t!"and " ++ t : Str) = t!"and" ++ ' ' :: t from rfl, words_append_space, words_append_space] at h1
      have hw1 : ∀ (u cur : Str), ' ' ∉ u → wordsFrom cur u = [cur ++ u] := by
        intro u
        induction u with
        | nil => intro cur _; simp [wordsFrom]
        | cons d u ih =>
          intro cur hu
          simp only [wordsFrom]
          rw [if_neg (fun e => hu (by simp [e])), ih _ (fun hc => hu (List.mem_cons_of_mem _ hc))]
          simp
      rw [words, hw1 _ _ hs, show words t!"and" = [t!"and"] from rfl] at h1
      simpa using (List.cons.inj h1).1
    · simp only [List.getLast?_append, List.getLast?_singleton, Option.some_or, ne_eq, Option.some.injEq]
      rintro rfl; exact hs (by simp)

theorem heard_ne_nil {ws : List Str} (hl : ws.getLast? ≠ some t!"and") (hne : ws ≠ []) : heard ws ≠ [] := by
  intro h
  rcases List.eq_nil_or_concat ws with rfl | ⟨l, a, rfl⟩
  · exact hne rfl
  · apply hl
    have : a ∉ heard (l.concat a) := by rw [h]; simp
    simp only [heard, List.mem_filter, List.concat_eq_append, List.mem_append, List.mem_singleton, or_true,
      true_and, decide_eq_true_eq, ne_eq, not_not] at this
    simp [this]

theorem head_join {v : Str} {ws : List Str} (hv : Word v) : (join (v :: ws)).head?.any isAlpha = true := by
  obtain ⟨a, v', rfl⟩ := List.exists_cons_of_ne_nil hv.1
  have ha := hv.2 a (by simp)
  cases ws with
  | nil => simpa [join] using ha
  | cons u ws => simpa [join] using ha

theorem deleteAnd_join {ws : List Str} {pre : Str} (hne : ws ≠ []) (hw : ∀ w ∈ ws, Word w)
    (hl : ws.getLast? ≠ some t!"and") (hp : pre.getLast? = some ' ' ∨ ws.head? ≠ some t!"and") :
    Rewrites (del t!"and ").den (.chr (· = ' ')) (.chr isAlpha) pre (join ws) (join (heard ws)) 0 := by
  induction ws generalizing pre with
  | nil => exact absurd rfl hne
  | cons w ws ih =>
    have hww := hw w (by simp)
    cases ws with
    | nil =>
      have hwa : w ≠ t!"and" := by simpa using hl
      have e : heard [w] = [w] := by
        unfold heard; rw [List.filter_cons_of_pos (by simpa using hwa)]; rfl
      rw [e]
      refine .copy fun s hs _ hf => ?_
      obtain ⟨t, rfl⟩ := fires_and hf
      exact hww.noSpace (hs.subset (by simp))
    | cons v ws =>
      have hv := hw v (by simp)
      have hl' : (v :: ws).getLast? ≠ some t!"and" := by
        rwa [List.getLast?_cons_cons] at hl
      have ih' := fun pre hp => ih (pre := pre) (by simp) (fun w h => hw w (List.mem_cons_of_mem _ h)) hl' hp
      have hn := heard_ne_nil hl' (by simp)
      by_cases hwa : w = t!"and"
      · subst hwa
        have hp' : pre.getLast? = some ' ' := by simpa using hp
        have e : heard (t!"and" :: v :: ws) = heard (v :: ws) := by
          unfold heard; rw [List.filter_cons_of_neg (by simp)]
        rw [e, join_cons (by simp)]
        have := Rewrites.change (R := (del t!"and ").den) (l := .chr (· = ' ')) (r := .chr isAlpha) (pre := pre)
          (u := t!"and ") (v := []) (w := 0) (t := join (v :: ws)) (y := join (heard (v :: ws))) (w' := 0)
          (by simp [Ctx.left, hp']) (by simp) (den_del.2 ⟨rfl, rfl, rfl⟩) (head_join hv) (ih' _ (Or.inl (by simpa using hp')))
        simpa using this
      · have e : heard (w :: v :: ws) = w :: heard (v :: ws) := by
          unfold heard; rw [List.filter_cons_of_pos (by simpa using hwa)]
        rw [e, join_cons (by simp), join_cons hn]
        exact keep_word hww hwa (ih' _ (Or.inl (by simp)))

/-! ### Names of numbers are accepted -/

theorem unit_writes : ∀ n < 10, 0 < n → Writes digitG (unitNames.getD (n - 1) []) n := by
  have key : ∀ n < 10, 0 < n →
      (digitG.outputs (unitNames.getD (n - 1) [])).any (fun o => decide (Digs o.1 n)) = true := by decide +kernel
  exact fun n h h' => writes_of_outputs (by decide) (key n h h')

theorem twoDigit_writes : ∀ n < 100, 10 ≤ n → Writes twoDigit (join (below100 n)) n := by
  have key : ∀ n < 100, 10 ≤ n →
      (twoDigit.outputs (join (below100 n))).any (fun o => decide (Digs o.1 n)) = true := by decide +kernel
  exact fun n h h' => writes_of_outputs (by decide) (key n h h')

theorem afterHundred_writes : ∀ n < 100, 0 < n → Writes afterHundred (' ' :: join (below100 n)) n := by
  have key : ∀ n < 100, 0 < n →
      (afterHundred.outputs (' ' :: join (below100 n))).any (fun o => decide (Digs o.1 n)) = true := by decide +kernel
  exact fun n h h' => writes_of_outputs (by decide) (key n h h')

theorem below100_ne (n : Nat) : below100 n ≠ [] := by
  unfold below100
  split
  · simp
  · split <;> simp

theorem below1000_ne (b : Bool) (n : Nat) : below1000 b n ≠ [] := by
  unfold below1000
  split
  · exact below100_ne n
  · simp

theorem hundreds_writes {n : Nat} (h : 100 ≤ n) (h' : n < 1000) : Writes hundreds (join (below1000 false n)) n := by
  obtain ⟨y1, t1, d1⟩ := unit_writes (n / 100) (by omega) (by omega)
  have key : ∃ x, join (below1000 false n) = unitNames.getD (n / 100 - 1) [] ++ ' ' :: (t!"hundred" ++ x) ∧
      Writes afterHundred x (n % 100) := by
    unfold below1000
    rw [if_neg (by omega)]
    by_cases h0 : n % 100 = 0
    · rw [if_pos h0, h0]
      exact ⟨[], rfl, t!"00", Turns.right (turns_insert _), digs_zeros.2.1⟩
    · rw [if_neg h0]
      refine ⟨_, ?_, afterHundred_writes (n % 100) (by omega) (by omega)⟩
      rw [if_neg (by simp), List.nil_append, join_append (by simp) (below100_ne _)]
      simp [join]
  obtain ⟨x, ex, y2, t2, d2⟩ := key
  have hl : y2.length = 2 := by
    obtain ⟨w, hw⟩ := t2
    obtain ⟨_, _, _, h3, _⟩ := afterHundred_reads hw
    exact h3
  refine ⟨y1 ++ y2, ?_, ?_⟩
  · rw [ex]
    exact (((t1.add (turns_del t!" ")).add (turns_del t!"hundred")).add t2).cast (by simp) (by simp)
  · have := d1.append d2
    rw [hl, show n / 100 * 10 ^ 2 + n % 100 = n by omega] at this
    exact this

theorem upTo999_writes {n : Nat} (h : 0 < n) (h' : n < 1000) : Writes upTo999 (join (below1000 false n)) n := by
  by_cases h1 : n < 100
  · rw [below1000, if_pos h1]
    by_cases h2 : n < 10
    · obtain ⟨y, t, d⟩ := unit_writes n h2 h
      refine ⟨y, Turns.left (Turns.left ?_), d⟩
      rw [below100, if_pos h2]; exact t
    · obtain ⟨y, t, d⟩ := twoDigit_writes n h1 (by omega)
      exact ⟨y, Turns.left (Turns.right t), d⟩
  · obtain ⟨y, t, d⟩ := hundreds_writes (by omega) h'
    exact ⟨y, Turns.right t, d⟩

theorem padded_writes {n : Nat} (h : 0 < n) (h' : n < 1000) : Writes padded (join (below1000 false n)) n := by
  by_cases h1 : n < 100
  · rw [below1000, if_pos h1]
    by_cases h2 : n < 10
    · obtain ⟨y, t, d⟩ := unit_writes n h2 h
      rw [below100, if_pos h2]
      exact ⟨t!"00" ++ y, Turns.right (((turns_insert _).add t).cast rfl rfl), by simpa using digs_zeros.2.1.append d⟩
    · obtain ⟨y, t, d⟩ := twoDigit_writes n h1 (by omega)
      exact ⟨t!"0" ++ y, Turns.left (Turns.right (((turns_insert _).add t).cast (by simp) rfl)),
        by simpa using digs_zeros.1.append d⟩
  · obtain ⟨y, t, d⟩ := hundreds_writes (by omega) h'
    exact ⟨y, Turns.left (Turns.left t), d⟩

/-- Words after the first scale word. -/
def after (ws : List Str) : Str := if ws = [] then [] else ' ' :: join ws

theorem lower_writes {names : List Str} (hs : Scales names) {n : Nat} (h : n < 1000 ^ (names.length + 1)) :
    Writes (lower names) (after (groups false names n)) n := by
  induction names generalizing n with
  | nil =>
    by_cases h0 : n = 0
    · subst h0
      exact ⟨t!"000", Turns.right (turns_insert _), digs_zeros.2.2⟩
    · obtain ⟨y, t, d⟩ := padded_writes (n := n) (by omega) (by simpa using h)
      refine ⟨y, ?_, d⟩
      rw [groups, if_neg h0, after, if_neg (below1000_ne _ _)]
      exact Turns.left (((turns_del t!" ").add t).cast rfl rfl)
  | cons name names ih =>
    simp only [List.length_cons] at h
    have hpos : 0 < 1000 ^ (names.length + 1) := Nat.pow_pos (by decide)
    obtain ⟨y2, t2, d2⟩ := ih hs.2 (Nat.mod_lt n hpos)
    have hl : y2.length = 3 * (names.length + 1) := by
      obtain ⟨w, hw⟩ := t2
      obtain ⟨_, _, _, h3, _⟩ := lower_reads hs.2 hw
      exact h3
    have hlen : (10 : Nat) ^ (3 * (names.length + 1)) = 1000 ^ (names.length + 1) := by
      rw [Nat.pow_mul]
    have hdm : n / 1000 ^ (names.length + 1) * 1000 ^ (names.length + 1) + n % 1000 ^ (names.length + 1) = n := by
      rw [Nat.mul_comm]; exact Nat.div_add_mod n _
    have hq : n / 1000 ^ (names.length + 1) < 1000 := by
      rw [Nat.div_lt_iff_lt_mul hpos]
      rw [Nat.pow_succ] at h; omega
    by_cases h0 : n / 1000 ^ (names.length + 1) = 0
    · refine ⟨t!"000" ++ y2, ?_, ?_⟩
      · rw [groups, if_pos h0, List.nil_append]
        exact ((Turns.right (turns_insert _)).add t2).cast rfl rfl
      · have := digs_zeros.2.2.append d2
        rw [h0] at hdm
        rwa [Nat.zero_mul, Nat.zero_add, show n % 1000 ^ (names.length + 1) = n by omega] at this
    · obtain ⟨y1, t1, d1⟩ := padded_writes (Nat.pos_of_ne_zero h0) hq
      refine ⟨y1 ++ y2, ?_, ?_⟩
      · rw [groups, if_neg h0]
        refine ((Turns.left ((turns_del t!" ").add ((t1.add (turns_del t!" ")).add (turns_del name)))).add t2).cast ?_ (by simp)
        unfold after
        have hb := below1000_ne false (n / 1000 ^ (names.length + 1))
        by_cases hg : groups false names (n % 1000 ^ (names.length + 1)) = []
        · rw [if_pos hg, hg, if_neg (by simp), List.append_nil, List.append_nil, join_append hb (by simp)]
          simp [join]
        · rw [if_neg hg, if_neg (by simp), join_append (by simp) hg, join_append hb (by simp)]
          simp [join]
      · have := d1.append d2
        rwa [hl, hlen, hdm] at this

theorem bigs_writes {names : List Str} (hs : Scales names) {n : Nat} (h0 : 0 < n) (h : n < 1000 ^ (names.length + 1)) :
    Writes (bigs names) (join (groups false names n)) n := by
  induction names generalizing n with
  | nil =>
    obtain ⟨y, t, d⟩ := upTo999_writes (n := n) h0 (by simpa using h)
    refine ⟨y, Turns.left (Turns.right ?_), d⟩
    rw [groups, if_neg (by omega)]; exact t
  | cons name names ih =>
    simp only [List.length_cons] at h
    have hpos : 0 < 1000 ^ (names.length + 1) := Nat.pow_pos (by decide)
    have hdm : n / 1000 ^ (names.length + 1) * 1000 ^ (names.length + 1) + n % 1000 ^ (names.length + 1) = n := by
      rw [Nat.mul_comm]; exact Nat.div_add_mod n _
    have hq : n / 1000 ^ (names.length + 1) < 1000 := by
      rw [Nat.div_lt_iff_lt_mul hpos]
      rw [Nat.pow_succ] at h; omega
    by_cases h1 : n / 1000 ^ (names.length + 1) = 0
    · have e : n % 1000 ^ (names.length + 1) = n := by rw [h1] at hdm; omega
      obtain ⟨y, t, d⟩ := ih hs.2 h0 (by rw [← e]; exact Nat.mod_lt n hpos)
      refine ⟨y, Turns.left ?_, d⟩
      rw [groups, if_pos h1, List.nil_append, e]; exact t
    · obtain ⟨y2, t2, d2⟩ := lower_writes hs.2 (Nat.mod_lt n hpos)
      have hl : y2.length = 3 * (names.length + 1) := by
        obtain ⟨w, hw⟩ := t2
        obtain ⟨_, _, _, h3, _⟩ := lower_reads hs.2 hw
        exact h3
      have hlen : (10 : Nat) ^ (3 * (names.length + 1)) = 1000 ^ (names.length + 1) := by
        rw [Nat.pow_mul]
      obtain ⟨y1, t1, d1⟩ := upTo999_writes (Nat.pos_of_ne_zero h1) hq
      refine ⟨y1 ++ y2, Turns.right ?_, ?_⟩
      · rw [groups, if_neg h1]
        refine (((t1.add (turns_del t!" ")).add (turns_del name)).add t2).cast ?_ (by simp)
        unfold after
        have hb := below1000_ne false (n / 1000 ^ (names.length + 1))
        by_cases hg : groups false names (n % 1000 ^ (names.length + 1)) = []
        · rw [if_pos hg, hg, List.append_nil, List.append_nil, join_append hb (by simp)]
          simp [join]
        · rw [if_neg hg, join_append (by simp) hg, join_append hb (by simp)]
          simp [join]
      · have := d1.append d2
        rwa [hl, hlen, hdm] at this

/-! ### The words of a name -/

theorem below100_words : ∀ n < 100, 0 < n → (∀ w ∈ below100 n, Word w) ∧ t!"and" ∉ below100 n := by decide +kernel

theorem unit_words : ∀ n < 10, 0 < n → Word (unitNames.getD (n - 1) []) ∧ unitNames.getD (n - 1) [] ≠ t!"and" := by
  decide +kernel

theorem below1000_words (b : Bool) {n : Nat} (h : 0 < n) (h' : n < 1000) :
    (∀ w ∈ below1000 b n, Word w) ∧ heard (below1000 b n) = below1000 false n ∧
      (below1000 b n).getLast? ≠ some t!"and" ∧ (below1000 b n).head? ≠ some t!"and" := by
  have hfil : ∀ {ws : List Str}, t!"and" ∉ ws → heard ws = ws := fun hn => by
    refine List.filter_eq_self.2 fun a ha => ?_
    simp only [ne_eq, decide_eq_true_eq]; rintro rfl; exact hn ha
  have hlast : ∀ {ws : List Str}, t!"and" ∉ ws → ws.getLast? ≠ some t!"and" := fun hn h => hn (List.mem_of_getLast? h)
  have hhead : ∀ {ws : List Str}, t!"and" ∉ ws → ws.head? ≠ some t!"and" := fun hn h => hn (List.mem_of_head? h)
  unfold below1000
  by_cases h1 : n < 100
  · simp only [if_pos h1]
    obtain ⟨a, c⟩ := below100_words n h1 h
    exact ⟨a, hfil c, hlast c, hhead c⟩
  · simp only [if_neg h1]
    obtain ⟨u1, u2⟩ := unit_words (n / 100) (by omega) (by omega)
    have hh : Word t!"hundred" := by decide
    by_cases h2 : n % 100 = 0
    · simp only [if_pos h2, List.append_nil]
      have c : t!"and" ∉ [unitNames.getD (n / 100 - 1) [], t!"hundred"] := by
        simp only [List.mem_cons, List.not_mem_nil, or_false, not_or]
        exact ⟨fun e => u2 e.symm, by decide⟩
      refine ⟨?_, hfil c, hlast c, hhead c⟩
      simp only [List.mem_cons, List.not_mem_nil, or_false]
      rintro w (rfl | rfl)
      · exact u1
      · exact hh
    · simp only [if_neg h2]
      obtain ⟨a, c⟩ := below100_words (n % 100) (by omega) (by omega)
      refine ⟨?_, ?_, ?_, ?_⟩
      · intro w hw
        rcases List.mem_append.1 hw with hw | hw
        · simp only [List.mem_cons, List.not_mem_nil, or_false] at hw
          rcases hw with rfl | rfl
          · exact u1
          · exact hh
        · rcases List.mem_append.1 hw with hw | hw
          · cases b with
            | true => simp only [if_true, List.mem_singleton] at hw; subst hw; decide
            | false => simp at hw
          · exact a w hw
      · unfold heard at hfil ⊢
        rw [List.filter_append, List.filter_append, hfil c, if_neg (by simp : ¬(false = true))]
        rw [List.filter_cons_of_pos (by simpa using u2), List.filter_cons_of_pos (by decide)]
        cases b <;> simp
      · have e : ∀ (p q : List Str), q ≠ [] → (p ++ q).getLast? = q.getLast? := fun p q hq => by
          rw [List.getLast?_append]
          cases hq' : q.getLast? with
          | none => exact absurd (List.getLast?_eq_none_iff.1 hq') hq
          | some => rfl
        rw [e _ _ (by simp [below100_ne]), e _ _ (below100_ne _)]
        exact hlast c
      · simpa using u2

theorem groups_words (b : Bool) {names : List Str} (hw : ∀ s ∈ names, Word s ∧ s ≠ t!"and") {n : Nat}
    (h : n < 1000 ^ (names.length + 1)) :
    (∀ w ∈ groups b names n, Word w) ∧ heard (groups b names n) = groups false names n ∧
      (groups b names n).getLast? ≠ some t!"and" ∧ (groups b names n).head? ≠ some t!"and" := by
  induction names generalizing n with
  | nil =>
    unfold groups
    by_cases h0 : n = 0
    · simp only [if_pos h0]; exact ⟨by simp, rfl, by simp, by simp⟩
    · simp only [if_neg h0]; exact below1000_words b (by omega) (by simpa using h)
  | cons name names ih =>
    simp only [List.length_cons] at h
    have hpos : 0 < 1000 ^ (names.length + 1) := Nat.pow_pos (by decide)
    have hq : n / 1000 ^ (names.length + 1) < 1000 := by
      rw [Nat.div_lt_iff_lt_mul hpos]
      rw [Nat.pow_succ] at h; omega
    obtain ⟨i1, i2, i3, i4⟩ := ih (fun s hs => hw s (List.mem_cons_of_mem _ hs)) (Nat.mod_lt n hpos)
    obtain ⟨n1, n2⟩ := hw name (by simp)
    unfold groups
    by_cases h0 : n / 1000 ^ (names.length + 1) = 0
    · simp only [if_pos h0, List.nil_append]; exact ⟨i1, i2, i3, i4⟩
    · simp only [if_neg h0]
      obtain ⟨b1, b2, b3, b4⟩ := below1000_words b (Nat.pos_of_ne_zero h0) hq
      refine ⟨?_, ?_, ?_, ?_⟩
      · intro w hw'
        simp only [List.mem_append, List.mem_singleton] at hw'
        rcases hw' with (hw' | rfl) | hw'
        · exact b1 w hw'
        · exact n1
        · exact i1 w hw'
      · unfold heard at b2 i2 ⊢
        rw [List.filter_append, List.filter_append, b2, i2, List.filter_cons_of_pos (by simpa using n2)]
        rfl
      · rw [List.getLast?_append]
        cases hg : (groups b names (n % 1000 ^ (names.length + 1))).getLast? with
        | none => simpa using n2
        | some a => rw [hg] at i3; simpa using i3
      · obtain ⟨a, l, e⟩ := List.exists_cons_of_ne_nil (below1000_ne b (n / 1000 ^ (names.length + 1)))
        rw [e] at b4 ⊢
        simpa using b4

theorem groups_ne {names : List Str} {n : Nat} (b : Bool) (h0 : 0 < n) : groups b names n ≠ [] := by
  induction names generalizing n with
  | nil => rw [groups, if_neg (by omega)]; exact below1000_ne b n
  | cons name names ih =>
    rw [groups]
    by_cases h : n / 1000 ^ (names.length + 1) = 0
    · rw [if_pos h, List.nil_append]
      refine ih ?_
      have := Nat.div_add_mod n (1000 ^ (names.length + 1))
      rw [h, Nat.mul_zero] at this; omega
    · rw [if_neg h]; simp

theorem vtext_join {ws : List Str} (h : ∀ w ∈ ws, Word w) : VText (join ws) := by
  have hw : ∀ w : Str, Word w → ∀ c ∈ w, vchar c = true := by
    intro w h c hc
    have := h.2 c hc
    simp only [vchar, bne_iff_ne, ne_eq]
    rintro rfl; exact absurd this (by decide)
  induction ws with
  | nil => intro c hc; cases hc
  | cons w ws ih =>
    cases ws with
    | nil => exact hw w (h w (by simp))
    | cons v ws =>
      intro c hc
      simp only [join, List.mem_append, List.mem_cons] at hc
      rcases hc with hc | rfl | hc
      · exact hw w (h w (by simp)) c hc
      · decide
      · exact ih (fun w hw => h w (List.mem_cons_of_mem _ hw)) c hc

/-- Digits that denote a number have their leading zeros removed. -/
theorem strip_turns {y : Str} {n : Nat} (h : Digs y n) (hne : y ≠ []) (h0 : 0 < n) : ∃ z, Turns stripZeros y z := by
  have hstar : ∀ {u : Str}, (∀ c ∈ u, c.isDigit = true) → (G.star DIGIT).den u u 0 := by
    intro u
    induction u with
    | nil => intro _; exact .nil
    | cons c u ih =>
      intro hu
      have := Star.cons (R := DIGIT.den) (x := [c]) (y := [c]) (w := 0) ⟨c, hu c (by simp), rfl, rfl, rfl⟩
        (ih fun d hd => hu d (List.mem_cons_of_mem _ hd))
      exact this
  have key : ∀ {y : Str}, Digs y n → ∃ z c u w, y = z ++ c :: u ∧ (G.star (.lit t!"0")).den z z w ∧
      c.isDigit = true ∧ c ≠ '0' ∧ ∀ d ∈ u, d.isDigit = true := by
    intro y
    induction y with
    | nil => intro h; have := h.2; simp [Nat.ofDigitChars] at this; omega
    | cons c y ih =>
      intro h
      by_cases hc : c = '0'
      · subst hc
        obtain ⟨z, c, u, w, rfl, h1, h2⟩ := ih ⟨fun d hd => h.1 d (List.mem_cons_of_mem _ hd), by
          have := h.2; simpa [Nat.ofDigitChars] using this⟩
        exact ⟨'0' :: z, c, u, 0 + w, rfl, Star.cons (R := (G.lit t!"0").den) ⟨rfl, rfl, rfl⟩ h1, h2⟩
      · exact ⟨[], c, y, 0, rfl, .nil, h.1 c (by simp), hc, fun d hd => h.1 d (List.mem_cons_of_mem _ hd)⟩
  obtain ⟨z, c, u, w, rfl, h1, h2, h3, h4⟩ := key h
  have t1 : Turns (delete (.star (.lit t!"0"))) z [] := ⟨w, den_delete.2 ⟨rfl, h1⟩⟩
  have t2 : Turns (G.cls fun c => isDigit c && c != '0') [c] [c] :=
    ⟨0, c, Bool.and_eq_true_iff.2 ⟨h2, by simpa using h3⟩, rfl, rfl, rfl⟩
  have t3 : Turns (G.star DIGIT) u u := ⟨0, hstar h4⟩
  exact ⟨_, Turns.left (((t1.add t2).add t3).cast (by simp) rfl)⟩

/-- The name of every number below 10²⁴ is turned into its digits. -/
theorem cardinal_accepts (b : Bool) {n : Nat} (h : n < 10 ^ 24) :
    Turns cardinal (english b n) (Nat.toDigits 10 n) := by
  unfold english numberWords
  by_cases h0 : n = 0
  · rw [if_pos h0, h0, show join [t!"zero"] = t!"zero" from rfl]
    refine Turns.comp (y := t!"zero") ⟨0, by decide, ?_⟩
      (Turns.comp (y := t!"0") ?_ (Turns.right (turns_lit _)))
    · refine .copy fun s hs _ hf => ?_
      obtain ⟨t, rfl⟩ := fires_and hf
      have : ' ' ∈ t!"zero" := hs.subset (by simp)
      exact absurd this (by decide)
    · exact Turns.left (Turns.left (Turns.left (Turns.left (Turns.left (Turns.left (Turns.left (Turns.left (Turns.left
        (turns_tab (by decide))))))))))
  · rw [if_neg h0]
    have hm : scaleNames.reverse = mags := rfl
    rw [hm]
    have hlt : n < 1000 ^ (mags.length + 1) := by
      have : (10 : Nat) ^ 24 = 1000 ^ (mags.length + 1) := by decide
      omega
    obtain ⟨g1, g2, g3, g4⟩ := groups_words b (names := mags) (by decide) hlt
    obtain ⟨y, t, d⟩ := bigs_writes scales_mags (n := n) (by omega) hlt
    have hy : y ≠ [] := by
      obtain ⟨w, hw⟩ := t
      obtain ⟨_, _, h3, _⟩ := bigs_reads scales_mags hw
      exact h3
    obtain ⟨z, tz⟩ := strip_turns d hy (by omega)
    have ez : z = Nat.toDigits 10 n := by
      obtain ⟨w, hw⟩ := tz
      exact stripZeros_digs d hw
    rw [← ez]
    refine Turns.comp ⟨0, vtext_join g1, deleteAnd_join (groups_ne b (by omega)) g1 g3 (Or.inr g4)⟩ ?_
    rw [g2]
    exact Turns.comp t tz

end Verif.EnItn
