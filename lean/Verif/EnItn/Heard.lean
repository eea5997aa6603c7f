import Verif.EnItn.TextSpec
import Verif.EnItn.Number
import Verif.EnItn.Ordinal
import Verif.EnItn.Tokens

/-
The rules of English ITN other than word, char and whitelist read only texts with a known word, or texts of number words.
-/

namespace Verif.EnItn

open Verif.Wfst Spec

/-! ### Words -/

theorem words_ne (x : Str) : words x ≠ [] := by
  have key : ∀ (x cur : Str), wordsFrom cur x ≠ [] := by
    intro x
    induction x with
    | nil => intro cur; simp [wordsFrom]
    | cons c x ih =>
      intro cur
      simp only [wordsFrom]
      split
      · simp
      · exact ih _
  exact key x []

theorem words_single {w : Str} (h : ' ' ∉ w) : words w = [w] := by
  simpa [words] using wordsFrom_nospace [] h

/-- A text is its last word, with something that ends with a space before. -/
theorem split_last (x : Str) : ∃ p l, x = p ++ l ∧ ' ' ∉ l ∧ (p = [] ∨ ∃ q, p = q ++ [' ']) := by
  induction x using List.reverseRecOn with
  | nil => exact ⟨[], [], rfl, by simp, .inl rfl⟩
  | append_singleton x c ih =>
    by_cases hc : c = ' '
    · subst hc
      exact ⟨x ++ [' '], [], by simp, by simp, .inr ⟨x, rfl⟩⟩
    · obtain ⟨p, l, rfl, h1, h2⟩ := ih
      refine ⟨p, l ++ [c], by simp, ?_, h2⟩
      simp only [List.mem_append, List.mem_singleton, not_or]
      exact ⟨h1, fun e => hc e.symm⟩

theorem lastWord_eq {p l : Str} (hl : ' ' ∉ l) (hp : p = [] ∨ ∃ q, p = q ++ [' ']) : lastWord (p ++ l) = l := by
  rcases hp with rfl | ⟨q, rfl⟩
  · simp [lastWord, words_single hl]
  · unfold lastWord
    rw [List.append_assoc, List.singleton_append, words_append_space, words_single hl]
    simp

theorem lastWord_append (x : Str) {s : Str} (hs : ' ' ∉ s) : lastWord (x ++ s) = lastWord x ++ s := by
  obtain ⟨p, l, rfl, hl, hp⟩ := split_last x
  rw [List.append_assoc, lastWord_eq (by simp [hl, hs]) hp, lastWord_eq hl hp]

theorem lastWord_mem (x : Str) : lastWord x ∈ words x := by
  unfold lastWord
  cases h : (words x).getLast? with
  | none => exact absurd (List.getLast?_eq_none_iff.1 h) (words_ne x)
  | some w => exact List.mem_of_getLast? h

/-! ### What is known about the words that a graph reads -/

/-- Several words in a row that are words of names of numbers, but no part of the name of a number. -/
def Jam (ws : List Str) : Prop := ∃ u, u <:+: ws ∧ (∀ w ∈ u, w ∈ numberNames) ∧ 2 ≤ (EnItn.heard u).length ∧
  ∀ st, run st (EnItn.heard u) = none

theorem heard_append (a b : List Str) : EnItn.heard (a ++ b) = EnItn.heard a ++ EnItn.heard b := List.filter_append ..

theorem Jam.left {a b : List Str} (h : Jam a) : Jam (a ++ b) := by
  obtain ⟨u, h1, h2⟩ := h
  exact ⟨u, h1.trans (List.prefix_append a b).isInfix, h2⟩

theorem Jam.right {a b : List Str} (h : Jam b) : Jam (a ++ b) := by
  obtain ⟨u, h1, h2⟩ := h
  exact ⟨u, h1.trans (List.suffix_append a b).isInfix, h2⟩

/-- There is a known word, or the words are no part of the name of a number. -/
def Bad (ws : List Str) : Prop := (∃ w ∈ ws, Known w) ∨ Jam ws

theorem Bad.left {a b : List Str} (h : Bad a) : Bad (a ++ b) := by
  rcases h with ⟨w, h1, h2⟩ | h
  · exact .inl ⟨w, by simp [h1], h2⟩
  · exact .inr h.left

theorem Bad.right {a b : List Str} (h : Bad b) : Bad (a ++ b) := by
  rcases h with ⟨w, h1, h2⟩ | h
  · exact .inl ⟨w, by simp [h1], h2⟩
  · exact .inr h.right

/-- What is known: nothing; bad words or number words only; bad words. -/
inductive Info where
  | any
  | heard
  | hard

/-- The number words, or the small ones only. -/
def nums (small : Bool) : List Str := if small then smallNames else numberNames

/-- The words are as known. -/
def Info.P (s : Bool) : Info → List Str → Prop
  | .any, _ => True
  | .heard, ws => Bad ws ∨ ∀ w ∈ ws, w ∈ nums s
  | .hard, ws => Bad ws

/-- Of two texts, one after the other. -/
def Info.cat : Info → Info → Info
  | .hard, _ => .hard
  | _, .hard => .hard
  | .heard, .heard => .heard
  | _, _ => .any

/-- Of one of two texts. -/
def Info.meet : Info → Info → Info
  | .any, _ => .any
  | _, .any => .any
  | .heard, _ => .heard
  | _, .heard => .heard
  | .hard, .hard => .hard

/-- Of nothing or a text. -/
def Info.opt : Info → Info
  | .any => .any
  | _ => .heard

theorem Info.P.cat {s : Bool} {i j : Info} {a b : List Str} (ha : i.P s a) (hb : j.P s b) : (i.cat j).P s (a ++ b) := by
  have hl : Bad a → Bad (a ++ b) := Bad.left
  have hr : Bad b → Bad (a ++ b) := Bad.right
  cases i <;> cases j <;> simp only [Info.cat, Info.P] at ha hb ⊢
  · exact hr hb
  · rcases ha with ha | ha
    · exact .inl (hl ha)
    · rcases hb with hb | hb
      · exact .inl (hr hb)
      · right
        intro w hw
        rcases List.mem_append.1 hw with hw | hw
        · exact ha w hw
        · exact hb w hw
  · exact hr hb
  · exact hl ha
  · exact hl ha
  · exact hl ha

theorem Info.P.left {s : Bool} {i j : Info} {a : List Str} (ha : i.P s a) : (i.meet j).P s a := by
  cases i <;> cases j <;> simp only [Info.meet, Info.P] at ha ⊢
  · exact ha
  · exact ha
  · exact .inl ha
  · exact ha

theorem Info.P.right {s : Bool} {i j : Info} {a : List Str} (ha : j.P s a) : (i.meet j).P s a := by
  cases i <;> cases j <;> simp only [Info.meet, Info.P] at ha ⊢
  · exact ha
  · exact .inl ha
  · exact ha
  · exact ha

theorem Info.P.opt {s : Bool} {i : Info} {a : List Str} (ha : i.P s a) : i.opt.P s a := by
  cases i <;> simp only [Info.opt, Info.P] at ha ⊢
  · exact ha
  · exact .inl ha

theorem Info.P.nil (s : Bool) (i : Info) : i.opt.P s [] := by
  cases i <;> simp [Info.opt, Info.P]

/-- The words of the texts that `g` reads. -/
class Core (s : Bool) (i : outParam Info) (g : G) : Prop where
  reads : ∀ x y w, g.den x y w → i.P s (words x)

/-- `g` reads nothing, or a space and words. -/
class Lead (s : Bool) (i : outParam Info) (g : G) : Prop where
  reads : ∀ x y w, g.den x y w → Sep x ∧ i.P s (more x)

/-- `g` reads nothing, or words and a space. -/
class Trail (s : Bool) (i : outParam Info) (g : G) : Prop where
  reads : ∀ x y w, g.den x y w → (x = [] ∧ i.P s []) ∨ ∃ u, x = u ++ [' '] ∧ i.P s (words u)

/-- `g` reads a space. -/
class Sp (g : G) : Prop where
  reads : ∀ x y w, g.den x y w → x = [' ']

variable {s : Bool} {i j : Info} {a b : G}

theorem core_any : Core s .any a := ⟨fun _ _ _ _ => trivial⟩

instance : Sp ds := ⟨fun _ _ _ h => (den_ds.1 h).1⟩
instance {v : Str} [h : Sp a] : Sp (a + Wfst.insert v) := ⟨fun x y w hd => by
  obtain ⟨y', rfl, hd'⟩ := den_add_insert.1 hd
  exact h.reads _ _ _ hd'⟩
instance [h : Sp a] : Sp (a + isp) := inferInstanceAs (Sp (a + Wfst.insert t!" "))

instance [h : Core s i a] [h' : Sp b] : Trail s i (a + b) := ⟨by
  rintro x y w ⟨x1, y1, w1, x2, y2, w2, h1, h2, rfl, rfl, rfl⟩
  rw [h'.reads _ _ _ h2]
  exact .inr ⟨x1, rfl, h.reads _ _ _ h1⟩⟩

instance {v : Str} [h : Trail s i a] : Trail s i (a + Wfst.insert v) := ⟨fun x y w hd => by
  obtain ⟨y', rfl, hd'⟩ := den_add_insert.1 hd
  exact h.reads _ _ _ hd'⟩
instance [h : Trail s i a] : Trail s i (a + isp) := inferInstanceAs (Trail s i (a + Wfst.insert t!" "))

instance [h : Trail s i a] [h' : Trail s j b] : Trail s (i.cat j) (a + b) := ⟨by
  rintro x y w ⟨x1, y1, w1, x2, y2, w2, h1, h2, rfl, rfl, rfl⟩
  rcases h.reads _ _ _ h1 with ⟨rfl, hn⟩ | ⟨u, rfl, hu⟩
  · rcases h'.reads _ _ _ h2 with ⟨rfl, hn'⟩ | ⟨v, rfl, hv⟩
    · exact .inl ⟨rfl, hn.cat hn'⟩
    · exact .inr ⟨v, rfl, hn.cat hv⟩
  · rcases h'.reads _ _ _ h2 with ⟨rfl, hn'⟩ | ⟨v, rfl, hv⟩
    · exact .inr ⟨u, by simp, by simpa using hu.cat hn'⟩
    · refine .inr ⟨u ++ ' ' :: v, by simp, ?_⟩
      rw [words_append_space]
      exact hu.cat hv⟩

instance [h : Trail s i a] [h' : Core s j b] : Core s (i.cat j) (a + b) := ⟨by
  rintro x y w ⟨x1, y1, w1, x2, y2, w2, h1, h2, rfl, rfl, rfl⟩
  have hb := h'.reads _ _ _ h2
  rcases h.reads _ _ _ h1 with ⟨rfl, hn⟩ | ⟨u, rfl, hu⟩
  · exact hn.cat hb
  · rw [List.append_assoc, List.singleton_append, words_append_space]
    exact hu.cat hb⟩

instance [h : Core s i a] [h' : Lead s j b] : Core s (i.cat j) (a + b) := ⟨by
  rintro x y w ⟨x1, y1, w1, x2, y2, w2, h1, h2, rfl, rfl, rfl⟩
  obtain ⟨h3, h4⟩ := h'.reads _ _ _ h2
  rw [words_append h3]
  exact (h.reads _ _ _ h1).cat h4⟩

instance [h : Sp a] [h' : Core s j b] : Lead s j (a + b) := ⟨by
  rintro x y w ⟨x1, y1, w1, x2, y2, w2, h1, h2, rfl, rfl, rfl⟩
  rw [h.reads _ _ _ h1]
  exact ⟨.inr ⟨_, rfl⟩, by rw [List.singleton_append, more_space]; exact h'.reads _ _ _ h2⟩⟩

instance [h : Lead s i a] [h' : Lead s j b] : Lead s (i.cat j) (a + b) := ⟨by
  rintro x y w ⟨x1, y1, w1, x2, y2, w2, h1, h2, rfl, rfl, rfl⟩
  obtain ⟨h3, h4⟩ := h.reads _ _ _ h1
  obtain ⟨h5, h6⟩ := h'.reads _ _ _ h2
  exact ⟨h3.append h5, by rw [more_append h3 h5]; exact h4.cat h6⟩⟩

instance {v : Str} [h : Core s i a] : Core s i (a + Wfst.insert v) := ⟨fun x y w hd => by
  obtain ⟨y', rfl, hd'⟩ := den_add_insert.1 hd
  exact h.reads _ _ _ hd'⟩
instance {v : Str} [h : Core s i a] : Core s i (Wfst.insert v + a) := ⟨fun x y w hd => by
  obtain ⟨y', rfl, hd'⟩ := den_insert_add.1 hd
  exact h.reads _ _ _ hd'⟩
instance {v : Str} : Lead s .heard (Wfst.insert v) := ⟨fun x y w hd => by
  obtain ⟨rfl, -, -⟩ := den_insert.1 hd
  exact ⟨.inl rfl, Info.P.nil s .heard⟩⟩

instance [h : Core s i a] [h' : Core s j b] : Core s (i.meet j) (a ||| b) := ⟨by
  rintro x y w (hd | hd)
  · exact (h.reads _ _ _ hd).left
  · exact (h'.reads _ _ _ hd).right⟩
instance [h : Lead s i a] [h' : Lead s j b] : Lead s (i.meet j) (a ||| b) := ⟨by
  rintro x y w (hd | hd)
  · exact ⟨(h.reads _ _ _ hd).1, (h.reads _ _ _ hd).2.left⟩
  · exact ⟨(h'.reads _ _ _ hd).1, (h'.reads _ _ _ hd).2.right⟩⟩

instance [h : Lead s i a] : Lead s i.opt a.ques := ⟨by
  rintro x y w (⟨rfl, -, -⟩ | hd)
  · exact ⟨.inl rfl, Info.P.nil s i⟩
  · exact ⟨(h.reads _ _ _ hd).1, (h.reads _ _ _ hd).2.opt⟩⟩
instance [h : Trail s i a] : Trail s i.opt a.ques := ⟨by
  rintro x y w (⟨rfl, -, -⟩ | hd)
  · exact .inl ⟨rfl, Info.P.nil s i⟩
  · rcases h.reads _ _ _ hd with ⟨rfl, -⟩ | ⟨u, rfl, hu⟩
    · exact .inl ⟨rfl, Info.P.nil s i⟩
    · exact .inr ⟨u, rfl, hu.opt⟩⟩

theorem Info.opt_cat {s : Bool} {i : Info} {a b : List Str} (ha : i.P s a) (hb : i.opt.P s b) : i.opt.P s (a ++ b) := by
  have := ha.opt.cat hb
  cases i <;> exact this

theorem Info.cat_opt {s : Bool} {i : Info} {a b : List Str} (ha : i.P s a) (hb : i.opt.P s b) : i.P s (a ++ b) := by
  have := ha.cat hb
  cases i <;> exact this

theorem lead_star [h : Lead s i a] {x y : Str} {w : W} (hd : Star a.den x y w) : Sep x ∧ i.opt.P s (more x) := by
  induction hd with
  | nil => exact ⟨.inl rfl, Info.P.nil s i⟩
  | cons h1 _ ih =>
    obtain ⟨h3, h4⟩ := h.reads _ _ _ h1
    exact ⟨h3.append ih.1, by rw [more_append h3 ih.1]; exact Info.opt_cat h4 ih.2⟩

instance [h : Lead s i a] : Lead s i.opt (.star a) := ⟨fun _ _ _ hd => lead_star hd⟩

instance [h : Lead s i a] : Lead s i a.plus := ⟨by
  rintro x y w ⟨x1, y1, w1, x2, y2, w2, h1, h2, rfl, rfl, rfl⟩
  obtain ⟨h3, h4⟩ := h.reads _ _ _ h1
  obtain ⟨h5, h6⟩ := lead_star (h := h) h2
  exact ⟨h3.append h5, by rw [more_append h3 h5]; exact Info.cat_opt h4 h6⟩⟩

instance [h : Lead s i a] {n : Nat} : Lead s i.opt (a.upTo n) := by
  induction n with
  | zero => exact ⟨by rintro x y w ⟨rfl, -, -⟩; exact ⟨.inl rfl, Info.P.nil s i⟩⟩
  | succ n ih =>
    refine ⟨?_⟩
    rintro x y w (⟨rfl, -, -⟩ | ⟨x1, y1, w1, x2, y2, w2, h1, h2, rfl, rfl, rfl⟩)
    · exact ⟨.inl rfl, Info.P.nil s i⟩
    · obtain ⟨h3, h4⟩ := h.reads _ _ _ h1
      obtain ⟨h5, h6⟩ := ih.reads _ _ _ h2
      exact ⟨h3.append h5, by rw [more_append h3 h5]; exact Info.opt_cat h4 h6⟩

instance [h : Lead s i a] {n : Nat} : Lead s i (a.pow (n + 1)) := by
  induction n with
  | zero => exact ⟨by
      rintro x y w ⟨x1, y1, w1, x2, y2, w2, h1, ⟨rfl, -, -⟩, rfl, rfl, rfl⟩
      rw [List.append_nil]
      exact h.reads _ _ _ h1⟩
  | succ n ih =>
    refine ⟨?_⟩
    rintro x y w ⟨x1, y1, w1, x2, y2, w2, h1, h2, rfl, rfl, rfl⟩
    obtain ⟨h3, h4⟩ := h.reads _ _ _ h1
    obtain ⟨h5, h6⟩ := ih.reads _ _ _ h2
    exact ⟨h3.append h5, by rw [more_append h3 h5]; exact Info.cat_opt h4 h6.opt⟩

instance [h : Core s i a] {k : W} : Core s i (.wt a k) := ⟨by
  rintro x y w ⟨w0, hd, -⟩
  exact h.reads _ _ _ hd⟩
instance [h : Lead s i a] {k : W} : Lead s i (.wt a k) := ⟨by
  rintro x y w ⟨w0, hd, -⟩
  exact h.reads _ _ _ hd⟩
instance [h : Core s i a] : Core s i (.comp a b) := ⟨by
  rintro x y w ⟨m, w1, w2, hd, -, -⟩
  exact h.reads _ _ _ hd⟩
instance [h : Core s i a] {n : Str} : Core s i (tagField n a) := ⟨fun x y w hd => by
  obtain ⟨-, -, z, hd'⟩ := den_tagField.1 hd
  exact h.reads _ _ _ hd'⟩
instance [h : Core s i a] {n : Str} : Core s i (addTokens n a) := ⟨fun x y w hd => by
  obtain ⟨m, -, hd'⟩ := den_addTokens.1 hd
  exact h.reads _ _ _ hd'⟩

/-! ### Words and tables -/

theorem known_key {w : Str} (h : w ∈ keyWords) : Known w := .inr (.inl h)
theorem known_unit {e : Str × Str} {w : Str} (h : e ∈ measurements ++ currency) (hw : w ∈ plurals (lastWord e.2)) :
    Known w := .inr (.inr (.inr (.inr (.inr (.inr (.inr ⟨e, h, hw⟩))))))

theorem letter_iff {c : Char} : isAlpha c = true ↔ Letter c := by
  simp [isAlpha, isLower, isUpper, Letter]

instance letter_dec (w : Str) : Decidable (∃ c, w = [c] ∧ Letter c) :=
  match w with
  | [c] => if h : Letter c then isTrue ⟨c, rfl, h⟩ else isFalse fun ⟨_, e, h'⟩ => h (by cases e; exact h')
  | [] => isFalse fun ⟨_, e, _⟩ => by cases e
  | _ :: _ :: _ => isFalse fun ⟨_, e, _⟩ => by cases e

/-- A single letter or a key word. -/
def easy (w : Str) : Bool := decide (w ∈ keyWords) || decide (∃ c, w = [c] ∧ Letter c)

theorem easy_known {w : Str} (h : easy w = true) : Known w := by
  simp only [easy, Bool.or_eq_true, decide_eq_true_eq] at h
  exact h.elim known_key .inl

theorem bad_easy {u : Str} (h : (words u).any easy = true) : Bad (words u) := by
  obtain ⟨w, h1, h2⟩ := List.any_eq_true.1 h
  exact .inl ⟨w, h1, easy_known h2⟩

theorem bad_last {x : Str} (h : Known (lastWord x)) : Bad (words x) := .inl ⟨_, lastWord_mem x, h⟩

theorem core_crossS {u v : Str} (h : (words u).any easy = true) : Core s .hard (crossS u v) := ⟨fun x y w hd => by
  obtain ⟨rfl, -, -⟩ := den_crossS.1 hd
  exact bad_easy h⟩
theorem core_del {u : Str} (h : (words u).any easy = true) : Core s .hard (del u) := ⟨fun x y w hd => by
  obtain ⟨rfl, -, -⟩ := den_del.1 hd
  exact bad_easy h⟩
theorem core_tab {t : List (Str × Str)} {i : Info} (h : ∀ e ∈ t, i.P s (words e.1)) : Core s i (.tab t) := ⟨by
  rintro x y w ⟨h1, -⟩
  exact h _ h1⟩
theorem core_names {t : List (Str × Str)} (h : ∀ e ∈ t, words e.1 = [e.1] ∧ e.1 ∈ smallNames) : Core s .heard (.tab t) :=
  core_tab fun e he => .inr fun w hw => by
    obtain ⟨h1, h2⟩ := h e he
    rw [h1] at hw
    rw [List.mem_singleton.1 hw]
    cases s
    · exact List.mem_append_left _ (List.mem_append_left _ h2)
    · exact h2

instance : Core s .heard digitG := core_names (by decide +kernel)
instance : Core s .heard teenG := core_names (by decide +kernel)
instance : Core s .heard tiesG := core_names (by decide +kernel)
instance : Core s .heard zeroG := core_names (by decide +kernel)

instance : Core s .hard (crossS t!"o" t!"0") := core_crossS (by decide +kernel)
instance : Core s .hard (crossS t!"oh" t!"0") := core_crossS (by decide +kernel)
instance : Core s .hard (del t!"o") := core_del (by decide +kernel)
instance : Core s .hard (del t!"point") := core_del (by decide +kernel)
instance : Core s .hard (del t!"quarter") := core_del (by decide +kernel)
instance : Core s .hard (del t!"half") := core_del (by decide +kernel)
instance : Core s .hard (del t!"past") := core_del (by decide +kernel)
instance : Core s .hard (crossS t!"hundreds" t!"00s") := core_crossS (by decide +kernel)
instance : Core s .hard (crossS t!"thousands" t!"000s") := core_crossS (by decide +kernel)
instance : Core s .hard minus := core_crossS (by decide +kernel)
instance : Core s .hard (crossS t!"minus" t!"-") := core_crossS (by decide +kernel)
instance : Core s .hard (crossS t!"negative" t!"-") := core_crossS (by decide +kernel)
instance : Core s .hard (crossS t!"quarter" t!"45") := core_crossS (by decide +kernel)
instance : Core s .hard dotG := core_crossS (by decide +kernel)
instance : Core s .hard (crossS t!"o'clock" t!"") := core_crossS (by decide +kernel)
instance : Core s .hard (crossS t!"o' clock" t!"") := core_crossS (by decide +kernel)
instance : Core s .hard (crossS t!"o clock" t!"") := core_crossS (by decide +kernel)
instance : Core s .hard (crossS t!"oclock" t!"") := core_crossS (by decide +kernel)
instance : Core s .hard (crossS t!"hundred hours" t!"") := core_crossS (by decide +kernel)
instance : Core s .hard (crossS t!"cent" t!"") := core_crossS (by decide +kernel)
instance : Core s .hard (crossS t!"cents" t!"") := core_crossS (by decide +kernel)

theorem core_number {u : Str} (h : words u = [u] ∧ u ∈ numberNames) : Core false .heard (del u) := ⟨fun x y w hd => by
  obtain ⟨rfl, -, -⟩ := den_del.1 hd
  refine .inr fun w hw => ?_
  rw [h.1] at hw
  rw [List.mem_singleton.1 hw]
  exact h.2⟩
instance : Core false .heard (del t!"hundred") := core_number (by decide +kernel)
instance : Core false .heard (del t!"thousand") := core_number (by decide +kernel)

instance : Core s .heard twoDigit := by unfold twoDigit; exact inferInstance
instance : Core s .heard upTo99 := by unfold upTo99; exact inferInstance
instance : Lead s .heard afterHundred := by unfold afterHundred; exact inferInstance
instance : Core false .heard hundreds := by unfold hundreds; exact inferInstance
instance : Core false .heard upTo999 := by unfold upTo999; exact inferInstance
instance : Core s .hard negative := by unfold negative; exact inferInstance
instance : Core s .heard fracDigit := by unfold fracDigit; exact inferInstance
instance : Core s .any fracG := core_any
instance : Core s .hard fractional := by unfold fractional; exact inferInstance
instance : Core s .hard fracPart := by unfold fracPart; exact inferInstance
instance : Trail s .heard optNegative := by unfold optNegative; exact inferInstance

/-! ### Number words are not known -/

theorem units_numbers : ∀ e ∈ measurements ++ currency, ∀ w ∈ plurals (lastWord e.2), w ∉ numberNames := by decide +kernel

theorem number_unknown {w : Str} (h : w ∈ numberNames) : ¬ Known w := by
  have h1 : ∀ w ∈ numberNames, ¬ (∃ c, w = [c] ∧ Letter c) ∧ w ∉ keyWords ∧ w ∉ ordinals ∧ w ∉ decades ∧
      (∀ e ∈ months, w ≠ e.1) ∧ (∀ e ∈ timeSuffix, w ≠ lastWord e.1) ∧ (∀ e ∈ thousands, w ≠ e.1 ∨ w ∈ scaleNames) := by
    decide +kernel
  obtain ⟨a1, a2, a3, a4, a5, a6, a7⟩ := h1 w h
  rintro (k | k | k | k | ⟨e, k, rfl⟩ | ⟨e, k, rfl⟩ | ⟨e, k, rfl, k'⟩ | ⟨e, k, k'⟩)
  · exact a1 k
  · exact a2 k
  · exact a3 k
  · exact a4 k
  · exact a5 e k rfl
  · exact a6 e k rfl
  · exact (a7 e k).elim (fun h => h rfl) k'
  · exact units_numbers e k w k' h

/-! ### Small words before words for tens -/

theorem small_table : ∀ a ∈ smallNames, a = t!"zero" ∨ (∃ d < 10, 0 < d ∧ unit a = some d) ∨
    (unit a = none ∧ ∃ d < 100, 10 ≤ d ∧ tens a = some d) := by decide +kernel

/-- After a small word two places are not free. -/
theorem small_cur {st st' : St} {a : Str} (ha : a ∈ smallNames) (h : step st a = some st') : st'.cur % 100 ≠ 0 := by
  rcases small_table a ha with rfl | ⟨d, h1, h2, h3⟩ | ⟨h1, d, h2, h3, h4⟩
  · have e1 : unit t!"zero" = none := by decide +kernel
    have e2 : tens t!"zero" = none := by decide +kernel
    have e3 : scale t!"zero" = none := by decide +kernel
    simp only [step, e1, e2, e3] at h
    rw [if_neg (by decide)] at h
    cases h
  · simp only [step, h3] at h
    split at h
    · cases h; simp only; omega
    · cases h
  · simp only [step, h1, h4] at h
    split at h
    · cases h; simp only; omega
    · cases h

theorem tens_step {st : St} {t : Str} (h1 : unit t = none) (h2 : (tens t).isSome) (h : st.cur % 100 ≠ 0) : step st t = none := by
  obtain ⟨d, hd⟩ := Option.isSome_iff_exists.1 h2
  simp only [step, h1, hd]
  rw [if_neg h]

theorem small_heard {a : Str} (ha : a ∈ smallNames) : a ≠ t!"and" := by
  rintro rfl
  revert ha
  decide +kernel

theorem tens_heard {t : Str} (h : (tens t).isSome) : t ≠ t!"and" := by
  rintro rfl
  revert h
  decide +kernel

theorem heard_cons {a : Str} {l : List Str} (h : a ≠ t!"and") : EnItn.heard (a :: l) = a :: EnItn.heard l := by
  unfold EnItn.heard
  rw [List.filter_cons_of_pos (by simpa using h)]

theorem small_number {a : Str} (ha : a ∈ smallNames) : a ∈ numberNames :=
  List.mem_append_left _ (List.mem_append_left _ ha)

theorem lookup_mem {n k d : Nat} {w : Str} {l : List Str} (h : Spec.lookup n k w l = some d) : w ∈ l := by
  induction l generalizing n with
  | nil => cases h
  | cons v l ih =>
    simp only [Spec.lookup] at h
    split at h
    · rename_i e; simp [e]
    · simp [ih h]

theorem tens_number {t : Str} (h : (tens t).isSome) : t ∈ numberNames := by
  refine small_number ?_
  unfold tens at h
  split at h
  · rename_i e; rw [e]; decide +kernel
  · cases h1 : Spec.lookup 10 1 t teenNames with
    | some d => exact List.mem_append_left _ (List.mem_append_right _ (lookup_mem h1))
    | none =>
      rw [h1, Option.none_or] at h
      obtain ⟨d, h2⟩ := Option.isSome_iff_exists.1 h
      exact List.mem_append_right _ (List.mem_cons_of_mem _ (lookup_mem h2))

theorem jam_tens {a t : Str} (ha : a ∈ smallNames) (h1 : unit t = none) (h2 : (tens t).isSome) : Jam [a, t] := by
  have e : EnItn.heard [a, t] = [a, t] := by
    rw [heard_cons (small_heard ha), heard_cons (tens_heard h2)]; rfl
  refine ⟨[a, t], List.infix_refl _, ?_, by rw [e]; simp, fun st => ?_⟩
  · intro w hw
    rcases List.mem_cons.1 hw with rfl | hw
    · exact small_number ha
    · rw [List.mem_singleton.1 hw]; exact tens_number h2
  rw [e]
  simp only [run]
  cases hs : step st a with
  | none => rfl
  | some st' => simp only [tens_step h1 h2 (small_cur ha hs)]

theorem zero_step (st : St) : step st t!"zero" = none := by
  have e1 : unit t!"zero" = none := by decide +kernel
  have e2 : tens t!"zero" = none := by decide +kernel
  have e3 : scale t!"zero" = none := by decide +kernel
  simp only [step, e1, e2, e3]
  rw [if_neg (by decide)]

/-- After a unit there is no place for a small word. -/
theorem small_full {st : St} {a : Str} (ha : a ∈ smallNames) (h : st.cur % 10 ≠ 0) : step st a = none := by
  rcases small_table a ha with rfl | ⟨d, h1, h2, h3⟩ | ⟨h1, d, h2, h3, h4⟩
  · exact zero_step st
  · simp only [step, h3]
    rw [if_neg (fun e => h e.1)]
  · exact tens_step h1 (by rw [h4]; rfl) (by omega)

/-- A second small word is a unit. -/
theorem small_second {st st' : St} {a : Str} (ha : a ∈ smallNames) (h : st.cur % 100 ≠ 0) (hs : step st a = some st') :
    st'.cur % 10 ≠ 0 := by
  rcases small_table a ha with rfl | ⟨d, h1, h2, h3⟩ | ⟨h1, d, h2, h3, h4⟩
  · rw [zero_step] at hs; cases hs
  · simp only [step, h3] at hs
    split at hs
    · cases hs; simp only; omega
    · cases hs
  · rw [tens_step h1 (by rw [h4]; rfl) h] at hs; cases hs

/-- Three small words in a row are no part of the name of a number. -/
theorem jam_three {a b c : Str} (ha : a ∈ smallNames) (hb : b ∈ smallNames) (hc : c ∈ smallNames) : Jam [a, b, c] := by
  have e : EnItn.heard [a, b, c] = [a, b, c] := by
    rw [heard_cons (small_heard ha), heard_cons (small_heard hb), heard_cons (small_heard hc)]; rfl
  refine ⟨[a, b, c], List.infix_refl _, ?_, by rw [e]; simp, fun st => ?_⟩
  · intro w hw
    simp only [List.mem_cons, List.not_mem_nil, or_false] at hw
    rcases hw with rfl | rfl | rfl
    · exact small_number ha
    · exact small_number hb
    · exact small_number hc
  rw [e]
  simp only [run]
  cases h1 : step st a with
  | none => rfl
  | some st1 =>
    simp only
    cases h2 : step st1 b with
    | none => rfl
    | some st2 => simp only [small_full hc (small_second hb (small_cur ha h1) h2)]

/-! ### cardinal.py and decimal.py -/

theorem numWords_names {w : Str} (h : w ∈ numWords ∨ w = t!"and") : w ∈ numberNames := by
  have : ∀ w ∈ numWords, w ∈ numberNames := by decide +kernel
  rcases h with h | rfl
  · exact this w h
  · decide +kernel

theorem step_names {st st' : St} {w : Str} (h : step st w = some st') : w ∈ numberNames := by
  have hl : ∀ (vs : List Str) (n k m : Nat), lookup n k w vs = some m → w ∈ vs := by
    intro vs
    induction vs with
    | nil => intro n k m h; cases h
    | cons v vs ih =>
      intro n k m h
      simp only [lookup] at h
      split at h
      · rename_i e; simp [e]
      · exact List.mem_cons_of_mem _ (ih _ _ _ h)
  unfold step at h
  cases hu : unit w with
  | some d => exact numWords_names (.inl (by simp [numWords, hl _ _ _ _ hu]))
  | none =>
    cases ht : tens w with
    | some d =>
      unfold tens at ht
      split at ht
      · rename_i e; rw [e]; decide +kernel
      · cases h1 : lookup 10 1 w teenNames with
        | some m => exact numWords_names (.inl (by simp [numWords, hl _ _ _ _ h1]))
        | none =>
          rw [h1, Option.none_or] at ht
          exact numWords_names (.inl (by simp [numWords, hl _ _ _ _ ht]))
    | none =>
      rw [hu, ht] at h
      simp only at h
      split at h
      · rename_i e; rw [e]; decide +kernel
      · cases hs : scale w with
        | none => rw [hs] at h; cases h
        | some m =>
          unfold scale at hs
          cases h1 : lookup 1 1 w scaleNames with
          | none => rw [h1] at hs; cases hs
          | some m => exact numWords_names (.inl (by simp [numWords, hl _ _ _ _ h1]))

theorem run_names {st st' : St} {ws : List Str} (h : run st ws = some st') : ∀ w ∈ ws, w ∈ numberNames := by
  induction ws generalizing st with
  | nil => simp
  | cons v ws ih =>
    simp only [run] at h
    cases hs : step st v with
    | none => rw [hs] at h; cases h
    | some st1 =>
      rw [hs] at h
      intro w hw
      rcases List.mem_cons.1 hw with rfl | hw
      · exact step_names hs
      · exact ih h w hw

/-- The words of a phrase that names a number are number words. -/
theorem value_names {x : Str} {n : Nat} (h : value x = some n) : ∀ w ∈ words x, w ∈ numberNames := by
  intro w hw
  by_cases ha : w = t!"and"
  · exact numWords_names (.inr ha)
  · have hm : w ∈ (words x).filter (· ≠ t!"and") := List.mem_filter.2 ⟨hw, by simpa using ha⟩
    simp only [value] at h
    split at h
    · rename_i e
      rw [e] at hm
      rw [List.mem_singleton.1 hm]
      decide +kernel
    · cases hr : run ⟨0, 0⟩ ((words x).filter (· ≠ t!"and")) with
      | none => rw [hr] at h; cases h
      | some st => exact run_names hr w hm

instance : Core false .heard cardinal := ⟨fun x y w hd => by
  obtain ⟨n, hn, -⟩ := cardinal_value hd
  exact .inr (value_names hn)⟩

/-- Integers are cardinals other than the words zero to twelve. -/
theorem integer_cardinal {x y : Str} {w : W} (h : integer.den x y w) :
    cardinal.den x y w ∧ x ∉ t!"zero" :: ones.tail.take 12 := by
  obtain ⟨m, w1, w2, ⟨rfl, h3, h4⟩, h5, rfl⟩ := h
  refine ⟨?_, fun hx => h4 ?_⟩
  · obtain ⟨-, rfl, -⟩ := den_VSIGMA.1 h3
    rw [Int.zero_add]
    exact h5
  · have key : ∀ x ∈ t!"zero" :: ones.tail.take 12, (exception.outputs x) ≠ [] := by decide +kernel
    obtain ⟨⟨y, w⟩, l, hl⟩ := List.exists_cons_of_ne_nil (key m hx)
    exact ⟨y, w, (mem_outputs (g := exception) (by decide +kernel)).1 (by rw [hl]; simp)⟩

instance : Core false .heard integer := ⟨fun x y w hd => by
  exact Core.reads _ _ _ (integer_cardinal hd).1⟩

instance : Core false .heard cardinalRule.tagger := by unfold cardinalRule; exact inferInstance

instance : Core s .any integerPart := core_any
instance : Core s .any quantityAll := core_any
instance : Core false .heard quantityNoThousand := core_tab fun e he => by
  have key : ∀ e ∈ thousands, words e.1 = [e.1] := by decide +kernel
  simp only [List.mem_map, List.mem_filter] at he
  obtain ⟨e', ⟨h1, -⟩, rfl⟩ := he
  simp only
  rw [key _ h1]
  by_cases hs : e'.1 ∈ scaleNames
  · right
    intro w hw
    rw [List.mem_singleton.1 hw]
    exact numWords_names (.inl (by simp [numWords, hs]))
  · left
    left
    exact ⟨e'.1, by simp, .inr (.inr (.inr (.inr (.inr (.inr (.inl ⟨e', h1, rfl, hs⟩))))))⟩
instance : Core s .hard decimalPlain := by unfold decimalPlain; exact inferInstance
instance : Core s .hard decimalQuantity := by unfold decimalQuantity; exact inferInstance
instance : Core false .heard cardinalQuantity := by unfold cardinalQuantity; exact inferInstance

instance : Core false .heard decimalRule.tagger := by unfold decimalRule; exact inferInstance

/-! ### ordinal.py -/

theorem ordinal_table : ∀ w ∈ numberNames, ∀ p ∈ ordPairs, ∀ k ≤ w.length, w.drop k = p.2 →
    w.take k ++ p.1 ∈ ordinals := by decide +kernel

instance : Core s .hard ordinal := ⟨fun x y w hd => by
  obtain ⟨u, p, q, h1, rfl, h2, h3⟩ := ordinal_den.1 hd
  obtain ⟨n, hn, -⟩ := cardinal_value h3
  have hq : ∀ p ∈ ordPairs, ' ' ∉ p.2 := by decide +kernel
  have hw := value_names hn _ (lastWord_mem _)
  rw [lastWord_append u (hq _ h1)] at hw
  refine bad_last ?_
  rw [lastWord_append u (pairs_nospace _ h1)]
  have := ordinal_table _ hw _ h1 (lastWord u).length (by simp) (by simp)
  rw [List.take_left'  rfl] at this
  exact .inr (.inr (.inl this))⟩

instance : Core s .hard ordinalRule.tagger := by unfold ordinalRule; exact inferInstance

/-! ### date.py -/

instance : Core s .hard monthG := core_tab fun e he => by
  have key : ∀ e ∈ months, words e.1 = [e.1] := by decide +kernel
  rw [key _ he]
  exact .inl ⟨e.1, by simp, .inr (.inr (.inr (.inr (.inl ⟨e, he, rfl⟩))))⟩

/-- The heard words decide. -/
theorem Info.P.of_heard {i : Info} {a b : List Str} (h : EnItn.heard a = EnItn.heard b) (hb : i.P false b) : i.P false a := by
  have hand : t!"and" ∈ numberNames := numWords_names (.inr rfl)
  have key : Bad b → Bad a := by
    rintro (⟨w, h1, h2⟩ | h1)
    · left
      refine ⟨w, ?_, h2⟩
      have : w ∈ EnItn.heard b := List.mem_filter.2 ⟨h1, by
        simp only [ne_eq, decide_eq_true_eq]
        rintro rfl
        exact number_unknown hand h2⟩
      rw [← h] at this
      exact (List.mem_filter.1 this).1
    · right
      obtain ⟨u, ⟨p, q, rfl⟩, h2, h3, h4⟩ := h1
      rw [heard_append, heard_append] at h
      obtain ⟨a1, a2, rfl, e1, e2⟩ := List.filter_eq_append_iff.1 h
      obtain ⟨a3, a4, rfl, e3, e4⟩ := List.filter_eq_append_iff.1 e1
      have e4 : EnItn.heard a4 = EnItn.heard u := e4
      refine ⟨a4, ⟨a3, a2, rfl⟩, ?_, by rw [e4]; exact h3, fun st => by rw [e4]; exact h4 st⟩
      intro w hw
      by_cases hwa : w = t!"and"
      · rw [hwa]; exact hand
      · have : w ∈ EnItn.heard a4 := List.mem_filter.2 ⟨hw, by simpa using hwa⟩
        rw [e4] at this
        exact h2 w (List.mem_filter.1 this).1
  cases i with
  | any => trivial
  | hard => exact key hb
  | heard =>
    rcases hb with hb | hb
    · exact .inl (key hb)
    · right
      intro w hw
      by_cases hwa : w = t!"and"
      · rw [hwa]; exact hand
      · have : w ∈ EnItn.heard a := List.mem_filter.2 ⟨hw, by simpa using hwa⟩
        rw [h] at this
        exact hb w (List.mem_filter.1 this).1

instance [h : Core false i a] : Core false i (.comp deleteAnd a) := ⟨by
  rintro x y w ⟨m, w1, w2, h1, h2, -⟩
  exact (h.reads _ _ _ h2).of_heard (deleteAnd_words h1)⟩

instance : Core s .heard yearTwo := by unfold yearTwo; exact inferInstance
instance : Core s .heard century := by unfold century; exact inferInstance
instance : Core s .hard ohDigit := by unfold ohDigit; exact inferInstance
/-- Small words, a space, and words that begin with a word for tens. -/
theorem bad_tens {x1 x2 : Str} (h1 : Info.heard.P true (words x1))
    (h2 : ∃ t r, words x2 = t :: r ∧ unit t = none ∧ (tens t).isSome) : Bad (words (x1 ++ ' ' :: x2)) := by
  rw [words_append_space]
  rcases h1 with h1 | h1
  · exact h1.left
  · obtain ⟨t, r, h3, h4, h5⟩ := h2
    rcases List.eq_nil_or_concat (words x1) with h | ⟨l, a, h⟩
    · exact absurd h (words_ne x1)
    · rw [h3, h]
      have ha : a ∈ smallNames := h1 a (by rw [h]; simp)
      have e : l.concat a ++ t :: r = l ++ ([a, t] ++ r) := by simp
      rw [e]
      exact .inr ((jam_tens ha h4 h5).left.right)

theorem teen_first {x y : Str} {w : W} (h : teenG.den x y w) : ∃ t r, words x = t :: r ∧ unit t = none ∧ (tens t).isSome := by
  obtain ⟨h1, h2, h3, n, h4, h5, h6, h7⟩ := teen_entry _ h.1
  exact ⟨x, [], h1, h3, by simp only at h6; rw [h6]; rfl⟩

theorem ties_first {x y : Str} {w : W} (h : tiesG.den x y w) : words x = [x] ∧ unit x = none ∧ (tens x).isSome := by
  obtain ⟨h1, h2, h3, n, h4, h5, h6, h7⟩ := ties_entry _ h.1
  exact ⟨h1, h3, by simp only at h6; rw [h6]; rfl⟩

theorem yearTwo_first {x y : Str} {w : W} (h : yearTwo.den x y w) : ∃ t r, words x = t :: r ∧ unit t = none ∧ (tens t).isSome := by
  rcases h with h | ⟨x1, y1, w1, x2, y2, w2, h1, h2, rfl, rfl, rfl⟩
  · exact teen_first h
  · obtain ⟨a1, a2, a3⟩ := ties_first h1
    have hs : Sep x2 := (inferInstance : Lead true _ ((ds + digitG) ||| Wfst.insert t!"0")).reads _ _ _ h2 |>.1
    rw [words_append hs, a1]
    exact ⟨x1, more x2, rfl, a2, a3⟩

instance : Core s .hard yearTwoParts := ⟨by
  rintro x y w ⟨x1, y1, w1, x2, y2, w2, ⟨x3, y3, w3, x4, y4, w4, h3, h4, rfl, rfl, rfl⟩, h2, rfl, rfl, rfl⟩
  obtain ⟨rfl, rfl, rfl⟩ := den_ds.1 h4
  rw [List.append_assoc, List.singleton_append]
  have hc := (inferInstance : Core true .heard century).reads _ _ _ h3
  rcases h2 with (h2 | h2) | h2
  · exact bad_tens hc (yearTwo_first h2)
  · rw [words_append_space]
    exact Bad.right ((inferInstance : Core true .hard ohDigit).reads _ _ _ h2)
  · exact bad_tens hc (teen_first h2)⟩
instance : Core false .heard yearHundredsPart := by unfold yearHundredsPart; exact inferInstance
instance : Core false .heard yearPadded := by unfold yearPadded; exact inferInstance
instance : Core false .heard yearThousands := by unfold yearThousands; exact inferInstance
instance : Core s .hard yearHundreds := by unfold yearHundreds; exact inferInstance
instance : Core false .heard yearXxHundred := by unfold yearXxHundred; exact inferInstance
instance : Core false .heard yearG := by unfold yearG; exact inferInstance
instance : Core s .any dayG := core_any
instance : Core s .hard month := by unfold month; exact inferInstance
instance : Core s .any day := core_any
instance : Core false .heard year := by unfold year; exact inferInstance
instance : Core s .any dayDmy := core_any
theorem decade_table : ∀ e ∈ ties ++ [(t!"ten", t!"10")], words (e.1 ++ t!"s") = [e.1 ++ t!"s"] ∧
    words (e.1.dropLast ++ t!"ies") = [e.1.dropLast ++ t!"ies"] ∧ e.1 ++ t!"s" ∈ decades ∧ e.1.dropLast ++ t!"ies" ∈ decades := by
  decide +kernel

instance : Core s .hard decadeWord := ⟨by
  rintro x y w ⟨m, w1, w2, ⟨x1, y1, w3, x2, y2, w4, h1, h2, rfl, rfl, rfl⟩, h3, -⟩
  have hm : ∃ e ∈ ties ++ [(t!"ten", t!"10")], e.1 = y1 ++ y2 := by
    rcases h3 with h3 | h3
    · exact ⟨_, List.mem_append_left _ h3.1, rfl⟩
    · obtain ⟨h4, -, -⟩ := den_crossS.1 h3
      exact ⟨(t!"ten", t!"10"), by simp, h4.symm⟩
  obtain ⟨e, he, hy⟩ := hm
  obtain ⟨t1, t2, t3, t4⟩ := decade_table e he
  have hx : y1 = x1 := by
    obtain ⟨u1, v1, k1, u2, v2, k2, g1, g2, rfl, rfl, rfl⟩ := h1
    exact (star_cls (Star.cons (R := (G.cls isAlpha).den) g1 g2)).1
  subst hx
  rcases h2 with h2 | h2
  · obtain ⟨rfl, rfl, -⟩ := den_crossS.1 h2
    rw [hy, List.dropLast_concat] at t2 t4
    exact .inl ⟨_, by rw [t2]; simp, .inr (.inr (.inr (.inl t4)))⟩
  · obtain ⟨rfl, rfl, -⟩ := den_del.1 h2
    rw [hy, List.append_nil] at t1 t3
    exact .inl ⟨_, by rw [t1]; simp, .inr (.inr (.inr (.inl t3)))⟩⟩
instance : Core s .hard yearDecade := by unfold yearDecade; exact inferInstance
instance : Core s .any (del t!"of") := core_any
instance : Core s .any (Wfst.insert t!"Q" + .tab [(t!"first", t!"1"), (t!"second", t!"2"), (t!"third", t!"3"), (t!"fourth", t!"4")]) := core_any
instance : Core s .any (Wfst.insert t!"H" + .tab [(t!"first", t!"1"), (t!"second", t!"2")]) := core_any
instance : Core s .hard dayQuarter := by unfold dayQuarter; exact inferInstance
instance : Core s .hard dayHalf := by unfold dayHalf; exact inferInstance
theorem eras_bad : ∀ e ∈ [(t!"b c e", t!"BCE"), (t!"before common era", t!"BCE"), (t!"b c", t!"BC"), (t!"c e", t!"CE"),
    (t!"common era", t!"CE"), (t!"a d", t!"AD")], (words e.1).any easy = true := by decide +kernel
instance : Core s .hard (.tab [(t!"b c e", t!"BCE"), (t!"before common era", t!"BCE"), (t!"b c", t!"BC"), (t!"c e", t!"CE"),
    (t!"common era", t!"CE"), (t!"a d", t!"AD")]) := core_tab fun e he => bad_easy (eras_bad e he)
instance : Lead s .hard bcAd := by unfold bcAd; exact inferInstance
instance : Core s .any (yearG ||| yearThree) := core_any
instance : Core s .hard yearBc := by unfold yearBc; exact inferInstance
instance : Core s .hard yearCentury := by unfold yearCentury; exact inferInstance
instance : Core s .any (crossS t!"two" t!"2") := core_any
instance : Core s .hard yearMillennium := by unfold yearMillennium; exact inferInstance
instance : Core false .heard dateRule.tagger := by unfold dateRule dateTagger po; exact inferInstance

/-! ### time.py -/

instance : Core s .any hourG := core_any
instance : Core s .any hour := core_any
instance : Core s .any minSingle := core_any
instance : Core s .any minDouble := core_any
instance : Core s .any minVerbose := core_any
instance : Core s .any hourTo := core_any
instance : Core s .any minuteToG := core_any
instance : Core s .any zoneG := core_any
instance : Core s .hard oclock := by unfold oclock; exact inferInstance
instance : Core s .hard minuteOclock := by unfold minuteOclock; exact inferInstance
instance : Core s .hard oMinute := by unfold oMinute; exact inferInstance
instance : Core s .hard minutePast := by unfold minutePast; exact inferInstance
instance : Core s .hard minuteQuarterTo := by unfold minuteQuarterTo; exact inferInstance
instance : Core s .hard noonG := core_tab fun e he =>
  bad_last (.inr (.inr (.inr (.inr (.inr (.inl ⟨e, he, rfl⟩))))))
instance : Lead s .hard suffix := by unfold suffix; exact inferInstance
instance : Lead s .any zoneOpt := by unfold zoneOpt; exact inferInstance
theorem hour_table : ∀ e ∈ (range 1 13).map (fun n => (numToWord n, pad2 n)), words e.1 = [e.1] ∧ e.1 ∈ smallNames := by
  decide +kernel

theorem minute_table : ∀ e ∈ (range 10 60).map (fun n => (numToWord n, str n)),
    (words e.1).head?.any (fun t => unit t == none && (tens t).isSome) = true := by decide +kernel

instance : Core s .hard (tagField t!"hour" hour12 + ds + isp + tagField t!"minute" minDouble) := ⟨by
  rintro x y w ⟨x1, y1, w1, x2, y2, w2, h1, h2, rfl, rfl, rfl⟩
  obtain ⟨y3, rfl, ⟨x5, y5, w5, x6, y6, w6, h5, h6, rfl, rfl, rfl⟩⟩ := den_add_insert.1 h1
  obtain ⟨rfl, -, -⟩ := den_ds.1 h6
  obtain ⟨-, -, z, h7⟩ := den_tagField.1 h5
  obtain ⟨-, -, z', h8⟩ := den_tagField.1 h2
  rw [List.append_assoc, List.singleton_append]
  obtain ⟨a1, a2⟩ := hour_table _ h7.1
  refine bad_tens (.inr ?_) ?_
  · intro w hw
    rw [a1] at hw
    rw [List.mem_singleton.1 hw]
    exact a2
  · have hm := minute_table _ h8.1
    cases hw : words x2 with
    | nil => exact absurd hw (words_ne _)
    | cons t r =>
      simp only at hm
      rw [hw] at hm
      simp only [List.head?_cons, Option.any_some, Bool.and_eq_true, beq_iff_eq] at hm
      exact ⟨t, r, rfl, hm.1, hm.2⟩⟩
instance : Core s .hard timeRule.tagger := by unfold timeRule timeTagger styleTo; exact inferInstance

/-! ### measure.py and money.py -/

theorem known_plural {e : Str × Str} (he : e ∈ measurements ++ currency) {x : Str} (hx : lastWord x ∈ plurals (lastWord e.2)) :
    Bad (words x) := bad_last (known_unit he hx)

theorem lastWord_dropLast {x : Str} (h : ∃ u, x = u ++ ['y']) : lastWord (x.dropLast ++ t!"ies") = (lastWord x).dropLast ++ t!"ies" := by
  obtain ⟨u, rfl⟩ := h
  rw [List.dropLast_concat, lastWord_append u (by decide), lastWord_append u (by decide), List.dropLast_concat]

theorem pluralOf_last (x : Str) : lastWord (pluralOf x) ∈ plurals (lastWord x) := by
  have hs : lastWord (x ++ t!"s") ∈ plurals (lastWord x) := by
    rw [lastWord_append x (by decide)]; simp [plurals]
  have hes : lastWord (x ++ t!"es") ∈ plurals (lastWord x) := by
    rw [lastWord_append x (by decide)]; simp [plurals]
  unfold pluralOf
  split
  · rename_i e; rw [e]; decide +kernel
  · split
    · rename_i e; rw [e]; decide +kernel
    · split
      · rename_i e; rw [e]; decide +kernel
      · split
        · exact hes
        · split
          · rename_i h
            simp only [Bool.and_eq_true] at h
            have hy : endsWith x t!"y" = true := h.1.1
            unfold endsWith at hy
            obtain ⟨u, hu⟩ := List.isSuffixOf_iff_suffix.1 hy
            rw [lastWord_dropLast ⟨u, hu.symm⟩]
            simp [plurals]
          · exact hs

theorem self_plural (x : Str) : lastWord x ∈ plurals (lastWord x) := by simp [plurals]

theorem singularNames_mem {t : List (Str × Str)} : ∀ p ∈ singularNames t, ∃ e ∈ t, p.1 = e.2 := by
  have key : ∀ (t acc : List (Str × Str)), ∀ p ∈ t.foldl (fun acc e => if (acc.map Prod.fst).contains e.2 then acc
      else acc ++ [(e.2, e.1)]) acc, p ∈ acc ∨ ∃ e ∈ t, p.1 = e.2 := by
    intro t
    induction t with
    | nil => intro acc p hp; exact .inl hp
    | cons e t ih =>
      intro acc p hp
      rw [List.foldl_cons] at hp
      rcases ih _ p hp with h | ⟨e', h1, h2⟩
      · split at h
        · exact .inl h
        · rcases List.mem_append.1 h with h | h
          · exact .inl h
          · rw [List.mem_singleton.1 h]
            exact .inr ⟨e, by simp, rfl⟩
      · exact .inr ⟨e', by simp [h1], h2⟩
  intro p hp
  rcases key t [] p hp with h | h
  · cases h
  · exact h

theorem inv_mem {t : List (Str × Str)} {e : Str × Str} (h : e ∈ inv t) : ∃ e' ∈ t, e.1 = e'.2 := by
  obtain ⟨e', h1, rfl⟩ := List.mem_map.1 h
  exact ⟨e', h1, rfl⟩

instance : Core s .hard unitSingular := core_tab fun e he => by
  obtain ⟨e', h1, h2⟩ := inv_mem he
  rw [h2]
  exact known_plural (List.mem_append_left _ h1) (self_plural _)
instance : Core s .hard unitPlural := core_tab fun e he => by
  obtain ⟨p, hp, rfl⟩ := List.mem_map.1 he
  obtain ⟨e', h1, h2⟩ := singularNames_mem p hp
  simp only
  rw [h2]
  exact known_plural (List.mem_append_left _ h1) (pluralOf_last _)
instance : Core s .hard currencySingular := core_tab fun e he => by
  obtain ⟨e', h1, h2⟩ := inv_mem he
  rw [h2]
  exact known_plural (List.mem_append_right _ h1) (self_plural _)
instance : Core s .hard currencyPlural := core_tab fun e he => by
  rcases List.mem_append.1 he with he | he
  · obtain ⟨e', h1, h2⟩ := inv_mem he
    rw [h2]
    exact known_plural (List.mem_append_right _ h1) (self_plural _)
  · obtain ⟨p, hp, rfl⟩ := List.mem_map.1 he
    obtain ⟨e', h1, h2⟩ := inv_mem hp
    simp only
    rw [h2]
    refine known_plural (List.mem_append_right _ h1) ?_
    split
    · rw [lastWord_append _ (by decide)]; simp [plurals]
    · rw [lastWord_append _ (by decide)]; simp [plurals]
instance : Core s .any (Wfst.insert t!"/" + del t!"per") := core_any
instance : Core s .hard perUnit := by unfold perUnit; exact inferInstance
instance : Core s .hard fullUnit := by unfold fullUnit; exact inferInstance
instance : Core s .any measureNumber := core_any
instance : Core s .hard measureRule.tagger := by unfold measureRule; exact inferInstance

instance : Core s .hard cent := by unfold cent; exact inferInstance
instance : Core s .any cents := core_any
instance : Core s .any cardinalPlural := core_any
instance : Core s .any one := core_any
instance : Core s .any decimalValue := core_any
instance : Core s .any pointValue := core_any
instance : Core s .any magnitude := core_any
instance : Core s .any decimalWithCents := core_any
instance : Core s .hard centsOnly := by unfold centsOnly; exact inferInstance
instance : Core s .hard currencyField := by unfold currencyField; exact inferInstance
instance : Core s .hard (tagField t!"currency" (Wfst.insert t!"$") + isp + tagField t!"decimal" centsOnly) := ⟨by
  rintro x y w ⟨x1, y1, w1, x2, y2, w2, h1, h2, rfl, rfl, rfl⟩
  obtain ⟨y3, rfl, h3⟩ := den_add_insert.1 h1
  obtain ⟨-, -, z, h4⟩ := den_tagField.1 h3
  obtain ⟨rfl, -, -⟩ := den_insert.1 h4
  exact (inferInstance : Core s .hard (tagField t!"decimal" centsOnly)).reads _ _ _ h2⟩
instance : Core s .any (tagField t!"value" cardinal) := core_any
instance : Core s .any (tagField t!"value" upTo999) := core_any
instance : Core s .hard moneyRule.tagger := by unfold moneyRule moneyTagger; exact inferInstance

/-! ### electronic.py -/

instance : Core s .any component := core_any
instance : Lead s .hard (ds + dotG + ds + component) := ⟨by
  rintro x y w ⟨x1, y1, w1, x2, y2, w2, ⟨x3, y3, w3, x4, y4, w4, ⟨x5, y5, w5, x6, y6, w6, h5, h6, rfl, rfl, rfl⟩, h4,
    rfl, rfl, rfl⟩, h2, rfl, rfl, rfl⟩
  obtain ⟨rfl, -, -⟩ := den_ds.1 h5
  obtain ⟨rfl, -, -⟩ := den_ds.1 h4
  have h := (inferInstance : Core s .hard dotG).reads _ _ _ h6
  refine ⟨.inr ⟨_, rfl⟩, ?_⟩
  have e : ([' '] ++ x6 ++ [' '] ++ x2 : Str) = ' ' :: (x6 ++ ' ' :: x2) := by simp
  rw [e, more_space, words_append_space]
  exact Bad.left h⟩
instance : Core s .hard domain := by unfold domain; exact inferInstance
instance : Core s .any (del t!"at") := core_any
instance : Core s .hard atDomain := by unfold atDomain; exact inferInstance
instance : Trail s .any protocolPrefix := ⟨by
  rintro x y w ⟨x1, y1, w1, x2, y2, w2, h1, h2, rfl, rfl, rfl⟩
  obtain ⟨rfl, -, -⟩ := den_crossS.1 h2
  exact .inr ⟨x1 ++ t!" colon slash slash", by simp, trivial⟩⟩
instance : Core s .any www := core_any
instance : Core s .hard protocol := by unfold protocol; exact inferInstance
instance : Core s .hard electronicRule.tagger := by unfold electronicRule; exact inferInstance

/-! ### telephone.py -/

instance : Core s .heard single := by unfold single; exact inferInstance

theorem tel_bad (p : Str) (hp : (words p).any easy = true) (t : List (Str × Char)) (f : Str × Char → Str) :
    Core s .hard (crosses (t.map fun e => (p ++ ' ' :: e.1, f e))) := core_tab fun e he => by
  obtain ⟨e', -, rfl⟩ := List.mem_map.1 he
  simp only
  rw [words_append_space]
  exact (bad_easy hp).left

instance : Core s .hard double := tel_bad t!"double" (by decide +kernel) telWords fun e => [e.2, e.2]
instance : Core s .hard triple := tel_bad t!"triple" (by decide +kernel) telWords fun e => [e.2, e.2, e.2]
instance : Core s .heard telToken := by unfold telToken; exact inferInstance
instance : Core s .heard telSeq := by unfold telSeq; exact inferInstance

/-- At least three small words. -/
theorem bad_small {ws : List Str} (h : Info.heard.P true ws) (hl : 3 ≤ ws.length) : Bad ws := by
  rcases h with h | h
  · exact h
  · match ws, hl, h with
    | a :: b :: c :: r, _, h =>
      have := jam_three (h a (by simp)) (h b (by simp)) (h c (by simp))
      exact .inr (this.left (b := r))

theorem words_length (x : Str) : 1 ≤ (words x).length := List.length_pos_of_ne_nil (words_ne x)

theorem single_one {x y : Str} {w : W} (h : single.den x y w) : y.length = 1 := by
  have hd : ∀ e ∈ digit ++ zero, e.2.length = 1 := by decide +kernel
  rcases h with ((h | h) | h) | h
  · exact hd _ (List.mem_append_left _ h.1)
  · exact hd _ (List.mem_append_right _ h.1)
  · obtain ⟨-, rfl, -⟩ := den_crossS.1 h; rfl
  · obtain ⟨-, rfl, -⟩ := den_crossS.1 h; rfl

/-- A token has at most two digits for a word, or it is bad. -/
theorem token_digits {x y : Str} {w : W} (h : telToken.den x y w) : Bad (words x) ∨ y.length ≤ 2 * (words x).length := by
  have hl := words_length x
  rcases h with ((h | h) | h) | ⟨w0, h, -⟩
  · right; rw [single_one h]; omega
  · exact .inl ((inferInstance : Core true .hard double).reads _ _ _ h)
  · exact .inl ((inferInstance : Core true .hard triple).reads _ _ _ h)
  · right
    obtain ⟨n, -, -, -, h1, -⟩ := twoDigit_reads h
    omega

theorem seq_digits {x y : Str} {w : W} (h : telSeq.den x y w) : Bad (words x) ∨ y.length ≤ 2 * (words x).length := by
  obtain ⟨x1, y1, w1, x2, y2, w2, h1, h2, rfl, rfl, rfl⟩ := h
  have key : ∀ {x y : Str} {w : W}, Star (ds + telToken).den x y w → Sep x ∧ (Bad (more x) ∨ y.length ≤ 2 * (more x).length) := by
    intro x y w h
    induction h with
    | nil => exact ⟨.inl rfl, .inr (by simp)⟩
    | cons h1 _ ih =>
      obtain ⟨x3, y3, w3, x4, y4, w4, h3, h4, rfl, rfl, rfl⟩ := h1
      obtain ⟨rfl, rfl, -⟩ := den_ds.1 h3
      obtain ⟨i1, i2⟩ := ih
      refine ⟨.inr ⟨_, rfl⟩, ?_⟩
      rw [List.singleton_append, more_append (.inr ⟨x4, rfl⟩) i1, more_space]
      rcases token_digits h4 with h5 | h5
      · exact .inl h5.left
      · rcases i2 with i2 | i2
        · exact .inl i2.right
        · right; simp only [List.nil_append, List.length_append]; omega
  obtain ⟨k1, k2⟩ := key h2
  rw [words_append k1]
  rcases token_digits h1 with h3 | h3
  · exact .inl h3.left
  · rcases k2 with k2 | k2
    · exact .inl k2.right
    · right; simp only [List.length_append]; omega

/-- Five digits or more are read from bad words. -/
theorem digits_bad {b : G} (hb : ∀ x y w, b.den x y w → 5 ≤ x.length) : Core s .hard (.comp telSeq b) := ⟨by
  rintro x y w ⟨m, w1, w2, h1, h2, -⟩
  rcases seq_digits h1 with h | h
  · exact h
  · have := hb _ _ _ h2
    exact bad_small ((inferInstance : Core true .heard telSeq).reads _ _ _ h1) (by omega)⟩

theorem digit_len {n : Nat} {x y : Str} {w : W} (h : (DIGIT.pow n).den x y w) : x.length = n := by
  induction n generalizing x y w with
  | zero => obtain ⟨rfl, -, -⟩ := h; rfl
  | succ n ih =>
    obtain ⟨x1, y1, w1, x2, y2, w2, ⟨c, -, rfl, -, -⟩, h2, rfl, rfl, rfl⟩ := h
    rw [List.length_append, ih h2]; simp; omega

theorem len_add {n : Nat} {a b : G} (hb : ∀ x y w, b.den x y w → n ≤ x.length) :
    ∀ x y w, (a + b).den x y w → n ≤ x.length := by
  rintro x y w ⟨x1, y1, w1, x2, y2, w2, h1, h2, rfl, rfl, rfl⟩
  have := hb _ _ _ h2
  rw [List.length_append]; omega

theorem len_add' {n k : Nat} {a b : G} (ha : ∀ x y w, a.den x y w → n ≤ x.length) (hb : ∀ x y w, b.den x y w → k ≤ x.length) :
    ∀ x y w, (a + b).den x y w → n + k ≤ x.length := by
  rintro x y w ⟨x1, y1, w1, x2, y2, w2, h1, h2, rfl, rfl, rfl⟩
  have := hb _ _ _ h2
  have := ha _ _ _ h1
  rw [List.length_append]; omega

theorem len_insert {n : Nat} {a : G} {v : Str} (ha : ∀ x y w, a.den x y w → n ≤ x.length) :
    ∀ x y w, (a + Wfst.insert v).den x y w → n ≤ x.length := by
  intro x y w h
  obtain ⟨y', -, h'⟩ := den_add_insert.1 h
  exact ha _ _ _ h'

theorem len_digits (n : Nat) : ∀ x y w, (DIGIT.pow n).den x y w → n ≤ x.length := fun _ _ _ h => (digit_len h).ge

theorem three_parts {k l m : Nat} {u v : Str} (h : 5 ≤ k + l + m) :
    ∀ x y w, (DIGIT.pow k + Wfst.insert u + DIGIT.pow l + Wfst.insert v + DIGIT.pow m).den x y w → 5 ≤ x.length := by
  intro x y w hd
  have := len_add' (len_insert (v := v) (len_add' (len_insert (v := u) (len_digits k)) (len_digits l))) (len_digits m) x y w hd
  omega

instance : Core s .hard phone := digits_bad (three_parts (by omega))
instance : Core s .hard ssn := digits_bad (three_parts (by omega))
instance : Core s .hard creditCard := digits_bad (by
  rintro x y w ((h | h) | h)
  · have := len_add' (len_insert (v := t!" ") (three_parts (k := 4) (l := 4) (m := 4) (u := t!" ") (v := t!" ") (by omega)))
      (len_digits 4) x y w h
    omega
  · exact three_parts (by omega) x y w h
  · exact three_parts (by omega) x y w h)

instance : Core s .any ipToken := core_any

instance : Lead s .hard (crossS t!" dot " t!"." + ipToken) := ⟨by
  rintro x y w ⟨x1, y1, w1, x2, y2, w2, h1, h2, rfl, rfl, rfl⟩
  obtain ⟨rfl, -, -⟩ := den_crossS.1 h1
  refine ⟨.inr ⟨_, rfl⟩, ?_⟩
  have e : (t!" dot " ++ x2 : Str) = ' ' :: (t!"dot" ++ ' ' :: x2) := by simp
  rw [e, more_space, words_append_space]
  exact (bad_easy (by decide +kernel)).left⟩

instance : Core s .hard ip := by unfold ip; exact inferInstance

theorem core_letter {p : Char → Bool} (h : ∀ c, p c = true → isAlpha c = true) : Core s .hard (.cls p) := ⟨by
  rintro x y w ⟨c, hc, rfl, -, -⟩
  have hl := letter_iff.1 (h c hc)
  have hs : ' ' ∉ [c] := by
    simp only [List.mem_singleton]
    rintro rfl
    exact absurd (h ' ' hc) (by decide)
  rw [words_single hs]
  exact .inl ⟨[c], by simp, .inl ⟨c, rfl, hl⟩⟩⟩

instance : Core s .hard ALPHA := core_letter fun _ h => h
instance : Core s .hard notA := core_letter fun c h => by
  simp only [Bool.and_eq_true] at h
  exact h.1.1
instance : Core s .heard serialDigit := by unfold serialDigit; exact inferInstance
instance : Core s .heard serialChar := by unfold serialChar; exact inferInstance
instance : Core s .hard seq2 := by unfold seq2; exact inferInstance

theorem atLeast_two {a : G} [h : Core true .heard a] {x y : Str} {w : W} (hd : (atLeast 2 (ds + a)).den x y w) :
    Sep x ∧ Info.heard.P true (more x) ∧ 2 ≤ (more x).length := by
  obtain ⟨x1, y1, w1, x2, y2, w2, ⟨x3, y3, w3, x4, y4, w4, h3, ⟨x5, y5, w5, x6, y6, w6, h5, ⟨rfl, -, -⟩, rfl, rfl, rfl⟩,
    rfl, rfl, rfl⟩, h2, rfl, rfl, rfl⟩ := hd
  obtain ⟨a1, a2⟩ := (inferInstance : Lead true .heard (ds + a)).reads _ _ _ h3
  obtain ⟨b1, b2⟩ := (inferInstance : Lead true .heard (ds + a)).reads _ _ _ h5
  obtain ⟨c1, c2⟩ := (inferInstance : Lead true .heard (G.star (ds + a))).reads _ _ _ h2
  have l1 : 1 ≤ (more x3).length := by
    obtain ⟨u1, v1, k1, u2, v2, k2, g1, g2, rfl, rfl, rfl⟩ := h3
    obtain ⟨rfl, -, -⟩ := den_ds.1 g1
    exact words_length _
  have l2 : 1 ≤ (more x5).length := by
    obtain ⟨u1, v1, k1, u2, v2, k2, g1, g2, rfl, rfl, rfl⟩ := h5
    obtain ⟨rfl, -, -⟩ := den_ds.1 g1
    exact words_length _
  rw [List.append_nil]
  refine ⟨(a1.append b1).append c1, ?_, ?_⟩
  · rw [more_append (a1.append b1) c1, more_append a1 b1]
    exact (a2.cat b2).cat c2
  · rw [more_append (a1.append b1) c1, more_append a1 b1]
    simp only [List.length_append]; omega

theorem serial_bad {a b : G} [h : Core true .heard a] [h' : Core true .heard b] {x y : Str} {w : W}
    (hd : (a + atLeast 2 (ds + b)).den x y w) : Bad (words x) := by
  obtain ⟨x1, y1, w1, x2, y2, w2, h1, h2, rfl, rfl, rfl⟩ := hd
  obtain ⟨a1, a2, a3⟩ := atLeast_two h2
  rw [words_append a1]
  refine bad_small ((h.reads _ _ _ h1).cat a2) ?_
  have := words_length x1
  rw [List.length_append]; omega

instance : Core s .hard seq1 := ⟨by
  rintro x y w (h | h)
  · exact serial_bad h
  · exact serial_bad h⟩
instance : Core s .hard serial := by unfold serial; exact inferInstance

instance : Core s .any countryCode := core_any
instance : Trail s .any optCc := by unfold optCc; exact inferInstance
instance : Core s .hard telephoneRule.tagger := by unfold telephoneRule telTagger numberField; exact inferInstance

end Verif.EnItn
