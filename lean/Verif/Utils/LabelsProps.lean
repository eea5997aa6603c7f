import Verif.Utils.Labels
import Verif.Utils.LabelsSpec

/-
Property C96: `load_labels` reads a file as the table that is written in it.
-/

namespace Verif.Utils

open Spec (Field Line Table doubled)

theorem universal_id {s : Str} (h : '\r' ∉ s) : universal s = s := by
  induction s with
  | nil => rfl
  | cons c s ih =>
    have hc : c ≠ '\r' := fun e => h (by simp [e])
    have hs := ih fun e => h (by simp [e])
    rw [universal]
    · rw [hs]
    · intro t e; exact absurd e hc
    · intro e; exact absurd e hc

/-- The end of the file after the characters of a line. -/
def finish (r : Rd) : Option (List (List Str)) :=
  if (endLine r).st = .startRecord then some [(endLine r).fields] else rows (endLine r) []

/-- The rest of the file within a line. -/
def cont (r : Rd) : Str → Option (List (List Str))
  | [] => finish r
  | c :: s => rows r (linesOf (c :: s))

theorem linesOf_ne {c : Char} {s : Str} : linesOf (c :: s) ≠ [] := by
  rw [linesOf]
  split
  · simp
  · split <;> simp

theorem cont_char {r : Rd} {c : Char} {s : Str} (hc : c ≠ '\n') :
    cont r (c :: s) = (step r c).bind fun r' => cont r' s := by
  show rows r (linesOf (c :: s)) = _
  rw [linesOf, if_neg hc]
  cases s with
  | nil =>
    simp only [linesOf, rows, steps, cont, finish]
    cases step r c with
    | none => rfl
    | some r' => simp [rows, Rd.init]
  | cons d s =>
    cases h : linesOf (d :: s) with
    | nil => exact absurd h linesOf_ne
    | cons l ls =>
      simp only [cont, h, rows, steps]
      cases step r c <;> rfl

theorem cont_newline {r r' : Rd} {s : Str} (h : step r '\n' = some r') :
    cont r ('\n' :: s) =
      if (endLine r').st = .startRecord then (rows .init (linesOf s)).map ((endLine r').fields :: ·)
      else rows (endLine r') (linesOf s) := by
  show rows r (linesOf ('\n' :: s)) = _
  simp [linesOf, rows, steps, h]

/-! ### Fields -/

theorem nl_false {c : Char} (h1 : c ≠ '\n') (h2 : c ≠ '\r') : isNl c = false := by simp [isNl, h1, h2]

theorem plain_rest {fs : List Str} {u v s : Str} (h : ∀ c ∈ v, c ≠ '\t' ∧ c ≠ '\n' ∧ c ≠ '\r') :
    cont ⟨.inField, u, fs⟩ (v ++ s) = cont ⟨.inField, u ++ v, fs⟩ s := by
  induction v generalizing u with
  | nil => simp
  | cons c v ih =>
    obtain ⟨h1, h2, h3⟩ := h c (by simp)
    rw [List.cons_append, cont_char h2]
    simp only [step, nl_false h2 h3, Bool.false_eq_true, if_false, if_neg h1, Option.bind_some, Rd.add]
    rw [ih fun c hc => h c (by simp [hc])]
    simp

/-- The rest of a quoted field, up to the closing mark. -/
theorem quoted_rest {fs : List Str} {u v s : Str} (h : '\r' ∉ v) :
    cont ⟨.inQuoted, u, fs⟩ (doubled v ++ '"' :: s) = cont ⟨.quoteInQuoted, u ++ v, fs⟩ s := by
  induction v generalizing u with
  | nil =>
    rw [doubled, List.nil_append, cont_char (by decide)]
    simp [step]
  | cons c v ih =>
    have hv : '\r' ∉ v := fun e => h (by simp [e])
    rw [doubled]
    split
    · next hc =>
      subst hc
      rw [List.cons_append, cont_char (by decide)]
      simp only [step, if_true, Option.bind_some]
      rw [List.cons_append, cont_char (by decide)]
      simp only [step, if_true, Option.bind_some, Rd.add]
      rw [ih hv]
      simp
    · next hc =>
      by_cases hn : c = '\n'
      · subst hn
        rw [List.cons_append, cont_newline (r' := ⟨.inQuoted, u ++ ['\n'], fs⟩) (by simp [step, Rd.add])]
        simp only [endLine, reduceCtorEq, if_false]
        have := ih (u := u ++ ['\n']) hv
        rw [List.append_assoc] at this
        rw [show u ++ '\n' :: v = u ++ (['\n'] ++ v) by simp, ← this]
        cases hd : doubled v ++ '"' :: s with
        | nil => simp at hd
        | cons => rfl
      · rw [List.cons_append, cont_char hn]
        simp only [step, if_neg hc, Option.bind_some, Rd.add]
        rw [ih hv]
        simp

/-- After a field, whichever state it ended in. -/
def Ended (st : St) : Prop := st = .startField ∨ st = .inField ∨ st = .quoteInQuoted

theorem field_read {fs : List Str} {w v s : Str} (h : Field w v) (hr : '\r' ∉ w) :
    ∃ st, (st = .startField → v = []) ∧ Ended st ∧ cont ⟨.startField, [], fs⟩ (w ++ s) = cont ⟨st, v, fs⟩ s := by
  cases h with
  | plain h1 h2 =>
    cases w with
    | nil => exact ⟨.startField, fun _ => rfl, .inl rfl, rfl⟩
    | cons c w =>
      refine ⟨.inField, by simp, .inr (.inl rfl), ?_⟩
      obtain ⟨a1, a2⟩ := h1 c (by simp)
      have a3 : c ≠ '\r' := fun e => hr (by simp [e])
      have a4 : c ≠ '"' := fun e => h2 (by simp [e])
      rw [List.cons_append, cont_char a2]
      simp only [step, startStep, nl_false a2 a3, Bool.false_eq_true, if_false, if_neg a1, if_neg a4, Option.bind_some, Rd.add]
      rw [plain_rest fun d hd => ⟨(h1 d (by simp [hd])).1, (h1 d (by simp [hd])).2, fun e => hr (e ▸ by simp [hd])⟩]
      simp
  | quoted =>
    refine ⟨.quoteInQuoted, by simp, .inr (.inr rfl), ?_⟩
    have hv : '\r' ∉ v := by
      intro e
      have : ∀ u : Str, '\r' ∈ u → '\r' ∈ doubled u := by
        intro u
        induction u with
        | nil => simp
        | cons d u ih =>
          intro hd
          rw [doubled]
          rcases List.mem_cons.1 hd with rfl | hd
          · simp
          · split <;> simp [ih hd]
      exact hr (by simp [this v e])
    rw [List.cons_append, cont_char (by decide)]
    simp only [step, startStep, isNl, Option.bind_some]
    have := quoted_rest (fs := fs) (u := []) (s := s) hv
    simpa using this

theorem tab_read {fs : List Str} {st : St} {v s : Str} (h : Ended st) :
    cont ⟨st, v, fs⟩ ('\t' :: s) = cont ⟨.startField, [], fs ++ [v]⟩ s := by
  rw [cont_char (by decide)]
  rcases h with rfl | rfl | rfl <;> simp [step, startStep, isNl, Rd.save]

theorem newline_read {fs : List Str} {st : St} {v s : Str} (h : Ended st) :
    cont ⟨st, v, fs⟩ ('\n' :: s) = (rows .init (linesOf s)).map ((fs ++ [v]) :: ·) := by
  rw [cont_newline (r' := ⟨.eatCrnl, [], fs ++ [v]⟩) (by rcases h with rfl | rfl | rfl <;> simp [step, startStep, isNl, Rd.save])]
  simp [endLine]

theorem end_read {fs : List Str} {st : St} {v : Str} (h : Ended st) : cont ⟨st, v, fs⟩ [] = some [fs ++ [v]] := by
  rcases h with rfl | rfl | rfl <;> simp [cont, finish, endLine, Rd.save]

/-! ### Lines -/

theorem line_read {l : Str} {vs : List Str} (h : Line l vs) (hr : '\r' ∉ l) (fs : List Str) :
    (∀ s, cont ⟨.startField, [], fs⟩ (l ++ '\n' :: s) = (rows .init (linesOf s)).map ((fs ++ vs) :: ·)) ∧
      cont ⟨.startField, [], fs⟩ l = some [fs ++ vs] := by
  induction h generalizing fs with
  | @one w v h =>
    refine ⟨fun s => ?_, ?_⟩
    · obtain ⟨st, -, h1, h2⟩ := field_read (fs := fs) (s := '\n' :: s) h hr
      rw [h2, newline_read h1]
    · obtain ⟨st, -, h1, h2⟩ := field_read (fs := fs) (s := []) h hr
      rw [List.append_nil] at h2
      rw [h2, end_read h1]
  | @more w v l vs h hl ih =>
    have hw : '\r' ∉ w := fun e => hr (by simp [e])
    have hl' : '\r' ∉ l := fun e => hr (by simp [e])
    obtain ⟨i1, i2⟩ := ih hl' (fs ++ [v])
    refine ⟨fun s => ?_, ?_⟩
    · obtain ⟨st, -, h1, h2⟩ := field_read (fs := fs) (s := '\t' :: (l ++ '\n' :: s)) h hw
      rw [List.append_assoc, List.cons_append, h2, tab_read h1, i1]
      simp
    · obtain ⟨st, -, h1, h2⟩ := field_read (fs := fs) (s := '\t' :: l) h hw
      rw [h2, tab_read h1, i2]
      simp

/-- At the start of a line that does not begin with a line feed the record starts with a field. -/
theorem start_field {c : Char} {s : Str} (h1 : c ≠ '\n') (h2 : c ≠ '\r') : rows .init (linesOf (c :: s)) = cont ⟨.startField, [], []⟩ (c :: s) := by
  show cont .init (c :: s) = _
  rw [cont_char h1, cont_char h1]
  simp [step, nl_false h1 h2, Rd.init, startStep, Rd.save, Rd.add]

theorem line_head {l : Str} {vs : List Str} (h : Line l vs) : l.head? ≠ some '\n' := by
  have hf : ∀ {w v}, Field w v → w.head? ≠ some '\n' := by
    intro w v h
    cases h with
    | plain h1 _ =>
      cases w with
      | nil => simp
      | cons c w => simpa using (h1 c (by simp)).2
    | quoted => simp
  cases h with
  | one h => exact hf h
  | @more w _ _ _ h _ =>
    have := hf h
    cases w with
    | nil => simp
    | cons c w => simpa using this

theorem table_read {s : Str} {t : List (List Str)} (h : Table s t) (hr : '\r' ∉ s) : rows .init (linesOf s) = some t := by
  induction h with
  | nil => simp [linesOf, rows, Rd.init]
  | @last l vs hne h =>
    cases l with
    | nil => exact absurd rfl hne
    | cons c l =>
      have h1 : c ≠ '\n' := by simpa using line_head h
      have h2 : c ≠ '\r' := fun e => hr (by simp [e])
      rw [start_field h1 h2, (line_read h hr []).2]
      simp
  | @empty s t h ih =>
    have hs : '\r' ∉ s := fun e => hr (by simp [e])
    show cont .init ('\n' :: s) = _
    rw [cont_newline (r' := ⟨.eatCrnl, [], []⟩) (by simp [step, isNl, Rd.init])]
    simp [endLine, ih hs]
  | @line l vs s t hne h ht ih =>
    have hl : '\r' ∉ l := fun e => hr (by simp [e])
    have hs : '\r' ∉ s := fun e => hr (by simp [e])
    cases l with
    | nil => exact absurd rfl hne
    | cons c l =>
      have h1 : c ≠ '\n' := by simpa using line_head h
      have h2 : c ≠ '\r' := fun e => hl (by simp [e])
      have := (line_read h hl []).1 s
      rw [List.cons_append] at this ⊢
      rw [start_field h1 h2, this, ih hs]
      simp

/-! ### All texts -/

/-- The reader can go on. -/
theorem steps_some {r : Rd} {l : Str} (h : r.st ≠ .eatCrnl) (hl : ∀ c ∈ l, isNl c = false) :
    ∃ r', steps r l = some r' ∧ r'.st ≠ .eatCrnl := by
  induction l generalizing r with
  | nil => exact ⟨r, rfl, h⟩
  | cons c l ih =>
    have hc := hl c (by simp)
    have : ∃ r', step r c = some r' ∧ r'.st ≠ .eatCrnl := by
      rcases r with ⟨st, f, fs⟩
      cases st <;> first | exact absurd rfl h | skip
      all_goals
        simp only [step, startStep, hc, Bool.false_eq_true, if_false]
        refine ⟨_, rfl, ?_⟩
        repeat' split
        all_goals simp [Rd.add, Rd.save]
    obtain ⟨r', h1, h2⟩ := this
    obtain ⟨r'', h3, h4⟩ := ih h2 fun c hc => hl c (by simp [hc])
    exact ⟨r'', by simp [steps, h1, h3], h4⟩

theorem cont_some {s : Str} (hr : '\r' ∉ s) : ∀ r : Rd, r.st ≠ .eatCrnl → (cont r s).isSome ∧ (rows r (linesOf s)).isSome := by
  induction s with
  | nil =>
    intro r h
    refine ⟨?_, by simp [linesOf, rows]⟩
    simp only [cont, finish]
    split
    · rfl
    · simp [rows]
  | cons c s ih =>
    intro r h
    have hs : '\r' ∉ s := fun e => hr (by simp [e])
    have hc2 : c ≠ '\r' := fun e => hr (by simp [e])
    suffices h' : (cont r (c :: s)).isSome from ⟨h', h'⟩
    by_cases hc : c = '\n'
    · subst hc
      obtain ⟨r', h1⟩ : ∃ r', step r '\n' = some r' := by
        rcases r with ⟨st, f, fs⟩
        cases st <;> simp [step, isNl]
      rw [cont_newline h1]
      split
      · rw [Option.isSome_map]
        exact (ih hs .init (by simp [Rd.init])).2
      · refine (ih hs _ ?_).2
        rcases r' with ⟨st, f, fs⟩
        cases st <;> simp [endLine, Rd.save]
    · obtain ⟨r', h1, h2⟩ := steps_some (l := [c]) h (by simpa using nl_false hc hc2)
      rw [cont_char hc]
      cases hst : step r c with
      | none => simp [steps, hst] at h1
      | some q =>
        simp only [steps, hst, Option.bind_some, Option.some.injEq] at h1
        subst h1
        simpa using (ih hs q h2).1

theorem universal_free (s : Str) : '\r' ∉ universal s := by
  fun_induction universal s with
  | case1 => simp
  | case2 s ih => simpa using ih
  | case3 s _ ih => simpa using ih
  | case4 c s _ h2 ih =>
    intro h
    rcases List.mem_cons.1 h with e | h
    · exact h2 e.symm
    · exact ih h

theorem line_cons {c : Char} {l : Str} {vs : List Str} (h : Line l vs) (h1 : c ≠ '\t') (h2 : c ≠ '\n') (h3 : c ≠ '"') (hq : '"' ∉ l) :
    ∃ vs', Line (c :: l) vs' := by
  have hf : ∀ {w v}, Field w v → '"' ∉ w → Field (c :: w) (c :: w) := by
    intro w v h hq
    cases h with
    | plain a _ =>
      refine .plain ?_ (by simpa using h3)
      intro d hd
      rcases List.mem_cons.1 hd with rfl | hd
      · exact ⟨h1, h2⟩
      · exact a d hd
    | quoted => simp at hq
  cases h with
  | one h => exact ⟨_, .one (hf h hq)⟩
  | @more w v l vs h hl => exact ⟨_, .more (hf h fun e => hq (by simp [e])) hl⟩

theorem table_cons {c : Char} {s : Str} (h : ∃ t, Table s t) (hc : c ≠ '"') (hq : '"' ∉ s) : ∃ t, Table (c :: s) t := by
  obtain ⟨t, h⟩ := h
  by_cases hn : c = '\n'
  · subst hn; exact ⟨_, .empty h⟩
  have nil : Field [] [] := .plain (by simp) (by simp)
  have line : ∀ {l vs}, Line l vs → '"' ∉ l → ∃ vs', Line (c :: l) vs' := by
    intro l vs hl hq
    by_cases ht : c = '\t'
    · subst ht; exact ⟨_, .more nil hl⟩
    · exact line_cons hl ht hn hc hq
  cases h with
  | nil =>
    obtain ⟨vs, h⟩ := line (.one nil) (by simp)
    exact ⟨_, .last (by simp) h⟩
  | last _ hl =>
    obtain ⟨vs, h⟩ := line hl hq
    exact ⟨_, .last (by simp) h⟩
  | empty ht =>
    obtain ⟨vs, h⟩ := line (.one nil) (by simp)
    exact ⟨_, .line (by simp) h ht⟩
  | @line l _ _ _ _ hl ht =>
    obtain ⟨vs, h⟩ := line hl fun e => hq (by simp [e])
    exact ⟨_, .line (by simp) h ht⟩

theorem universal_ends {s e : Str} (he : e = ['\n'] ∨ e = ['\r', '\n'] ∨ e = ['\r']) (hr : '\r' ∉ s) :
    universal (s.flatMap fun c => if c = '\n' then e else [c]) = s := by
  induction s with
  | nil => rfl
  | cons c s ih =>
    have hs := ih fun h => hr (by simp [h])
    have hc : c ≠ '\r' := fun h => hr (by simp [h])
    rw [List.flatMap_cons]
    by_cases hn : c = '\n'
    · subst hn
      rw [if_pos rfl]
      rcases he with rfl | rfl | rfl
      · exact congrArg _ hs
      · exact congrArg _ hs
      · rw [List.singleton_append]
        have hh : ∀ u, s.flatMap (fun c => if c = '\n' then ['\r'] else [c]) ≠ '\n' :: u := by
          intro u h
          have : '\n' ∈ s.flatMap (fun c => if c = '\n' then ['\r'] else [c]) := by rw [h]; simp
          obtain ⟨d, -, hd⟩ := List.mem_flatMap.1 this
          split at hd
          · simp at hd
          · next hne => simp at hd; exact hne hd.symm
        rw [universal]
        · rw [hs]
        · intro u h; exact absurd h (hh u)
    · rw [if_neg hn, List.singleton_append, universal]
      · rw [hs]
      · intro t h; exact absurd h hc
      · intro h; exact absurd h hc

/-! ### C96 -/

/-- **C96.** A file is read as the table written in it, with any of the three kinds of line ends. -/
theorem C96_read {s e : Str} {t : List (List Str)} (h : Table s t) (hr : '\r' ∉ s)
    (he : e = ['\n'] ∨ e = ['\r', '\n'] ∨ e = ['\r']) :
    loadLabels (s.flatMap fun c => if c = '\n' then e else [c]) = some t := by
  unfold loadLabels
  rw [universal_ends he hr]
  exact table_read h hr

/-- **C96.** Every text without quotation marks is a table, so that the reading above is the one that it has. -/
theorem C96_plain (s : Str) (h : '"' ∉ s) : ∃ t, Table s t := by
  induction s with
  | nil => exact ⟨_, .nil⟩
  | cons c s ih =>
    exact table_cons (ih fun e => h (by simp [e])) (fun e => h (by simp [e])) fun e => h (by simp [e])

/-- **C96.** No text is written for two tables. -/
theorem C96_once {s : Str} {t t' : List (List Str)} (h : Table s t) (h' : Table s t') (hr : '\r' ∉ s) : t = t' := by
  have := table_read h hr
  rw [table_read h' hr] at this
  exact (Option.some.inj this).symm

/-- **C96.** Reading never raises `csv.Error`, whatever is in the file. -/
theorem C96_total (text : Str) : ∃ t, loadLabels text = some t :=
  Option.isSome_iff_exists.1 (cont_some (universal_free text) .init (by simp [Rd.init])).2

/-- Two labels, the second one in quotation marks, an empty line, and a line without an end. -/
example : loadLabels "dr.\t\"a \"\"b\"\"\tc\"\r\n\r\nII".toList = some [["dr.".toList, "a \"b\"\tc".toList], [], ["II".toList]] := by decide
example : Table "dr.\t\"a \"\"b\"\"\tc\"\n\nII".toList [["dr.".toList, "a \"b\"\tc".toList], [], ["II".toList]] := by
  refine Table.line (l := "dr.\t\"a \"\"b\"\"\tc\"".toList) (by decide) ?_ (.empty (.last (by decide) (.one (.plain (by decide) (by decide)))))
  exact Line.more (w := "dr.".toList) (.plain (by decide) (by decide)) (.one (.quoted (v := "a \"b\"\tc".toList)))

end Verif.Utils
