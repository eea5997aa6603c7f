import Verif.Cli.Select
import Verif.Cache.KeyProps

/-
Properties of the command line (C45, C46, C47, C66).
-/

namespace Verif.Cli

variable {digit : Char → Bool}

/-! ## C45: line endings -/

/-- C45: a text without a line ending at its end is recovered from itself followed by any one of
the line endings or by none; of a text that ends in `\r` only the `\n` form is different (it is the
two-character ending). -/
theorem strip_one {b : Str} :
    withoutLineEnding (b ++ ['\r', '\n']) = b ∧
    withoutLineEnding (b ++ ['\r']) = b ∧
    (b.getLast? ≠ some '\r' → withoutLineEnding (b ++ ['\n']) = b) ∧
    (b.getLast? ≠ some '\r' → b.getLast? ≠ some '\n' → withoutLineEnding b = b) := by
  refine ⟨?_, ?_, fun h => ?_, fun h h' => ?_⟩
  · have e : b ++ ['\r', '\n'] = (b ++ ['\r']) ++ ['\n'] := by simp
    rw [e, withoutLineEnding, if_pos (by simp), List.dropLast_concat, if_pos (by simp),
      List.dropLast_concat]
  · rw [withoutLineEnding, if_neg (by simp), if_pos (by simp), List.dropLast_concat]
  · rw [withoutLineEnding, if_pos (by simp), List.dropLast_concat, if_neg h]
  · rw [withoutLineEnding, if_neg h', if_neg h]

/-- C45: for every line, what is removed is nothing or one line ending at the end. -/
theorem strip_suffix (line : Str) : ∃ e, line = withoutLineEnding line ++ e ∧
    (e = [] ∧ line.getLast? ≠ some '\n' ∧ line.getLast? ≠ some '\r' ∨ LineEnd e) := by
  have last : ∀ {l : Str} {c : Char}, l.getLast? = some c → l = l.dropLast ++ [c] := by
    intro l c h
    obtain ⟨l', rfl⟩ := List.getLast?_eq_some_iff.1 h
    rw [List.dropLast_concat]
  unfold withoutLineEnding
  split
  · rename_i h
    split
    · rename_i h'
      refine ⟨['\r', '\n'], ?_, .inr (.inr (.inl rfl))⟩
      conv_lhs => rw [last h, last h']
      simp
    · exact ⟨['\n'], last h, .inr (.inl rfl)⟩
  · rename_i h
    split
    · rename_i h'
      exact ⟨['\r'], last h', .inr (.inr (.inr rfl))⟩
    · rename_i h'
      exact ⟨[], by simp, .inl ⟨rfl, h, h'⟩⟩

example : withoutLineEnding "a b \r\r\n".toList = "a b \r".toList ∧
    withoutLineEnding "二十\n".toList = "二十".toList ∧
    withoutLineEnding "x\n\r".toList = "x\n".toList ∧
    withoutLineEnding "no end ".toList = "no end ".toList := by decide +kernel

/-! ## C46: what is printed -/

theorem noEol_cons {c : Char} {t : Str} (h1 : c ≠ '\n') (h2 : c ≠ '\r') (h : NoEol t) :
    NoEol (c :: t) := by
  refine ⟨fun hm => ?_, fun hm => ?_⟩
  · exact (List.mem_cons.1 hm).elim (fun e => h1 e.symm) h.1
  · exact (List.mem_cons.1 hm).elim (fun e => h2 e.symm) h.2

theorem noEol_last {t : Str} (h : NoEol t) : t.getLast? ≠ some '\n' ∧ t.getLast? ≠ some '\r' :=
  ⟨fun e => h.1 (List.mem_of_getLast? e), fun e => h.2 (List.mem_of_getLast? e)⟩

theorem universal_noCr : ∀ (c : List Char) (p : Bool), '\r' ∉ universal p c
  | [], p => by rw [universal]; exact List.not_mem_nil
  | x :: s, p => by
    have ih := universal_noCr s
    rw [universal]
    by_cases hr : x = '\r'
    · rw [if_pos hr]
      intro h
      rcases List.mem_cons.1 h with h | h
      · revert h; decide
      · exact ih _ h
    · rw [if_neg hr]
      split
      · exact ih _
      · intro h
        rcases List.mem_cons.1 h with h | h
        · exact hr h.symm
        · exact ih _ h

/-- The lines of a text without `\r`, each followed by `\n` but perhaps the last. -/
theorem keepLines_spec : ∀ (u : List Char), '\r' ∉ u →
    (keepLines u = [] → u = []) ∧
    ∀ l ∈ keepLines u, ∃ t, NoEol t ∧ (l = t ++ ['\n'] ∨ (l = t ∧ t ≠ []))
  | [], _ => ⟨fun _ => rfl, fun l h => by rw [keepLines] at h; cases h⟩
  | c :: s, hu => by
    have hc : c ≠ '\r' := fun e => hu (e ▸ List.mem_cons_self)
    obtain ⟨ih1, ih2⟩ := keepLines_spec s (fun h => hu (List.mem_cons_of_mem _ h))
    have nil : NoEol [] := ⟨List.not_mem_nil, List.not_mem_nil⟩
    rw [keepLines]
    by_cases hn : c = '\n'
    · rw [if_pos hn]
      refine ⟨fun h => (by cases h), fun l hl => ?_⟩
      rcases List.mem_cons.1 hl with rfl | hl
      · exact ⟨[], nil, .inl (by rw [hn]; rfl)⟩
      · exact ih2 l hl
    · rw [if_neg hn]
      cases hk : keepLines s with
      | nil =>
        refine ⟨fun h => (by cases h), fun l hl => ?_⟩
        rw [List.mem_singleton.1 hl]
        exact ⟨[c], noEol_cons hn hc nil, .inr ⟨rfl, by simp⟩⟩
      | cons l ls =>
        refine ⟨fun h => (by cases h), fun l' hl => ?_⟩
        rw [hk] at ih2
        rcases List.mem_cons.1 hl with rfl | hl
        · obtain ⟨t, ht, h | ⟨h, h'⟩⟩ := ih2 l List.mem_cons_self
          · exact ⟨c :: t, noEol_cons hn hc ht, .inl (by rw [h]; rfl)⟩
          · exact ⟨c :: t, noEol_cons hn hc ht, .inr ⟨by rw [h], by simp⟩⟩
        · exact ih2 l' (List.mem_cons_of_mem _ hl)

/-- A character before the first line. -/
theorem hasLines_cons {x : Char} (h1 : x ≠ '\n') (h2 : x ≠ '\r') {c : List Char} {t : Str} {ts}
    (h : HasLines c (t :: ts)) : HasLines (x :: c) ((x :: t) :: ts) := by
  generalize hts : t :: ts = l at h
  cases h with
  | nil => cases hts
  | last h3 h4 =>
    cases hts
    exact .last (by simp) (noEol_cons h1 h2 h4)
  | more h3 h4 h5 h6 =>
    cases hts
    exact .more (noEol_cons h1 h2 h3) h4 h5 h6

theorem hasLines_nil {c : List Char} (h : HasLines c []) : c = [] := by
  generalize hts : ([] : List Str) = l at h
  cases h with
  | nil => rfl
  | last h3 h4 => cases hts
  | more h3 h4 h5 h6 => cases hts

/-- Without a `\n` at the start. -/
def dropNl : List Char → List Char
  | [] => []
  | c :: s => if c = '\n' then s else c :: s

theorem fileLines_spec : ∀ (c : List Char),
    HasLines c ((keepLines (universal false c)).map withoutLineEnding) ∧
    HasLines (dropNl c) ((keepLines (universal true c)).map withoutLineEnding)
  | [] => ⟨.nil, .nil⟩
  | x :: s => by
    obtain ⟨ih1, ih2⟩ := fileLines_spec s
    have nil : NoEol [] := ⟨List.not_mem_nil, List.not_mem_nil⟩
    have hnl : withoutLineEnding ['\n'] = [] := by decide
    by_cases hr : x = '\r'
    · subst hr
      have key : HasLines ('\r' :: s)
          ((keepLines ('\n' :: universal true s)).map withoutLineEnding) := by
        rw [keepLines, if_pos rfl, List.map_cons, hnl]
        cases s with
        | nil => exact HasLines.more (t := []) (e := ['\r']) nil (.inr (.inr rfl)) (by simp) ih2
        | cons y s =>
          by_cases hy : y = '\n'
          · subst hy
            rw [dropNl, if_pos rfl] at ih2
            exact HasLines.more (t := []) (e := ['\r', '\n']) nil (.inr (.inl rfl)) (by simp) ih2
          · rw [dropNl, if_neg hy] at ih2
            exact HasLines.more (t := []) (e := ['\r']) nil (.inr (.inr rfl))
              (fun _ h => hy (Option.some.inj h)) ih2
      rw [universal, if_pos rfl, universal, if_pos rfl, dropNl, if_neg (by decide)]
      exact ⟨key, key⟩
    · by_cases hn : x = '\n'
      · subst hn
        rw [universal, if_neg hr, if_neg (by simp), universal, if_neg hr, if_pos ⟨rfl, rfl⟩, dropNl,
          if_pos rfl]
        refine ⟨?_, ih1⟩
        rw [keepLines, if_pos rfl, List.map_cons, hnl]
        exact HasLines.more (t := []) (e := ['\n']) nil (.inl rfl) (by simp) ih1
      · have key : HasLines (x :: s)
            ((keepLines (x :: universal false s)).map withoutLineEnding) := by
          have hk := keepLines_spec (universal false s) (universal_noCr s false)
          rw [keepLines, if_neg hn]
          cases hls : keepLines (universal false s) with
          | nil =>
            rw [hls] at ih1
            have := hasLines_nil ih1
            subst this
            have single : NoEol [x] := noEol_cons hn hr nil
            have e : withoutLineEnding [x] = [x] :=
              strip_one.2.2.2 (noEol_last single).2 (noEol_last single).1
            simp only [List.map_cons, List.map_nil, e]
            exact .last (by simp) single
          | cons l ls =>
            rw [hls] at ih1 hk
            simp only [List.map_cons] at ih1 ⊢
            have e : withoutLineEnding (x :: l) = x :: withoutLineEnding l := by
              obtain ⟨t, ht, rfl | ⟨rfl, _⟩⟩ := hk.2 l List.mem_cons_self
              · rw [strip_one.2.2.1 (noEol_last ht).2]
                exact (strip_one (b := x :: t)).2.2.1 (noEol_last (noEol_cons hn hr ht)).2
              · rw [strip_one.2.2.2 (noEol_last ht).2 (noEol_last ht).1]
                exact strip_one.2.2.2 (noEol_last (noEol_cons hn hr ht)).2
                  (noEol_last (noEol_cons hn hr ht)).1
            rw [e]
            exact hasLines_cons hn hr ih1
        rw [universal, if_neg hr, if_neg (fun h => hn h.1), universal, if_neg hr,
          if_neg (fun h => hn h.1), dropNl, if_neg hn]
        exact ⟨key, key⟩

/-- C46: the texts taken from a file are the lines of its content under universal newlines, none
missing, none joined, without their endings. -/
theorem file_texts (c : List Char) : HasLines c ((fileLines c).map withoutLineEnding) :=
  (fileLines_spec c).1

example : (fileLines "一\r\n二\r\r三".toList).map withoutLineEnding =
    ["一".toList, "二".toList, [], "三".toList] := by decide +kernel

/-- A processor and an output that work. -/
structure Works (M : Machine) (tag verb : Str → Str) : Prop where
  tag : ∀ s, M.tag s = .ok (tag s)
  verb : ∀ s, M.verbalize s = .ok (verb s)
  print : ∀ n s, M.print n s = none

theorem emit_works {M : Machine} {tag verb} (W : Works M tag verb) (out : List Str) (t : Str) :
    emit M out t = (out ++ [t], none) := by
  rw [emit, W.print]

theorem processLine_works {M : Machine} {tag verb} (W : Works M tag verb) (out : List Str)
    (t : Str) : processLine M out t = (out ++ [tag t, verb (tag t)], none) := by
  rw [processLine, W.tag]
  simp only [emit_works W, W.verb, List.append_assoc, List.cons_append, List.nil_append]

theorem processLines_works {M : Machine} {tag verb} (W : Works M tag verb) (e : Option Exc) :
    ∀ (ls out : List Str), processLines M e ls out =
      (out ++ printed tag verb (ls.map withoutLineEnding), e)
  | [], out => by rw [processLines]; simp [printed]
  | l :: ls, out => by
    rw [processLines, processLine_works W]
    simp only []
    rw [processLines_works W e ls]
    simp [printed]

/-- The texts a run is about: the `--text`, else the lines of the `--file`, else of the standard
input. -/
def texts (files : Str → Lines) (stdin : Lines) (ns : Namespace) : List Str :=
  match ns.text, ns.file with
  | some t, _ => [t]
  | none, some f => (files f).lines.map withoutLineEnding
  | none, none => stdin.lines.map withoutLineEnding

/-- C46: two lines are printed for every text, in order: the tagged text and the verbalization of
exactly that tagged text.  An empty `--text` is a text. -/
theorem run_prints {make : Dir → Namespace → Except Exc Machine} {files : Str → Lines}
    {stdin : Lines} {d : Dir} {argv : List Str} {ns : Namespace} {M : Machine} {tag verb}
    (hp : parseArgs digit d argv = .ok ns) (hm : make d ns = .ok M) (W : Works M tag verb) :
    (run digit make files stdin d argv).1 = printed tag verb (texts files stdin ns) ∧
    (ns.text.isSome = true ∨ (∃ f, ns.text = none ∧ ns.file = some f ∧ (files f).ending = none) ∨
      (ns.text = none ∧ ns.file = none ∧ stdin.ending = none) →
      (run digit make files stdin d argv).2 = none) := by
  rw [run, hp]
  simp only [hm]
  cases ht : ns.text with
  | some t =>
    simp only [processLine_works W, texts, ht, printed]
    simp
  | none =>
    cases hf : ns.file with
    | some f =>
      simp only [processLines_works W, texts, ht, hf]
      split
      · rename_i out h
        obtain ⟨h1, h2⟩ := Prod.mk.inj h
        refine ⟨by rw [← h1]; rfl, ?_⟩
        rintro (h | ⟨f', _, e, h⟩ | ⟨_, e, _⟩)
        · cases h
        · cases e
          rw [h2] at h
          cases h
        · cases e
      · refine ⟨rfl, ?_⟩
        rintro (h | ⟨f', _, e, h⟩ | ⟨_, e, _⟩)
        · cases h
        · cases e
          exact h
        · cases e
    | none =>
      simp only [processLines_works W, texts, ht, hf]
      refine ⟨rfl, ?_⟩
      rintro (h | ⟨f', _, e, h⟩ | ⟨_, _, h⟩)
      · cases h
      · cases e
      · exact h

/-- What a complete line printed. -/
def Done (M : Machine) (t : Str) (two : List Str) : Prop :=
  ∃ tagged v, M.tag t = .ok tagged ∧ M.verbalize tagged = .ok v ∧ two = [tagged, v]

theorem processLine_inv (M : Machine) (out : List Str) (t : Str) :
    (∃ two, Done M t two ∧ processLine M out t = (out ++ two, none)) ∨
    (∃ e part, processLine M out t = (out ++ part, some e) ∧
      (part = [] ∨ ∃ tagged, M.tag t = .ok tagged ∧ part = [tagged])) := by
  rw [processLine]
  cases ht : M.tag t with
  | error e => exact .inr ⟨e, [], by simp, .inl rfl⟩
  | ok tagged =>
    simp only [emit]
    cases hp : M.print out.length tagged with
    | some e => exact .inr ⟨e, [], by simp, .inl rfl⟩
    | none =>
      simp only []
      cases hv : M.verbalize tagged with
      | error e => exact .inr ⟨e, [tagged], by simp, .inr ⟨tagged, rfl, rfl⟩⟩
      | ok v =>
        simp only []
        cases hp' : M.print (out ++ [tagged]).length v with
        | some e => exact .inr ⟨e, [tagged], by simp, .inr ⟨tagged, rfl, rfl⟩⟩
        | none => exact .inl ⟨[tagged, v], ⟨tagged, v, ht, hv, rfl⟩, by simp⟩

/-- C46, when something fails: the lines before are printed completely and in order, of the line
that failed at most the tagged text, nothing after it. -/
theorem lines_until_failure (M : Machine) (e : Option Exc) : ∀ (ls out : List Str),
    ∃ k blocks part, k ≤ ls.length ∧
      (processLines M e ls out).1 = out ++ blocks.flatten ++ part ∧
      List.Forall₂ (Done M) ((ls.take k).map withoutLineEnding) blocks ∧
      (part = [] ∨ ∃ l tagged, ls[k]? = some l ∧ M.tag (withoutLineEnding l) = .ok tagged ∧
        part = [tagged]) ∧
      ((processLines M e ls out).2 = none → k = ls.length ∧ part = [])
  | [], out => ⟨0, [], [], Nat.le_refl _, by simp [processLines], .nil, .inl rfl, fun _ => ⟨rfl, rfl⟩⟩
  | l :: ls, out => by
    rw [processLines]
    rcases processLine_inv M out (withoutLineEnding l) with ⟨two, hd, h⟩ | ⟨x, part, h, hp⟩
    · rw [h]
      simp only []
      obtain ⟨k, blocks, part, hk, h1, h2, h3, h4⟩ := lines_until_failure M e ls (out ++ two)
      refine ⟨k + 1, two :: blocks, part, by simpa using hk, ?_, ?_, ?_, ?_⟩
      · rw [h1]; simp
      · rw [List.take_succ_cons, List.map_cons]
        exact .cons hd h2
      · simpa using h3
      · intro hn
        obtain ⟨rfl, rfl⟩ := h4 hn
        exact ⟨rfl, rfl⟩
    · rw [h]
      simp only []
      refine ⟨0, [], part, Nat.zero_le _, by simp, .nil, ?_, fun hn => by cases hn⟩
      rcases hp with hp | ⟨t, ht, hp⟩
      · exact .inl hp
      · exact .inr ⟨l, t, rfl, ht, hp⟩

/-! ## C47: switches -/

/-- The destination of a boolean action. -/
def Act.dest : Act → List Str
  | .on n => [n]
  | .off n => [n]
  | _ => []

theorem initial_names (d : Dir) (l : Str) :
    ∀ e ∈ table d l, ∀ n, e.2 = .on n ∨ e.2 = .off n → n ∈ (initial d l).flags.map (·.1) := by
  have key : ∀ d, ∀ l ∈ languages, ∀ e ∈ table d l, ∀ n ∈ e.2.dest,
      n ∈ (initial d l).flags.map (·.1) := by
    intro d l hl
    simp only [languages, List.mem_cons, List.not_mem_nil, or_false] at hl
    rcases hl with rfl | rfl | rfl <;> cases d <;> decide +kernel
  have key' : ∀ l' ∈ languages, booleans d l = booleans d l' →
      ∀ e ∈ table d l, ∀ n, e.2 = .on n ∨ e.2 = .off n → n ∈ (initial d l).flags.map (·.1) := by
    intro l' hl' h e he n hn
    have h1 : table d l = table d l' := by unfold table; rw [h]
    have h2 : (initial d l).flags = (initial d l').flags := by
      show defaultFlags (booleans d l) [] = defaultFlags (booleans d l') []
      rw [h]
    rw [h1] at he
    rw [h2]
    refine key d l' hl' e he n ?_
    rcases hn with hn | hn
    · rw [hn]; exact List.mem_cons_self
    · rw [hn]; exact List.mem_cons_self
  rcases booleans_cases d l with h | h | h
  · exact key' _ (by decide) h
  · exact key' _ (by decide) h
  · exact key' _ (by decide) h

theorem spelled_switches {d : Dir} {l : Str} {argv : List Str} {items}
    (h : Spelled digit (table d l) argv items) :
    Switches items ((initial d l).flags.map (·.1)) := by
  intro n v hv
  rcases hv with hv | hv
  · obtain ⟨k, hk⟩ := (spelled_shaped h).2 _ hv
    exact initial_names d l _ hk n (.inl rfl)
  · obtain ⟨k, hk⟩ := (spelled_shaped h).2 _ hv
    exact initial_names d l _ hk n (.inr rfl)

theorem fits_initial {d : Dir} {l : Str} {items} : Fits (initial d l) items :=
  ⟨fun h => (by cases h), fun h => (by cases h)⟩

theorem selected_eq {argv : List Str} {cs ns' ex} (hc : classify digit pre argv = .ok cs)
    (h : loop cs ⟨none, none, none, false, "zh".toList, []⟩ = .ok (ns', ex)) :
    selectedLanguage digit argv = .ok ns'.language := by
  have e : parseKnown digit pre ⟨none, none, none, false, "zh".toList, []⟩ argv = .ok (ns', ex) := by
    rw [parseKnown, hc]
    exact h
  unfold selectedLanguage
  rw [e]

/-- C47: whatever is accepted spells acceptable options of the language's table, and the result is
what they ask for, the last occurrence winning. -/
theorem accepted {d : Dir} {argv : List Str} {ns : Namespace}
    (h : parseArgs digit d argv = .ok ns) : ∃ items,
      Spelled digit (table d ns.language) argv items ∧ Acceptable items ∧
      Result (initial d ns.language) items ns ∧ ns.language ∈ languages := by
  rw [parseArgs] at h
  cases hs : selectedLanguage digit argv with
  | error e => rw [hs] at h; cases h
  | ok l =>
    rw [hs] at h
    simp only [] at h
    rw [parseAll, parseKnown] at h
    cases hc : classify digit (table d l) argv with
    | error e => rw [hc] at h; cases h
    | ok cs =>
      rw [hc] at h
      simp only [] at h
      cases hl : loop cs (initial d l) with
      | error e => rw [hl] at h; cases h
      | ok r =>
        obtain ⟨ns', ex⟩ := r
        rw [hl] at h
        cases ex with
        | cons => cases h
        | nil =>
          cases h
          have F := table_fine d l
          obtain ⟨items, hsp, hap⟩ := spelled_of_parse F.toGood F.two' _ argv (Nat.le_refl _) cs _ _
            hc hl
          obtain ⟨ha, _, hr⟩ := applyItems_ok (spelled_switches hsp) hap
          obtain ⟨cs', hc', hpre⟩ := pre_parse F hsp ha.known
          have hlang : l = lastOr (valueOf .language) "zh".toList items := by
            obtain ⟨ns', ex, h1, h2⟩ := hpre ⟨none, none, none, false, "zh".toList, []⟩
            rw [selected_eq hc' h1] at hs
            cases hs
            exact h2
          have hnl : ns.language = l := by rw [hr.language, hlang]; rfl
          rw [hnl]
          refine ⟨items, hsp, ha, hr, ?_⟩
          rw [hlang]
          unfold lastOr
          cases hlast : (items.filterMap (valueOf .language)).getLast? with
          | none => decide
          | some x =>
            have hm := List.mem_of_getLast? hlast
            obtain ⟨i, hi, hv⟩ := List.mem_filterMap.1 hm
            obtain ⟨a, v⟩ := i
            unfold valueOf at hv
            by_cases ha' : a = .language
            · rw [if_pos ha'] at hv
              simp only [] at hv
              subst ha' hv
              exact ha.known x hi
            · rw [if_neg ha'] at hv
              cases hv

/-- C47: every spelling of acceptable options of the language they choose is accepted. -/
theorem accepts {d : Dir} {argv : List Str} {items : List (Act × Option Str)} {l : Str}
    (hl : l = lastOr (valueOf .language) "zh".toList items)
    (hs : Spelled digit (table d l) argv items) (ha : Acceptable items) :
    ∃ ns, parseArgs digit d argv = .ok ns ∧ ns.language = l ∧ Result (initial d l) items ns := by
  have F := table_fine d l
  obtain ⟨cs', hc', hpre⟩ := pre_parse F hs ha.known
  have hsel : selectedLanguage digit argv = .ok l := by
    obtain ⟨ns', ex, h1, h2⟩ := hpre ⟨none, none, none, false, "zh".toList, []⟩
    rw [selected_eq hc' h1, h2, hl]
  obtain ⟨r, hr⟩ := applyItems_total (spelled_switches hs) (spelled_shaped hs).1 ha
    (fits_initial (d := d) (l := l))
  obtain ⟨_, _, hres⟩ := applyItems_ok (spelled_switches hs) hr
  obtain ⟨cs, hc, _, hlp⟩ := parse_of_spelled F.toGood hs
  refine ⟨r, ?_, ?_, hres⟩
  · rw [parseArgs, hsel]
    simp only []
    rw [parseAll, parseKnown, hc]
    simp only [hlp _ _ hr]
  · rw [hres.language, hl]
    rfl

theorem negative_dashes (hd : digit '-' = false) (t : Str) :
    negativeNumber digit ('-' :: '-' :: t) = false := by
  have shape : ∃ u, (if ('-' :: '-' :: t).getLast? = some '\n' then ('-' :: '-' :: t).dropLast
      else '-' :: '-' :: t) = '-' :: '-' :: u := by
    split_ifs with h
    · cases t with
      | nil => exact absurd h (by decide)
      | cons c t => exact ⟨(c :: t).dropLast, by simp⟩
    · exact ⟨t, rfl⟩
  obtain ⟨u, hu⟩ := shape
  unfold negativeNumber
  rw [hu]
  simp [hd]

theorem spelled_named {tbl : Table} (hd : digit '-' = false) {argv : List Str} {items}
    (h : Spelled digit tbl argv items) : ∀ s ∈ argv, ['-', '-'] <+: s → ' ' ∉ s →
      ∃ e ∈ tbl, (partition s).1 <+: e.1 := by
  have G : ∀ {p a}, '=' ∉ p → Designates tbl p a → ∃ e ∈ tbl, p <+: e.1 := by
    rintro p a hq (h | ⟨_, _, _, k, hk, hp, _⟩)
    · exact ⟨_, h, List.prefix_refl _⟩
    · exact ⟨_, hk, hp⟩
  have G' : ∀ {p a}, Designates tbl p a → ∃ e ∈ tbl, (partition p).1 <+: e.1 := by
    intro p a h
    have hpp : (partition p).1 <+: p := by
      obtain ⟨_, h1, h2⟩ := partition_spec p
      cases hv : (partition p).2 with
      | none =>
        rw [← h1 hv]
        exact List.prefix_refl _
      | some v =>
        conv_rhs => rw [h2 v hv]
        exact List.prefix_append _ _
    rcases h with h | ⟨_, _, _, k, hk, hp, _⟩
    · exact ⟨_, h, hpp⟩
    · exact ⟨_, hk, hpp.trans hp⟩
  induction h with
  | nil => intro s h; cases h
  | @joined p v a rest items hq hd' _ _ ih =>
    intro s hs
    rcases List.mem_cons.1 hs with rfl | hs
    · intro _ _
      rw [partition_eq hq]
      exact G hq hd'
    · exact ih s hs
  | @bare p a rest items hd' _ _ _ ih =>
    intro s hs
    rcases List.mem_cons.1 hs with rfl | hs
    · intro _ _
      exact G' hd'
    · exact ih s hs
  | @valued p v a rest items hd' _ harg _ ih =>
    intro s hs
    rcases List.mem_cons.1 hs with rfl | hs
    · intro _ _
      exact G' hd'
    · rcases List.mem_cons.1 hs with rfl | hs
      · intro hl hsp
        exfalso
        rcases harg with h | h | ⟨_, _, _, h | h⟩
        · obtain ⟨t, rfl⟩ := hl
          exact h rfl
        · subst h
          revert hl
          decide
        · obtain ⟨t, rfl⟩ := hl
          have hneg : negativeNumber digit (['-', '-'] ++ t) = false := negative_dashes hd t
          rw [hneg] at h
          cases h
        · exact hsp h
      · exact ih s hs

/-- C47: every argument with two dashes (and no space) that is accepted abbreviates or is an option
of the table of the language in force; so an option the language does not have is an error. -/
theorem unsupported_rejected (hd : digit '-' = false) {d : Dir} {argv : List Str} {ns : Namespace}
    (h : parseArgs digit d argv = .ok ns) : ∀ s ∈ argv, ['-', '-'] <+: s → ' ' ∉ s →
      ∃ e ∈ table d ns.language, (partition s).1 <+: e.1 := by
  obtain ⟨items, hs, _⟩ := accepted h
  exact spelled_named hd hs

/-- The four spellings of a switch. -/
def spellings (n : Str) : Table :=
  [("--".toList ++ n, .on n), ("--".toList ++ hyphen n, .on n), ("--no-".toList ++ n, .off n),
    ("--no-".toList ++ hyphen n, .off n)]

theorem mem_addBoolean {n : Str} {e : Str × Act} : e ∈ addBoolean n ↔ e ∈ spellings n := by
  have two_mem : ∀ {a b : Str} {act : Act}, e ∈ two a b act ↔ e = (a, act) ∨ e = (b, act) := by
    intro a b act
    unfold two
    by_cases h : a = b
    · rw [if_pos h, List.mem_singleton, ← h]
      exact ⟨.inl, fun h => h.elim id id⟩
    · rw [if_neg h]
      simp
  unfold addBoolean spellings
  rw [List.mem_append, two_mem, two_mem]
  simp only [List.mem_cons, List.not_mem_nil, or_false, or_assoc]

theorem names_agree : ∀ d, ∀ l ∈ languages,
    (∀ e ∈ booleans d l, e ∈ signature (selectClass d l)) ∧
    (∀ e ∈ signature (selectClass d l), e ∈ booleans d l) ∧
    ((booleans d l).map (·.1)).Nodup ∧ ((signature (selectClass d l)).map (·.1)).Nodup ∧
    (∀ e ∈ (initial d l).flags, e ∈ signature (selectClass d l)) ∧
    (∀ e ∈ signature (selectClass d l), e ∈ (initial d l).flags) ∧
    ((initial d l).flags.map (·.1)).Nodup ∧
    (forwarded (selectClass d l)).Nodup ∧
    (∀ n ∈ forwarded (selectClass d l), n ∈ (signature (selectClass d l)).map (·.1)) ∧
    (∀ n ∈ (signature (selectClass d l)).map (·.1), n ∈ forwarded (selectClass d l)) := by
  intro d l hl
  simp only [languages, List.mem_cons, List.not_mem_nil, or_false] at hl
  rcases hl with rfl | rfl | rfl <;> cases d <;> decide +kernel

/-- C47: the options of a direction and language are the common ones and the four spellings of each
boolean parameter of that processor's constructor, and no others. -/
theorem options_exact {d : Dir} {l : Str} (hl : l ∈ languages) (e : Str × Act) :
    e ∈ table d l ↔ e ∈ commonTable ∨
      ∃ p ∈ signature (selectClass d l), e ∈ spellings p.1 := by
  obtain ⟨h1, h2, _⟩ := names_agree d l hl
  unfold table
  rw [List.mem_append, List.mem_flatMap]
  refine or_congr Iff.rfl ⟨?_, ?_⟩
  · rintro ⟨b, hb, he⟩
    exact ⟨b, h1 b hb, mem_addBoolean.1 he⟩
  · rintro ⟨p, hp, he⟩
    exact ⟨p, h2 p hp, mem_addBoolean.2 he⟩

theorem keywords_ok {ns : Namespace} : ∀ {names : List Str},
    (∀ n ∈ names, n ∈ ns.flags.map (·.1)) → ∃ kw, keywords ns names = some kw ∧
      kw.map (·.1) = names ∧ ∀ n ∈ names, find n kw = find n ns.flags
  | [], _ => ⟨[], rfl, rfl, fun n h => (by cases h)⟩
  | n :: names, h => by
    obtain ⟨kw, hkw, hn, hf⟩ := keywords_ok (fun m hm => h m (List.mem_cons_of_mem _ hm))
    have hsome := find_isSome.2 (h n List.mem_cons_self)
    cases hv : find n ns.flags with
    | none => rw [hv] at hsome; cases hsome
    | some v =>
      refine ⟨(n, v) :: kw, by rw [keywords, hv, hkw], by rw [List.map_cons, hn], ?_⟩
      intro m hm
      simp only [find]
      by_cases hnm : n = m
      · rw [if_pos hnm, ← hnm, hv]
      · rw [if_neg hnm]
        exact hf m ((List.mem_cons.1 hm).resolve_left (fun e => hnm e.symm))

theorem bind_ok : ∀ {kw sig : List (Str × Bool)}, (kw.map (·.1)).Nodup →
    (∀ n ∈ kw.map (·.1), n ∈ sig.map (·.1)) → ∃ params, bind sig kw = some params ∧
      params.map (·.1) = sig.map (·.1) ∧ ∀ n, find n params = (find n kw).or (find n sig)
  | [], sig, _, _ => ⟨sig, rfl, rfl, fun n => rfl⟩
  | (k, v) :: kw, sig, hnd, hsub => by
    rw [List.map_cons, List.nodup_cons] at hnd
    have hk : k ∈ sig.map (·.1) := hsub k List.mem_cons_self
    have hnone : (find k kw).isNone = true := by
      cases h : find k kw with
      | none => rfl
      | some b => exact absurd (find_isSome.1 (by rw [h]; rfl)) hnd.1
    obtain ⟨params, h1, h2, h3⟩ := bind_ok (kw := kw) (sig := setFlag k v sig) hnd.2 (fun n hn => by
      rw [setFlag_names hk]
      exact hsub n (List.mem_cons_of_mem _ hn))
    refine ⟨params, ?_, by rw [h2, setFlag_names hk], fun n => ?_⟩
    · rw [bind, if_pos ⟨find_isSome.2 hk, hnone⟩, h1]
    · rw [h3, find_setFlag]
      simp only [find]
      by_cases hkn : k = n
      · subst hkn
        rw [if_pos rfl, if_pos rfl]
        cases h : find k kw with
        | none => rfl
        | some b => rw [h] at hnone; cases hnone
      · rw [if_neg hkn, if_neg hkn]

/-- C47: every accepted vector constructs the processor of its direction and language; each boolean
parameter gets the value the last switch of that name asks for, or the constructor's own default if
there is none; the cache options are forwarded. -/
theorem switches_reach {d : Dir} {argv : List Str} {ns : Namespace}
    (h : parseArgs digit d argv = .ok ns) : ∃ items call params,
      Spelled digit (table d ns.language) argv items ∧
      createProcessor d ns = some call ∧ call.cls = selectClass d ns.language ∧
      call.cacheDir = lastOr (fun i => (valueOf .cacheDir i).map some) none items ∧
      call.overwrite = items.any (fun i => i.1 = .overwrite) ∧
      bind (signature call.cls) call.kwargs = some params ∧
      ∀ n b, find n (signature call.cls) = some b →
        find n params = some (lastOr (asks n) b items) := by
  obtain ⟨items, hs, ha, hr, hl⟩ := accepted h
  obtain ⟨_, _, _, hsn, h5, h6, h7, h8, h9, h10⟩ := names_agree d ns.language hl
  obtain ⟨kw, hkw, hkn, hkf⟩ := keywords_ok (ns := ns) (names := forwarded (selectClass d ns.language))
    (fun n hn => by
      rw [hr.names]
      obtain ⟨e, he, rfl⟩ := List.mem_map.1 (h9 n hn)
      exact List.mem_map.2 ⟨e, h6 e he, rfl⟩)
  obtain ⟨params, hb, _, hpf⟩ := bind_ok (kw := kw) (sig := signature (selectClass d ns.language))
    (by rw [hkn]; exact h8) (by rw [hkn]; exact h9)
  refine ⟨items, _, params, hs, by rw [createProcessor, hkw], rfl, hr.cacheDir, ?_, hb, ?_⟩
  · have := hr.overwrite
    exact this
  · intro n b hn
    have hmem := find_some hn
    have hinit : find n (initial d ns.language).flags = some b := find_mem h7 (h6 _ hmem)
    rw [hpf, hkf n (h10 n (List.mem_map.2 ⟨_, hmem, rfl⟩)), hr.flags n b hinit]
    rfl

/-- C47: without switches every parameter has the constructor's default. -/
theorem defaults_agree (d : Dir) : ∃ ns call params, parseArgs digit d [] = .ok ns ∧
    createProcessor d ns = some call ∧ bind (signature call.cls) call.kwargs = some params ∧
    ∀ n b, find n (signature call.cls) = some b → find n params = some b := by
  obtain ⟨ns, hp, _⟩ := accepts (digit := digit) (d := d) (argv := []) (items := []) rfl .nil
    ⟨fun v h => (by cases h), fun d s h => (by cases h), fun l h => (by cases h),
      fun s t h => (by cases h)⟩
  obtain ⟨items, call, params, hs, hc, _, _, _, hb, hf⟩ := switches_reach hp
  cases hs
  exact ⟨ns, call, params, hp, hc, hb, hf⟩

/-- ASCII digits, for the examples. -/
def asciiDigit (c : Char) : Bool := '0' ≤ c && c ≤ '9'

/-- A vector with both spellings, an abbreviation, an explicit value and a later switch that wins. -/
def argvDemo : List Str :=
  ["--remove-puncts".toList, "--lang".toList, "ja".toList, "--no-remove_puncts".toList,
    "--tag_oov=TRUE".toList, "--text".toList, "-1 本".toList]

example : ((parseArgs asciiDigit .tn argvDemo).toOption.bind (createProcessor .tn)) =
    some ⟨.tnJa, none, false, [("transliterate".toList, false),
      ("remove_interjections".toList, false), ("remove_puncts".toList, false),
      ("full_to_half".toList, true), ("tag_oov".toList, true)]⟩ ∧
    ((parseArgs asciiDigit .tn argvDemo).toOption.map (·.text)) = some (some "-1 本".toList) := by
  decide +kernel

/-- `--remove_erhua` exists for Chinese only; `--remove` is ambiguous; text and file exclude each
other. -/
example : (parseArgs asciiDigit .tn ["--remove_erhua".toList, "False".toList]).toOption.isSome = true ∧
    parseArgs asciiDigit .tn ["--remove_erhua".toList, "--language=ja".toList] = .error .usage ∧
    parseArgs asciiDigit .tn ["--remove".toList] = .error .usage ∧
    parseArgs asciiDigit .tn ["--text".toList, [], "--file=f".toList] = .error .usage ∧
    parseArgs asciiDigit .itn ["--help".toList] = .error .help ∧
    parseArgs asciiDigit .itn ["--enable_million".toList, "yes".toList] = .error .usage ∧
    (parseArgs asciiDigit .tn ["--text".toList, []]).toOption.map (·.text) = some (some []) := by
  decide +kernel

/-! ## C66: switches and the cache -/

/-- The key of the bundle a processor uses: the prefix, order type and `cache_config` its
constructor passes to `build_fst` (processor.py:226-255). -/
def ident (fingerprint : Str) (builder : Cache.Json) (c : Cls6) (params : List (Str × Bool)) :
    Cache.Ident where
  namePrefix := (cacheName c).1
  ordertype := (cacheName c).2
  config := .obj ((cacheConfig c params).map (fun e => (e.1, .bool e.2)))
  fingerprint := fingerprint
  builder := builder

theorem configKeys_cover : ∀ c : Cls6, ∀ e ∈ signature c, (e.1, e.1) ∈ configKeys c := by
  intro c
  cases c <;> decide +kernel

theorem configKeys_sorted (c : Cls6) :
    (configKeys c).Pairwise (fun a b => Cache.strLt a.1 b.1 = true) := by
  cases c <;> decide +kernel

theorem cacheName_inj {c c' : Cls6} (h : (cacheName c).1 = (cacheName c').1) : c = c' := by
  revert h
  cases c <;> cases c' <;> decide +kernel

theorem mem_cacheConfig {c : Cls6} {params : List (Str × Bool)} {n : Str} {b : Bool}
    (hn : (n, n) ∈ configKeys c) (hp : find n params = some b) : (n, b) ∈ cacheConfig c params :=
  List.mem_filterMap.2 ⟨(n, n), hn, by rw [hp]; rfl⟩

theorem cacheConfig_names {c : Cls6} {params : List (Str × Bool)} :
    List.Sublist ((cacheConfig c params).map (·.1)) ((configKeys c).map (·.1)) := by
  unfold cacheConfig
  induction configKeys c with
  | nil => exact List.Sublist.slnil
  | cons k ks ih =>
    cases h : find k.2 params with
    | none =>
      rw [List.filterMap_cons_none (by rw [h]; rfl)]
      exact ih.cons _
    | some b =>
      rw [List.filterMap_cons_some (b := (k.1, b)) (by rw [h]; rfl)]
      exact ih.cons_cons _

theorem ident_ok {fp : Str} {builder : Cache.Json} (hb : Cache.Clean builder) (c : Cls6)
    (params : List (Str × Bool)) : (ident fp builder c params).Ok := by
  refine ⟨?_, hb⟩
  show Cache.Clean (.obj _)
  rw [Cache.Clean]
  constructor
  · have h1 : ((configKeys c).map (·.1)).Pairwise (fun a b => Cache.strLt a b = true) :=
      List.pairwise_map.2 (configKeys_sorted c)
    have h2 := h1.sublist (cacheConfig_names (params := params))
    unfold Cache.Sorted
    rw [List.pairwise_map]
    exact List.pairwise_map.1 h2
  · rw [Cache.cleanObj_iff]
    intro p hp
    obtain ⟨e, _, rfl⟩ := List.mem_map.1 hp
    simp [Cache.Clean]

/-- C66: processors of different classes, or with any switch set differently, have different cache
keys; with `keys_apart` they never share a bundle. -/
theorem switches_in_key {fp fp' : Str} {builder builder' : Cache.Json} {c c' : Cls6}
    {p p' : List (Str × Bool)} (hp : ∀ n ∈ (signature c).map (·.1), (find n p).isSome = true)
    (hp' : ∀ n ∈ (signature c').map (·.1), (find n p').isSome = true)
    (h : ident fp builder c p = ident fp' builder' c' p') :
    c = c' ∧ ∀ n ∈ (signature c).map (·.1), find n p = find n p' := by
  have hc : c = c' := cacheName_inj (congrArg Cache.Ident.namePrefix h)
  subst hc
  refine ⟨rfl, fun n hn => ?_⟩
  have hcfg : (cacheConfig c p).map (fun e => (e.1, Cache.Json.bool e.2)) =
      (cacheConfig c p').map (fun e => (e.1, Cache.Json.bool e.2)) := by
    have := congrArg Cache.Ident.config h
    simp only [ident] at this
    exact Cache.Json.obj.inj this
  obtain ⟨e, he, rfl⟩ := List.mem_map.1 hn
  have hk := configKeys_cover c e he
  obtain ⟨b, hb⟩ := Option.isSome_iff_exists.1 (hp e.1 hn)
  obtain ⟨b', hb'⟩ := Option.isSome_iff_exists.1 (hp' e.1 hn)
  have hm := mem_cacheConfig hk hb
  have hm' := mem_cacheConfig hk hb'
  have hnd : ((cacheConfig c p').map (·.1)).Nodup := by
    have h1 : ((configKeys c).map (·.1)).Nodup := by cases c <;> decide +kernel
    exact h1.sublist cacheConfig_names
  have hmm : (e.1, Cache.Json.bool b) ∈ (cacheConfig c p').map (fun e => (e.1, Cache.Json.bool e.2)) := by
    rw [← hcfg]
    exact List.mem_map.2 ⟨_, hm, rfl⟩
  obtain ⟨x, hx, hxe⟩ := List.mem_map.1 hmm
  obtain ⟨x1, x2⟩ := x
  cases hxe
  have e1 := find_mem hnd hx
  have e2 := find_mem hnd hm'
  rw [e1] at e2
  cases e2
  rw [hb, hb']

/-- C66 on paths: if SHA-256 tells the two keys apart, the bundles are in different directories. -/
theorem switches_apart {H : Cache.Bytes → Str} {fp fp' : Str} {builder builder' : Cache.Json}
    (hb : Cache.Clean builder) (hb' : Cache.Clean builder') {c c' : Cls6}
    {p p' : List (Str × Bool)} (hp : ∀ n ∈ (signature c).map (·.1), (find n p).isSome = true)
    (hp' : ∀ n ∈ (signature c').map (·.1), (find n p').isSome = true)
    (hH : Cache.Distinguishes H (ident fp builder c p) (ident fp' builder' c' p'))
    (hne : c ≠ c' ∨ ∃ n ∈ (signature c).map (·.1), find n p ≠ find n p') :
    (ident fp builder c p).path H ≠ (ident fp' builder' c' p').path H := by
  refine (Cache.keys_apart (ident_ok hb c p) (ident_ok hb' c' p') hH ?_).2
  intro h
  obtain ⟨h1, h2⟩ := switches_in_key hp hp' h
  rcases hne with h3 | ⟨n, hn, h3⟩
  · exact h3 h1
  · exact h3 (h2 n hn)

example : cacheConfig .itnZh (signature .itnZh) =
    [("enable_0_to_9".toList, false), ("enable_million".toList, false),
      ("enable_standalone_number".toList, true), ("remove_interjections".toList, true)] := by
  decide +kernel

example : ∀ n ∈ (signature .tnJa).map (·.1), (find n (signature .tnJa)).isSome = true := by
  decide +kernel

/-- A run over a file with an empty line. -/
example : run asciiDigit
    (fun _ _ => .ok ⟨fun s => .ok ('<' :: s), fun s => .ok (s ++ ['>']), fun _ _ => none⟩)
    (fun _ => ⟨["一\n".toList, "\r\n".toList, "二".toList], none⟩) ⟨[], none⟩ .tn
    ["--file=f".toList] =
    (["<一".toList, "<一>".toList, "<".toList, "<>".toList, "<二".toList, "<二>".toList], none) := by
  decide +kernel

end Verif.Cli
