import Verif.Cli.Parse

/-
The parser accepts exactly the vectors that spell acceptable items, and computes their result.
-/

namespace Verif.Cli

variable {digit : Char → Bool} {tbl : Table}

/-- Taking the actions of a list of items. -/
def applyItems : List (Act × Option Str) → Namespace → Except Stop Namespace
  | [], ns => .ok ns
  | (a, v) :: rest, ns =>
    match takeAction ns a v with
    | .ok ns' => applyItems rest ns'
    | .error e => .error e

theorem applyItems_cons {a : Act} {v : Option Str} {items ns ns'} :
    applyItems ((a, v) :: items) ns = .ok ns' ↔
      ∃ m, takeAction ns a v = .ok m ∧ applyItems items m = .ok ns' := by
  rw [applyItems]
  cases h : takeAction ns a v with
  | ok m => exact ⟨fun h => ⟨m, rfl, h⟩, fun ⟨_, e, h⟩ => (by cases e; exact h)⟩
  | error e => exact ⟨fun h => (by cases h), fun ⟨_, e, _⟩ => (by cases e)⟩

/-- At least two long options, so that `--` abbreviates none. -/
def TwoLong (tbl : Table) : Prop :=
  ∃ e ∈ tbl, ∃ f ∈ tbl, ['-', '-'] <+: e.1 ∧ ['-', '-'] <+: f.1 ∧ e ≠ f

theorem classify_cons {s : Str} {rest cs} (hs : s ≠ ['-', '-'])
    (h : classify digit tbl (s :: rest) = .ok cs) :
    ∃ c cs', parseOptional digit tbl s = .ok c ∧ classify digit tbl rest = .ok cs' ∧
      cs = (s, c) :: cs' := by
  rw [classify, if_neg hs] at h
  cases hp : parseOptional digit tbl s with
  | error e => rw [hp] at h; cases h
  | ok c =>
    rw [hp] at h
    simp only [] at h
    cases hc : classify digit tbl rest with
    | error e => rw [hc] at h; cases h
    | ok cs' =>
      rw [hc] at h
      cases h
      exact ⟨c, cs', rfl, rfl, rfl⟩

theorem classify_cons_ok {s : Str} {rest c cs'} (hs : s ≠ ['-', '-'])
    (hp : parseOptional digit tbl s = .ok c) (hc : classify digit tbl rest = .ok cs') :
    classify digit tbl (s :: rest) = .ok ((s, c) :: cs') := by
  rw [classify, if_neg hs, hp]
  simp only [hc]

theorem loop_extra {s : Str} {c : Cls} {rest ns ns' ex}
    (hc : c = .arg ∨ c = .dashes ∨ ∃ x j, c = .opt none x j)
    (h : loop ((s, c) :: rest) ns = .ok (ns', ex)) : ∃ ex', ex = s :: ex' ∧
      loop rest ns = .ok (ns', ex') := by
  rcases hc with rfl | rfl | ⟨x, j, rfl⟩
  all_goals
    simp only [loop] at h
    cases hl : loop rest ns with
    | error e => rw [hl] at h; cases h
    | ok r =>
      rw [hl] at h
      cases h
      exact ⟨_, rfl, rfl⟩

theorem loop_joined {s v : Str} {a : Act} {j : Bool} {rest ns r}
    (h : loop ((s, .opt (some a) (some v) j) :: rest) ns = .ok r) :
    a.arity ≠ .zero ∧ ∃ m, takeAction ns a (some v) = .ok m ∧ loop rest m = .ok r := by
  simp only [loop] at h
  by_cases ha : a.arity = .zero
  · rw [if_pos ha] at h; cases h
  · rw [if_neg ha] at h
    refine ⟨ha, ?_⟩
    cases ht : takeAction ns a (some v) with
    | error e => rw [ht] at h; cases h
    | ok m => rw [ht] at h; exact ⟨m, rfl, h⟩

theorem loop_joined_ok {s v : Str} {a : Act} {j : Bool} {rest ns m}
    (ha : a.arity ≠ .zero) (ht : takeAction ns a (some v) = .ok m) :
    loop ((s, .opt (some a) (some v) j) :: rest) ns = loop rest m := by
  simp only [loop]
  rw [if_neg ha, ht]

theorem loop_valued {s t : Str} {a : Act} {j : Bool} {rest ns r}
    (h : loop ((s, .opt (some a) none j) :: (t, .arg) :: rest) ns = .ok r) :
    (a.arity = .zero ∧ ∃ ex, r.2 = t :: ex ∧ ∃ m, takeAction ns a none = .ok m ∧
      loop rest m = .ok (r.1, ex)) ∨
    a.arity ≠ .zero ∧ ∃ m, takeAction ns a (some t) = .ok m ∧ loop rest m = .ok r := by
  simp only [loop] at h
  by_cases ha : a.arity = .zero
  · rw [if_pos ha] at h
    refine .inl ⟨ha, ?_⟩
    cases ht : takeAction ns a none with
    | error e => rw [ht] at h; cases h
    | ok m =>
      rw [ht] at h
      simp only [] at h
      cases hl : loop rest m with
      | error e => rw [hl] at h; cases h
      | ok q =>
        rw [hl] at h
        cases h
        exact ⟨_, rfl, m, rfl, hl⟩
  · rw [if_neg ha] at h
    refine .inr ⟨ha, ?_⟩
    cases ht : takeAction ns a (some t) with
    | error e => rw [ht] at h; cases h
    | ok m => rw [ht] at h; exact ⟨m, rfl, h⟩

theorem loop_valued_ok {s t : Str} {a : Act} {j : Bool} {rest ns m}
    (ha : a.arity ≠ .zero) (ht : takeAction ns a (some t) = .ok m) :
    loop ((s, .opt (some a) none j) :: (t, .arg) :: rest) ns = loop rest m := by
  simp only [loop]
  rw [if_neg ha, ht]

/-- The first class of a list is not `arg`. -/
def NoArg (cs : List (Str × Cls)) : Prop := ∀ e, cs.head? = some e → e.2 ≠ .arg

theorem loop_bare_one {s : Str} {a : Act} {j : Bool} {rest ns} (hn : NoArg rest)
    (ha : a.arity = .one) : loop ((s, .opt (some a) none j) :: rest) ns = .error .usage := by
  match rest, hn with
  | [], _ => simp only [loop]; rw [if_pos ha]
  | (t, .arg) :: rest, hn => exact absurd rfl (hn _ rfl)
  | (t, .dashes) :: rest, _ =>
    conv_lhs => unfold loop
    rw [if_pos ha]
  | (t, .opt x y z) :: rest, _ =>
    conv_lhs => unfold loop
    rw [if_pos ha]

theorem loop_bare_ok {s : Str} {a : Act} {j : Bool} {rest ns m} (hn : NoArg rest)
    (ha : a.arity ≠ .one) (ht : takeAction ns a none = .ok m) :
    loop ((s, .opt (some a) none j) :: rest) ns = loop rest m := by
  match rest, hn with
  | [], _ => simp only [loop]; rw [if_neg ha, ht]
  | (t, .arg) :: rest, hn => exact absurd rfl (hn _ rfl)
  | (t, .dashes) :: rest, _ =>
    conv_lhs => unfold loop
    rw [if_neg ha, ht]
  | (t, .opt x y z) :: rest, _ =>
    conv_lhs => unfold loop
    rw [if_neg ha, ht]

theorem loop_bare_error {s : Str} {a : Act} {j : Bool} {rest ns e} (hn : NoArg rest)
    (ha : a.arity ≠ .one) (ht : takeAction ns a none = .error e) :
    loop ((s, .opt (some a) none j) :: rest) ns = .error e := by
  match rest, hn with
  | [], _ => simp only [loop]; rw [if_neg ha, ht]
  | (t, .arg) :: rest, hn => exact absurd rfl (hn _ rfl)
  | (t, .dashes) :: rest, _ =>
    conv_lhs => unfold loop
    rw [if_neg ha, ht]
  | (t, .opt x y z) :: rest, _ =>
    conv_lhs => unfold loop
    rw [if_neg ha, ht]

theorem loop_bare {s : Str} {a : Act} {j : Bool} {rest ns r} (hn : NoArg rest)
    (h : loop ((s, .opt (some a) none j) :: rest) ns = .ok r) :
    a.arity ≠ .one ∧ ∃ m, takeAction ns a none = .ok m ∧ loop rest m = .ok r := by
  by_cases ha : a.arity = .one
  · rw [loop_bare_one hn ha] at h; cases h
  · refine ⟨ha, ?_⟩
    cases ht : takeAction ns a none with
    | error e => rw [loop_bare_error hn ha ht] at h; cases h
    | ok m => rw [loop_bare_ok hn ha ht] at h; exact ⟨m, rfl, h⟩

theorem argument_ne {s : Str} (h : Argument digit tbl s) : s ≠ ['-', '-'] := by
  rintro rfl
  rcases h with h | h | h
  · exact h rfl
  · cases h
  · exact h.1 rfl

/-- What the parser accepts is spelled by items. -/
theorem spelled_of_parse (G : Good tbl) (T : TwoLong tbl) : ∀ (n : Nat) (argv : List Str),
    argv.length ≤ n → ∀ cs ns ns', classify digit tbl argv = .ok cs → loop cs ns = .ok (ns', []) →
    ∃ items, Spelled digit tbl argv items ∧ applyItems items ns = .ok ns' := by
  intro n
  induction n with
  | zero =>
    intro argv hn cs ns ns' hc hl
    have : argv = [] := List.length_eq_zero_iff.1 (Nat.le_zero.1 hn)
    subst this
    cases hc
    rw [loop] at hl
    cases hl
    exact ⟨[], .nil, rfl⟩
  | succ n ih =>
    intro argv hn cs ns ns' hc hl
    cases argv with
    | nil =>
      cases hc
      rw [loop] at hl
      cases hl
      exact ⟨[], .nil, rfl⟩
    | cons s rest =>
      have hn' : rest.length ≤ n := by simp at hn; omega
      by_cases hs : s = ['-', '-']
      · rw [classify, if_pos hs] at hc
        cases hc
        obtain ⟨_, e, _⟩ := loop_extra (.inr (.inl rfl)) hl
        cases e
      · obtain ⟨c, cs', hp, hc', rfl⟩ := classify_cons hs hc
        rcases parseOptional_opt G hs hp with ⟨rfl, _⟩ | rfl | ⟨a, rfl, hd⟩ |
          ⟨p, v, a, rfl, hq, rfl, hd⟩ | ⟨v, rfl⟩
        · obtain ⟨_, e, _⟩ := loop_extra (.inl rfl) hl
          cases e
        · obtain ⟨_, e, _⟩ := loop_extra (.inr (.inr ⟨_, _, rfl⟩)) hl
          cases e
        · by_cases hna : NoArg cs'
          · obtain ⟨har, m, hm, hl'⟩ := loop_bare hna hl
            obtain ⟨items, hi, hap⟩ := ih rest hn' cs' m ns' hc' hl'
            refine ⟨(a, none) :: items, .bare hd har ?_ hi, applyItems_cons.2 ⟨m, hm, hap⟩⟩
            intro v hv harg
            cases rest with
            | nil => cases hv
            | cons v' rest' =>
              cases hv
              obtain ⟨c, cs'', hp', _, rfl⟩ := classify_cons (argument_ne harg) hc'
              rw [parseOptional_arg G harg] at hp'
              cases hp'
              exact hna _ rfl rfl
          · cases rest with
            | nil =>
              cases hc'
              exact absurd (fun e h => by cases h) hna
            | cons t rest' =>
              by_cases ht : t = ['-', '-']
              · rw [classify, if_pos ht] at hc'
                cases hc'
                exact absurd (fun e h => by cases h; intro h; cases h) hna
              · obtain ⟨c, cs'', hp', hc'', rfl⟩ := classify_cons ht hc'
                have hcarg : c = .arg := by
                  by_contra hne
                  exact hna (fun e h => by cases h; exact hne)
                subst hcarg
                have harg : Argument digit tbl t := by
                  rcases parseOptional_opt G ht hp' with ⟨_, h⟩ | h | ⟨a, h, _⟩ |
                    ⟨p, v, a, _, _, h, _⟩ | ⟨v, h⟩
                  · exact h
                  all_goals cases h
                rcases loop_valued hl with ⟨_, _, e, _⟩ | ⟨har, m, hm, hl'⟩
                · cases e
                · obtain ⟨items, hi, hap⟩ := ih rest' (by simp at hn; omega) cs'' m ns' hc'' hl'
                  exact ⟨(a, some t) :: items, .valued hd har harg hi,
                    applyItems_cons.2 ⟨m, hm, hap⟩⟩
        · rcases hd with hd | ⟨_, k, hu⟩
          · obtain ⟨har, m, hm, hl'⟩ := loop_joined hl
            obtain ⟨items, hi, hap⟩ := ih rest hn' cs' m ns' hc' hl'
            exact ⟨(a, some v) :: items, .joined hq hd har hi, applyItems_cons.2 ⟨m, hm, hap⟩⟩
          · obtain ⟨e, he, f, hf, h1, h2, hne⟩ := T
            exact absurd ((hu e he h1).trans (hu f hf h2).symm) hne
        · exact absurd rfl (loop_joined hl).1

/-- Items that are spelled are parsed. -/
theorem parse_of_spelled (G : Good tbl) {argv : List Str} {items : List (Act × Option Str)}
    (h : Spelled digit tbl argv items) : ∃ cs, classify digit tbl argv = .ok cs ∧ NoArg cs ∧
      ∀ ns ns', applyItems items ns = .ok ns' → loop cs ns = .ok (ns', []) := by
  induction h with
  | nil => exact ⟨[], rfl, fun e h => (by cases h), fun ns ns' h => (by cases h; rw [loop])⟩
  | @joined p v a rest items hq hd har _ ih =>
    obtain ⟨cs, hc, hna, hl⟩ := ih
    have hne : p ++ '=' :: v ≠ ['-', '-'] := by
      intro e
      have : '=' ∈ ['-', '-'] := e ▸ List.mem_append_right _ List.mem_cons_self
      revert this
      decide
    refine ⟨_, classify_cons_ok hne (parseOptional_joined G hd) hc,
      fun e h => (by cases h; intro h; cases h), ?_⟩
    intro ns ns' hap
    obtain ⟨m, hm, hap'⟩ := applyItems_cons.1 hap
    rw [loop_joined_ok har hm]
    exact hl m ns' hap'
  | @bare p a rest items hd har _ _ ih =>
    obtain ⟨cs, hc, hna, hl⟩ := ih
    refine ⟨_, classify_cons_ok (designates_head G hd).2.2 (parseOptional_bare G hd) hc,
      fun e h => (by cases h; intro h; cases h), ?_⟩
    intro ns ns' hap
    obtain ⟨m, hm, hap'⟩ := applyItems_cons.1 hap
    rw [loop_bare_ok hna har hm]
    exact hl m ns' hap'
  | @valued p v a rest items hd har harg _ ih =>
    obtain ⟨cs, hc, hna, hl⟩ := ih
    refine ⟨_, classify_cons_ok (designates_head G hd).2.2 (parseOptional_bare G hd)
      (classify_cons_ok (argument_ne harg) (parseOptional_arg G harg) hc),
      fun e h => (by cases h; intro h; cases h), ?_⟩
    intro ns ns' hap
    obtain ⟨m, hm, hap'⟩ := applyItems_cons.1 hap
    rw [loop_valued_ok har hm]
    exact hl m ns' hap'

/-! ### The effect of items -/

theorem lastOr_nil {f : α → Option β} {d : β} : lastOr f d [] = d := rfl

theorem lastOr_cons {f : α → Option β} {d : β} {x : α} {l : List α} :
    lastOr f d (x :: l) = lastOr f ((f x).getD d) l := by
  unfold lastOr
  cases hf : f x with
  | none => simp [hf]
  | some b =>
    rw [List.filterMap_cons_some hf, List.getLast?_cons]
    rfl

theorem setFlag_names {d : Str} {v : Bool} {l : List (Str × Bool)} (h : d ∈ l.map (·.1)) :
    (setFlag d v l).map (·.1) = l.map (·.1) := by
  induction l with
  | nil => cases h
  | cons e l ih =>
    obtain ⟨k, w⟩ := e
    simp only [setFlag]
    by_cases hk : k = d
    · rw [if_pos hk]; rfl
    · rw [if_neg hk, List.map_cons, List.map_cons, ih]
      exact (List.mem_cons.1 h).resolve_left (fun e => hk e.symm)

theorem find_setFlag {d e : Str} {v : Bool} {l : List (Str × Bool)} :
    find e (setFlag d v l) = if d = e then some v else find e l := by
  induction l with
  | nil => simp only [setFlag, find]
  | cons x l ih =>
    obtain ⟨k, w⟩ := x
    simp only [setFlag]
    by_cases hk : k = d
    · subst hk
      rw [if_pos rfl]
      by_cases hke : k = e
      · simp only [find, if_pos hke]
      · simp only [find, if_neg hke]
    · rw [if_neg hk]
      simp only [find, ih]
      by_cases hke : k = e
      · rw [if_pos hke, if_pos hke, if_neg]
        rintro rfl
        exact hk hke
      · rw [if_neg hke, if_neg hke]

/-- The names a switch may have. -/
def Switches (items : List (Act × Option Str)) (names : List Str) : Prop :=
  ∀ d v, (Act.on d, v) ∈ items ∨ (Act.off d, v) ∈ items → d ∈ names

/-- Items have the right number of arguments. -/
def Shaped (items : List (Act × Option Str)) : Prop :=
  ∀ i ∈ items, (i.2 = none → i.1.arity ≠ .one) ∧ (i.2 ≠ none → i.1.arity ≠ .zero)

theorem spelled_shaped {argv : List Str} {items : List (Act × Option Str)}
    (h : Spelled digit tbl argv items) : Shaped items ∧ ∀ i ∈ items, ∃ k, (k, i.1) ∈ tbl := by
  have named : ∀ {p a}, Designates tbl p a → ∃ k, (k, a) ∈ tbl := by
    rintro p a (h | ⟨_, _, _, k, hk, _⟩)
    · exact ⟨_, h⟩
    · exact ⟨k, hk⟩
  induction h with
  | nil => exact ⟨fun i h => (by cases h), fun i h => (by cases h)⟩
  | joined _ hd har _ ih =>
    refine ⟨fun i hi => ?_, fun i hi => ?_⟩
    · rcases List.mem_cons.1 hi with rfl | hi
      · exact ⟨fun h => (by cases h), fun _ => har⟩
      · exact ih.1 i hi
    · rcases List.mem_cons.1 hi with rfl | hi
      · exact named hd
      · exact ih.2 i hi
  | bare hd har _ _ ih =>
    refine ⟨fun i hi => ?_, fun i hi => ?_⟩
    · rcases List.mem_cons.1 hi with rfl | hi
      · exact ⟨fun _ => har, fun h => absurd rfl h⟩
      · exact ih.1 i hi
    · rcases List.mem_cons.1 hi with rfl | hi
      · exact named hd
      · exact ih.2 i hi
  | valued hd har _ _ ih =>
    refine ⟨fun i hi => ?_, fun i hi => ?_⟩
    · rcases List.mem_cons.1 hi with rfl | hi
      · exact ⟨fun h => (by cases h), fun _ => har⟩
      · exact ih.1 i hi
    · rcases List.mem_cons.1 hi with rfl | hi
      · exact named hd
      · exact ih.2 i hi

theorem parseBool_ok {s : Str} {b : Bool} : parseBool s = .ok b ↔ Says s b := by
  unfold parseBool Says
  by_cases ht : s.map lower = "true".toList
  · rw [if_pos ht]
    cases b with
    | true => exact ⟨fun _ => ht, fun _ => rfl⟩
    | false =>
      refine ⟨fun h => (by cases h), fun h => ?_⟩
      rw [ht] at h
      revert h
      decide
  · rw [if_neg ht]
    by_cases hf : s.map lower = "false".toList
    · rw [if_pos hf]
      cases b with
      | true => exact ⟨fun h => (by cases h), fun h => absurd h ht⟩
      | false => exact ⟨fun _ => hf, fun _ => rfl⟩
    · rw [if_neg hf]
      refine ⟨fun h => (by cases h), fun h => ?_⟩
      cases b with
      | true => exact absurd h ht
      | false => exact absurd h hf

theorem says_true {s : Str} {b : Bool} (h : Says s b) : (decide (s.map lower = "true".toList)) = b := by
  unfold Says at h
  cases b with
  | true => exact decide_eq_true h
  | false =>
    rw [h]
    decide

end Verif.Cli
