import Verif.Cli.Effect

/-
The six tables, and the parser that only looks for the language.
-/

namespace Verif.Cli

variable {digit : Char → Bool}

/-- A language other than these two has the table of English. -/
theorem booleans_cases (d : Dir) (l : Str) : booleans d l = booleans d "zh".toList ∨
    booleans d l = booleans d "ja".toList ∨ booleans d l = booleans d "en".toList := by
  by_cases hz : l = "zh".toList
  · subst hz; exact .inl rfl
  · by_cases hj : l = "ja".toList
    · subst hj; exact .inr (.inl rfl)
    · refine .inr (.inr ?_)
      cases d with
      | tn =>
        simp only [booleans]
        rw [if_neg hz, if_neg hj]
        rfl
      | itn =>
        simp only [booleans]
        rw [if_neg hz, if_neg hj, if_neg (by rintro (h | h); exacts [hz h, hj h])]
        rfl

/-- What the proofs need of a table. -/
structure Fine (tbl : Table) : Prop extends Good tbl where
  two' : TwoLong tbl
  lang : ("--language".toList, Act.language) ∈ tbl
  only : ∀ e ∈ tbl, e.2 = .language → e.1 = "--language".toList
  free : ∀ e ∈ tbl, e.1 <+: "--language".toList → e.2 = .language

theorem table_fine (d : Dir) (l : Str) : Fine (table d l) := by
  have key : ∀ d, ∀ l ∈ languages, Fine (table d l) := by
    intro d l hl
    simp only [languages, List.mem_cons, List.not_mem_nil, or_false] at hl
    have two : TwoLong (table d l) := by
      refine ⟨("--text".toList, .text), ?_, ("--file".toList, .file), ?_, by decide +kernel, by decide +kernel,
        by decide +kernel⟩
      · exact List.mem_append_left _ (by decide +kernel)
      · exact List.mem_append_left _ (by decide +kernel)
    rcases hl with rfl | rfl | rfl <;> cases d <;>
      exact ⟨⟨by decide +kernel, by decide +kernel, by decide +kernel, by decide +kernel,
        by decide +kernel, by decide +kernel⟩, two, by decide +kernel, by decide +kernel,
        by decide +kernel⟩
  rcases booleans_cases d l with h | h | h
  · have : table d l = table d "zh".toList := by unfold table; rw [h]
    rw [this]
    exact key d _ (by decide +kernel)
  · have : table d l = table d "ja".toList := by unfold table; rw [h]
    rw [this]
    exact key d _ (by decide +kernel)
  · have : table d l = table d "en".toList := by unfold table; rw [h]
    rw [this]
    exact key d _ (by decide +kernel)

/-- The table of `_selected_language`. -/
abbrev pre : Table := [("--language".toList, .language)]

theorem pre_good : Good pre :=
  ⟨by decide +kernel, by decide +kernel, by decide +kernel, by decide +kernel, by decide +kernel,
    by decide +kernel⟩

/-- The classes the language parser gives. -/
theorem pre_class {s : Str} (hs : s ≠ ['-', '-']) : ∃ c, parseOptional digit pre s = .ok c ∧
    (c = .arg ∨ c = .opt none none false ∨
      (c = .opt (some .language) none false ∧ s <+: "--language".toList ∧ ['-', '-'] <+: s) ∨
      (∃ p v, s = p ++ '=' :: v ∧ '=' ∉ p ∧ c = .opt (some .language) (some v) false ∧
        p <+: "--language".toList ∧ ['-', '-'] <+: p)) := by
  have hnoerr : ∀ e, parseOptional digit pre s ≠ .error e := by
    intro e he
    rw [parseOptional] at he
    split at he
    · cases he
    · split at he
      · cases he
      · split at he
        · cases he
        · split at he
          · cases he
          · split at he
            · cases he
            · rename_i h
              have hlen : (optionTuples pre s).length ≤ 1 := by
                unfold optionTuples
                split
                · rw [List.length_map]; exact List.length_filter_le _ _
                · rw [List.length_map]; exact List.length_filter_le _ _
              rw [h] at hlen
              simp at hlen
            · split at he
              · cases he
              · split at he <;> cases he
  cases hp : parseOptional digit pre s with
  | error e => exact absurd hp (hnoerr e)
  | ok c =>
    refine ⟨c, rfl, ?_⟩
    have hdes : ∀ {p a}, Designates pre p a → a = .language ∧ p <+: "--language".toList ∧
        ['-', '-'] <+: p := by
      rintro p a (h | ⟨_, h2, _, k, hk, hp, _⟩)
      · have := List.mem_singleton.1 h
        cases this
        exact ⟨rfl, List.prefix_refl _, by decide +kernel⟩
      · have := List.mem_singleton.1 hk
        cases this
        exact ⟨rfl, hp, h2⟩
    rcases parseOptional_opt pre_good hs hp with ⟨rfl, _⟩ | rfl | ⟨a, rfl, hd⟩ |
      ⟨p, v, a, rfl, hq, rfl, hd⟩ | ⟨v, rfl⟩
    · exact .inl rfl
    · exact .inr (.inl rfl)
    · obtain ⟨rfl, h1, h2⟩ := hdes hd
      exact .inr (.inr (.inl ⟨rfl, h1, h2⟩))
    · rcases hd with hd | ⟨rfl, k, hu⟩
      · obtain ⟨rfl, h1, h2⟩ := hdes hd
        exact .inr (.inr (.inr ⟨p, v, rfl, hq, rfl, h1, h2⟩))
      · have := hu _ List.mem_cons_self (by decide +kernel)
        cases this
        exact .inr (.inr (.inr ⟨_, v, rfl, hq, rfl, by decide +kernel, by decide +kernel⟩))
    · exfalso
      -- a joined short option would need a string of two characters in the table
      rw [parseOptional] at hp
      have hT : ∀ t ∈ optionTuples pre s, t.2.2 = false := by
        intro t ht
        unfold optionTuples at ht
        split at ht
        · obtain ⟨e, _, rfl⟩ := List.mem_map.1 ht
          rfl
        · obtain ⟨e, he, rfl⟩ := List.mem_map.1 ht
          have he := (List.mem_filter.1 he).1
          have he := List.mem_singleton.1 he
          subst he
          rw [if_neg]
          intro h
          have := congrArg List.length h
          rw [List.length_take] at this
          have h10 : "--language".toList.length = 10 := by decide
          simp only [h10] at this
          omega
      split at hp
      · cases hp
      · split at hp
        · cases hp
        · split at hp
          · cases hp
          · split at hp
            · cases hp
            · split at hp
              · rename_i t h
                have := hT t (by rw [h]; exact List.mem_cons_self)
                rw [this] at hp
                simp at hp
              · cases hp
              · split at hp
                · cases hp
                · split at hp <;> cases hp

theorem eq_split {p q v w : Str} (hp : '=' ∉ p) (hq : '=' ∉ q)
    (h : p ++ '=' :: v = q ++ '=' :: w) : p = q ∧ v = w := by
  have h1 := partition_eq (v := v) hp
  have h2 := partition_eq (v := w) hq
  rw [h, h2] at h1
  cases h1
  exact ⟨rfl, rfl⟩

theorem loop_extra_ok {s : Str} {c : Cls} {rest ns ns' ex}
    (hc : c = .arg ∨ c = .opt none none false)
    (h : loop rest ns = .ok (ns', ex)) : loop ((s, c) :: rest) ns = .ok (ns', s :: ex) := by
  rcases hc with rfl | rfl
  · simp only [loop, h]
  · simp only [loop, h]

theorem designates_language {tbl : Table} (F : Fine tbl) {p : Str}
    (h : Designates tbl p .language) : Designates pre p .language := by
  rcases h with h | ⟨h1, h2, h3, k, hk, hp, _⟩
  · have := F.only _ h rfl
    subst this
    exact .inl List.mem_cons_self
  · have := F.only _ hk rfl
    subst this
    refine .inr ⟨fun b hb => ?_, h2, h3, _, List.mem_cons_self, hp, fun e he _ =>
      List.mem_singleton.1 he⟩
    have hb := List.mem_singleton.1 hb
    cases hb
    exact h1 _ F.lang

theorem designates_other {tbl : Table} (F : Fine tbl) {p : Str} {a : Act}
    (h : Designates tbl p a) (ha : a ≠ .language) : ¬ p <+: "--language".toList := by
  intro hp
  rcases h with h | ⟨h1, h2, h3, k, hk, hp', hu⟩
  · exact ha (F.free _ h hp)
  · have := hu _ F.lang hp
    cases this
    exact ha rfl

/-- The language parser sees the languages that the items set, and nothing else. -/
theorem pre_parse {tbl : Table} (F : Fine tbl) {argv : List Str}
    {items : List (Act × Option Str)} (h : Spelled digit tbl argv items)
    (hk : ∀ l, (Act.language, some l) ∈ items → l ∈ languages) :
    ∃ cs, classify digit pre argv = .ok cs ∧ ∀ ns, ∃ ns' ex, loop cs ns = .ok (ns', ex) ∧
      ns'.language = lastOr (valueOf .language) ns.language items := by
  have G : Good tbl := F.toGood
  -- a name of another option is no option of the language parser
  have other : ∀ {p a}, Designates tbl p a → a ≠ .language → ∃ c,
      parseOptional digit pre p = .ok c ∧ (c = .arg ∨ c = .opt none none false) := by
    intro p a hd ha
    obtain ⟨c, hc, hcs⟩ := pre_class (digit := digit) (designates_head G hd).2.2
    refine ⟨c, hc, ?_⟩
    rcases hcs with h | h | ⟨_, h, _⟩ | ⟨q, v, e, _⟩
    · exact .inl h
    · exact .inr h
    · exact absurd h (designates_other F hd ha)
    · exact absurd (e ▸ List.mem_append_right _ List.mem_cons_self) (designates_noEq G hd)
  have otherEq : ∀ {p v a}, Designates tbl p a → a ≠ .language → ∃ c,
      parseOptional digit pre (p ++ '=' :: v) = .ok c ∧ (c = .arg ∨ c = .opt none none false) := by
    intro p v a hd ha
    have hne : p ++ '=' :: v ≠ ['-', '-'] := by
      intro e
      have : '=' ∈ ['-', '-'] := e ▸ List.mem_append_right _ List.mem_cons_self
      revert this
      decide
    obtain ⟨c, hc, hcs⟩ := pre_class (digit := digit) hne
    refine ⟨c, hc, ?_⟩
    rcases hcs with h | h | ⟨_, h, _⟩ | ⟨q, w, e, hq, _, h, _⟩
    · exact .inl h
    · exact .inr h
    · exfalso
      have : '=' ∈ "--language".toList := h.subset (List.mem_append_right _ List.mem_cons_self)
      revert this
      decide
    · obtain ⟨rfl, rfl⟩ := eq_split (designates_noEq G hd) hq e
      exact absurd h (designates_other F hd ha)
  have value : ∀ {v}, Argument digit tbl v → ∃ c,
      parseOptional digit pre v = .ok c ∧ (c = .arg ∨ c = .opt none none false) := by
    intro v hv
    obtain ⟨c, hc, hcs⟩ := pre_class (digit := digit) (argument_ne hv)
    refine ⟨c, hc, ?_⟩
    have hcontra : ['-', '-'] <+: v → (partition v).1 <+: "--language".toList → False := by
      intro h1 h2
      rcases hv with hv | hv | ⟨_, hv, _⟩
      · obtain ⟨t, rfl⟩ := h1
        exact hv rfl
      · subst hv
        revert h1
        decide
      · exact hv h1 _ F.lang h2
    rcases hcs with h | h | ⟨_, h, h2⟩ | ⟨q, w, e, hq, _, h, h2⟩
    · exact .inl h
    · exact .inr h
    · exfalso
      refine hcontra h2 ?_
      rw [partition_none]
      · exact h
      · intro hm
        have := h.subset hm
        revert this
        decide
    · exfalso
      refine hcontra (e ▸ h2.trans (List.prefix_append _ _)) ?_
      rw [e, partition_eq hq]
      exact h
  have hother : ∀ {a v}, a ≠ Act.language → valueOf .language (a, v) = none := by
    intro a v ha
    unfold valueOf
    rw [if_neg ha]
  induction h with
  | nil => exact ⟨[], rfl, fun ns => ⟨ns, [], by rw [loop], rfl⟩⟩
  | @joined p v a rest items hq hd har _ ih =>
    obtain ⟨cs, hc, hl⟩ := ih (fun l hm => hk l (List.mem_cons_of_mem _ hm))
    have hne : p ++ '=' :: v ≠ ['-', '-'] := by
      intro e
      have : '=' ∈ ['-', '-'] := e ▸ List.mem_append_right _ List.mem_cons_self
      revert this
      decide
    by_cases ha : a = .language
    · subst ha
      refine ⟨_, classify_cons_ok hne (parseOptional_joined pre_good (designates_language F hd)) hc,
        fun ns => ?_⟩
      have hv := hk v List.mem_cons_self
      obtain ⟨ns', ex, h1, h2⟩ := hl { ns with language := v }
      refine ⟨ns', ex, ?_, ?_⟩
      · rw [loop_joined_ok har (m := { ns with language := v })]
        · exact h1
        · simp only [takeAction]
          rw [if_pos hv]
      · rw [h2, lastOr_cons]
        rfl
    · obtain ⟨c, hp, hcc⟩ := otherEq (v := v) hd ha
      refine ⟨_, classify_cons_ok hne hp hc, fun ns => ?_⟩
      obtain ⟨ns', ex, h1, h2⟩ := hl ns
      refine ⟨ns', _, loop_extra_ok hcc h1, ?_⟩
      rw [h2, lastOr_cons, hother ha]
      rfl
  | @bare p a rest items hd har _ _ ih =>
    obtain ⟨cs, hc, hl⟩ := ih (fun l hm => hk l (List.mem_cons_of_mem _ hm))
    have ha : a ≠ .language := by
      rintro rfl
      exact har rfl
    obtain ⟨c, hp, hcc⟩ := other hd ha
    refine ⟨_, classify_cons_ok (designates_head G hd).2.2 hp hc, fun ns => ?_⟩
    obtain ⟨ns', ex, h1, h2⟩ := hl ns
    refine ⟨ns', _, loop_extra_ok hcc h1, ?_⟩
    rw [h2, lastOr_cons, hother ha]
    rfl
  | @valued p v a rest items hd har harg _ ih =>
    obtain ⟨cs, hc, hl⟩ := ih (fun l hm => hk l (List.mem_cons_of_mem _ hm))
    by_cases ha : a = .language
    · subst ha
      have hv := hk v List.mem_cons_self
      have hpv : parseOptional digit pre v = .ok .arg := by
        rw [parseOptional, if_pos]
        simp only [languages, List.mem_cons, List.not_mem_nil, or_false] at hv
        rcases hv with rfl | rfl | rfl <;> decide
      refine ⟨_, classify_cons_ok (designates_head G hd).2.2
        (parseOptional_bare pre_good (designates_language F hd))
        (classify_cons_ok (argument_ne harg) hpv hc), fun ns => ?_⟩
      obtain ⟨ns', ex, h1, h2⟩ := hl { ns with language := v }
      refine ⟨ns', ex, ?_, ?_⟩
      · rw [loop_valued_ok har (m := { ns with language := v })]
        · exact h1
        · simp only [takeAction]
          rw [if_pos hv]
      · rw [h2, lastOr_cons]
        rfl
    · obtain ⟨c, hp, hcc⟩ := other hd ha
      obtain ⟨c', hp', hcc'⟩ := value harg
      refine ⟨_, classify_cons_ok (designates_head G hd).2.2 hp
        (classify_cons_ok (argument_ne harg) hp' hc), fun ns => ?_⟩
      obtain ⟨ns', ex, h1, h2⟩ := hl ns
      refine ⟨ns', _, loop_extra_ok hcc (loop_extra_ok hcc' h1), ?_⟩
      rw [h2, lastOr_cons, hother ha]
      rfl

end Verif.Cli
