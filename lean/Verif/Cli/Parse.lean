import Verif.Cli.Spec
import Mathlib.Data.List.Nodup

/-
The classification of arguments and the loop of the parser against `Spelled`.
-/

namespace Verif.Cli

/-- The tables the theorems are about. -/
structure Good (tbl : Table) : Prop where
  nodup : (tbl.map (·.1)).Nodup
  noEq : ∀ e ∈ tbl, '=' ∉ e.1
  dash : ∀ e ∈ tbl, e.1.head? = some '-'
  two : ∀ e ∈ tbl, 2 ≤ e.1.length
  long : ∀ e ∈ tbl, e.1 ≠ ['-', '-']
  short : ∀ e ∈ tbl, ¬ ['-', '-'] <+: e.1 → e.2 = .help ∧ e.1.length = 2

theorem find_some {s : Str} {l : List (Str × α)} {v : α} (h : find s l = some v) : (s, v) ∈ l := by
  induction l with
  | nil => cases h
  | cons e l ih =>
    obtain ⟨k, w⟩ := e
    simp only [find] at h
    by_cases hk : k = s
    · rw [if_pos hk] at h
      cases h
      subst hk
      exact List.mem_cons_self
    · rw [if_neg hk] at h
      exact List.mem_cons_of_mem _ (ih h)

theorem find_none {s : Str} {l : List (Str × α)} (h : find s l = none) (v : α) : (s, v) ∉ l := by
  induction l with
  | nil => exact List.not_mem_nil
  | cons e l ih =>
    obtain ⟨k, w⟩ := e
    simp only [find] at h
    by_cases hk : k = s
    · rw [if_pos hk] at h
      cases h
    · rw [if_neg hk] at h
      intro hm
      rcases List.mem_cons.1 hm with hm | hm
      · cases hm
        exact hk rfl
      · exact ih h hm

theorem find_mem {s : Str} {l : List (Str × α)} (hn : (l.map (·.1)).Nodup) {v : α}
    (h : (s, v) ∈ l) : find s l = some v := by
  induction l with
  | nil => cases h
  | cons e l ih =>
    obtain ⟨k, w⟩ := e
    simp only [find]
    rw [List.map_cons, List.nodup_cons] at hn
    rcases List.mem_cons.1 h with h | h
    · cases h
      rw [if_pos rfl]
    · rw [if_neg, ih hn.2 h]
      rintro rfl
      exact hn.1 (List.mem_map.2 ⟨_, h, rfl⟩)

theorem find_isSome {s : Str} {l : List (Str × α)} :
    (find s l).isSome = true ↔ s ∈ l.map (·.1) := by
  induction l with
  | nil => simp [find]
  | cons e l ih =>
    obtain ⟨k, w⟩ := e
    simp only [find, List.map_cons, List.mem_cons]
    by_cases hk : k = s
    · rw [if_pos hk]
      exact ⟨fun _ => .inl hk.symm, fun _ => rfl⟩
    · rw [if_neg hk, ih]
      exact ⟨.inr, fun h => h.resolve_left (fun e => hk e.symm)⟩

/-! ### `partition` -/

theorem partition_none {s : Str} (h : '=' ∉ s) : partition s = (s, none) := by
  induction s with
  | nil => rfl
  | cons c s ih =>
    have hc : c ≠ '=' := fun e => h (e ▸ List.mem_cons_self)
    have hs := ih (fun hm => h (List.mem_cons_of_mem _ hm))
    simp only [partition, if_neg hc, hs]

theorem partition_eq {p v : Str} (h : '=' ∉ p) : partition (p ++ '=' :: v) = (p, some v) := by
  induction p with
  | nil => simp only [List.nil_append, partition, if_pos]
  | cons c s ih =>
    have hc : c ≠ '=' := fun e => h (e ▸ List.mem_cons_self)
    have hs := ih (fun hm => h (List.mem_cons_of_mem _ hm))
    simp only [List.cons_append, partition, if_neg hc, hs]

theorem split_eq {s : Str} (h : '=' ∈ s) : ∃ p v, '=' ∉ p ∧ s = p ++ '=' :: v := by
  induction s with
  | nil => cases h
  | cons c s ih =>
    by_cases hc : c = '='
    · subst hc
      exact ⟨[], s, List.not_mem_nil, rfl⟩
    · obtain ⟨p, v, hp, e⟩ := ih ((List.mem_cons.1 h).resolve_left (fun e => hc e.symm))
      refine ⟨c :: p, v, ?_, ?_⟩
      · intro hm
        rcases List.mem_cons.1 hm with hm | hm
        · exact hc hm.symm
        · exact hp hm
      · rw [e, List.cons_append]

theorem partition_spec (s : Str) : '=' ∉ (partition s).1 ∧
    ((partition s).2 = none → s = (partition s).1) ∧
    (∀ v, (partition s).2 = some v → s = (partition s).1 ++ '=' :: v) := by
  by_cases h : '=' ∈ s
  · obtain ⟨p, v, hp, rfl⟩ := split_eq h
    rw [partition_eq hp]
    exact ⟨hp, fun e => (by cases e), fun w e => (by cases e; rfl)⟩
  · rw [partition_none h]
    exact ⟨h, fun _ => rfl, fun w e => (by cases e)⟩

/-! ### Classification -/

variable {digit : Char → Bool} {tbl : Table}

theorem Good.unique (G : Good tbl) {k : Str} {a b : Act} (ha : (k, a) ∈ tbl) (hb : (k, b) ∈ tbl) :
    a = b := by
  have h1 := find_mem G.nodup ha
  have h2 := find_mem G.nodup hb
  rw [h1] at h2
  exact Option.some.inj h2

theorem designates_noEq (G : Good tbl) {p : Str} {a : Act} (h : Designates tbl p a) : '=' ∉ p := by
  rcases h with h | ⟨_, _, _, k, hk, hp, _⟩
  · exact G.noEq _ h
  · exact fun hm => G.noEq _ hk (hp.subset hm)

theorem designates_head (G : Good tbl) {p : Str} {a : Act} (h : Designates tbl p a) :
    p.head? = some '-' ∧ 2 ≤ p.length ∧ p ≠ ['-', '-'] := by
  rcases h with h | ⟨_, h2, h3, k, hk, hp, _⟩
  · exact ⟨G.dash _ h, G.two _ h, G.long _ h⟩
  · obtain ⟨t, rfl⟩ := h2
    exact ⟨rfl, by simp, h3⟩

/-- The option tuples of a long argument. -/
theorem optionTuples_long {s : Str} (h : ['-', '-'] <+: s) :
    optionTuples tbl s = (tbl.filter (fun e => (partition s).1.isPrefixOf e.1)).map
      (fun e => (e.2, (partition s).2, false)) := by
  obtain ⟨t, rfl⟩ := h
  rw [optionTuples, if_pos (by rfl)]

theorem filter_single (G : Good tbl) {p k : Str} {a : Act} (hk : (k, a) ∈ tbl) (hp : p <+: k)
    (hu : ∀ e ∈ tbl, p <+: e.1 → e = (k, a)) :
    tbl.filter (fun e => p.isPrefixOf e.1) = [(k, a)] := by
  have hn : tbl.Nodup := List.Nodup.of_map _ G.nodup
  have hf : (tbl.filter (fun e => p.isPrefixOf e.1)).Nodup := hn.filter _
  have hall : ∀ e ∈ tbl.filter (fun e => p.isPrefixOf e.1), e = (k, a) := by
    intro e he
    obtain ⟨h1, h2⟩ := List.mem_filter.1 he
    exact hu e h1 (List.isPrefixOf_iff_prefix.1 h2)
  have hmem : (k, a) ∈ tbl.filter (fun e => p.isPrefixOf e.1) :=
    List.mem_filter.2 ⟨hk, List.isPrefixOf_iff_prefix.2 hp⟩
  revert hf hall hmem
  generalize tbl.filter (fun e => p.isPrefixOf e.1) = l
  intro hf hall hmem
  match l, hf, hall, hmem with
  | [x], _, hall, _ => rw [hall x List.mem_cons_self]
  | x :: y :: l, hf, hall, _ =>
    exfalso
    have hx := hall x List.mem_cons_self
    have hy := hall y (List.mem_cons_of_mem _ List.mem_cons_self)
    rw [hx, hy] at hf
    exact (List.nodup_cons.1 hf).1 List.mem_cons_self

theorem parseOptional_bare (G : Good tbl) {p : Str} {a : Act} (h : Designates tbl p a) :
    parseOptional digit tbl p = .ok (.opt (some a) none false) := by
  obtain ⟨hh, hl, _⟩ := designates_head G h
  have hq := designates_noEq G h
  rw [parseOptional, if_neg (fun c => c hh)]
  rcases h with h | ⟨h1, h2, h3, k, hk, hp, hu⟩
  · rw [find_mem G.nodup h]
  · have hf : find p tbl = none := by
      cases hf : find p tbl with
      | none => rfl
      | some b => exact absurd (find_some hf) (h1 b)
    rw [hf]
    simp only [partition_none hq]
    rw [if_neg (by omega), optionTuples_long h2, partition_none hq, filter_single G hk hp hu]
    rfl

theorem parseOptional_joined (G : Good tbl) {p v : Str} {a : Act} (h : Designates tbl p a) :
    parseOptional digit tbl (p ++ '=' :: v) = .ok (.opt (some a) (some v) false) := by
  obtain ⟨hh, hl, _⟩ := designates_head G h
  have hq := designates_noEq G h
  have hne : p ≠ [] := by rintro rfl; cases hh
  have hh' : (p ++ '=' :: v).head? = some '-' := by rw [List.head?_append_of_ne_nil _ hne, hh]
  have hf' : find (p ++ '=' :: v) tbl = none := by
    cases hf : find (p ++ '=' :: v) tbl with
    | none => rfl
    | some b => exact absurd (List.mem_append_right _ List.mem_cons_self) (G.noEq _ (find_some hf))
  rw [parseOptional, if_neg (fun c => c hh'), hf']
  simp only [partition_eq hq]
  rw [if_neg (by simp; omega)]
  rcases h with h | ⟨h1, h2, h3, k, hk, hp, hu⟩
  · rw [find_mem G.nodup h]
  · have hf : find p tbl = none := by
      cases hf : find p tbl with
      | none => rfl
      | some b => exact absurd (find_some hf) (h1 b)
    rw [hf]
    have h2' : ['-', '-'] <+: p ++ '=' :: v := h2.trans (List.prefix_append _ _)
    simp only []
    rw [optionTuples_long h2', partition_eq hq, filter_single G hk hp hu]
    rfl

/-- The tuples of a short argument: only joined help options. -/
theorem optionTuples_short (G : Good tbl) {s : Str} (h : ¬ ['-', '-'] <+: s)
    (hh : s.head? = some '-') (hl : s.length ≠ 1) (hf : find s tbl = none) :
    optionTuples tbl s = (tbl.filter (fun e => e.1 = s.take 2)).map
      (fun _ => (.help, some (s.drop 2), true)) := by
  obtain ⟨c, d, t, rfl⟩ : ∃ c d t, s = c :: d :: t := by
    match s, hh, hl with
    | [c], _, hl => exact absurd rfl hl
    | c :: d :: t, _, _ => exact ⟨c, d, t, rfl⟩
  cases hh
  have hd : d ≠ '-' := by
    rintro rfl
    exact h ⟨t, rfl⟩
  have hnp : ∀ e ∈ tbl, ¬ (('-' :: d :: t) <+: e.1) := by
    intro e he hp
    obtain ⟨u, hu⟩ := hp
    have hs := (G.short e he (by
      rw [← hu]
      rintro ⟨w, hw⟩
      cases hw
      exact hd rfl)).2
    rw [← hu] at hs
    have : t ++ u = [] := by
      cases htu : t ++ u with
      | nil => rfl
      | cons x y =>
        simp only [List.cons_append, htu, List.length_cons] at hs
        omega
    obtain ⟨rfl, rfl⟩ := List.append_eq_nil_iff.1 this
    exact find_none hf e.2 (by
      have : e = ('-' :: d :: [], e.2) := by rw [List.append_nil] at hu; rw [hu]
      rw [this] at he
      exact he)
  have h1 : (List.drop 1 ('-' :: d :: t)).head? ≠ some '-' := by
    intro e
    exact hd (Option.some.inj e)
  rw [optionTuples, if_neg h1]
  have hfe : tbl.filter (fun e => e.1 = ('-' :: d :: t).take 2 || ('-' :: d :: t).isPrefixOf e.1) =
      tbl.filter (fun e => e.1 = ('-' :: d :: t).take 2) := by
    apply List.filter_congr
    intro e he
    have : List.isPrefixOf ('-' :: d :: t) e.1 = false := by
      cases hb : List.isPrefixOf ('-' :: d :: t) e.1 with
      | false => rfl
      | true => exact absurd (List.isPrefixOf_iff_prefix.1 hb) (hnp e he)
    rw [this, Bool.or_false]
  rw [hfe]
  apply List.map_congr_left
  intro e he
  obtain ⟨h1, h2⟩ := List.mem_filter.1 he
  have h2 : e.1 = ('-' :: d :: t).take 2 := of_decide_eq_true h2
  rw [if_pos h2, (G.short e h1 (by
    rw [h2]
    rintro ⟨w, hw⟩
    cases hw
    exact hd rfl)).1]

/-- What an option classification means. -/
theorem parseOptional_opt (G : Good tbl) {s : Str} (hs : s ≠ ['-', '-']) {c : Cls}
    (h : parseOptional digit tbl s = .ok c) :
    (c = .arg ∧ Argument digit tbl s) ∨
    (c = .opt none none false) ∨
    (∃ a, c = .opt (some a) none false ∧ Designates tbl s a) ∨
    (∃ p v a, s = p ++ '=' :: v ∧ '=' ∉ p ∧ c = .opt (some a) (some v) false ∧
      (Designates tbl p a ∨
        (p = ['-', '-'] ∧ ∃ k, ∀ e ∈ tbl, ['-', '-'] <+: e.1 → e = (k, a)))) ∨
    (∃ v, c = .opt (some .help) (some v) true) := by
  rw [parseOptional] at h
  by_cases hh : s.head? = some '-'
  · rw [if_neg (fun c => c hh)] at h
    cases hf : find s tbl with
    | some a =>
      rw [hf] at h
      cases h
      exact .inr (.inr (.inl ⟨a, rfl, .inl (find_some hf)⟩))
    | none =>
      rw [hf] at h
      simp only [] at h
      by_cases hl : s.length = 1
      · rw [if_pos hl] at h
        cases h
        refine .inl ⟨rfl, .inr (.inl ?_)⟩
        match s, hh, hl with
        | [_], hh, _ => cases hh; rfl
      · rw [if_neg hl] at h
        obtain ⟨hq, hp1, hp2⟩ := partition_spec s
        split at h
        · rename_i v a e1 e2
          cases h
          exact .inr (.inr (.inr (.inl ⟨_, v, a, hp2 v e1, hq, rfl, .inl (.inl (find_some e2))⟩)))
        · rename_i hno
          by_cases hlong : ['-', '-'] <+: s
          · rw [optionTuples_long hlong] at h
            generalize hF : tbl.filter (fun e => (partition s).1.isPrefixOf e.1) = F at h
            match F, hF, h with
            | [e], hF, h =>
              simp only [List.map_cons, List.map_nil] at h
              cases h
              have he : e ∈ tbl.filter (fun e => (partition s).1.isPrefixOf e.1) := by
                rw [hF]; exact List.mem_cons_self
              obtain ⟨he1, he2⟩ := List.mem_filter.1 he
              have he2 := List.isPrefixOf_iff_prefix.1 he2
              have hu : ∀ e' ∈ tbl, (partition s).1 <+: e'.1 → e' = (e.1, e.2) := by
                intro e' h1 h2
                have : e' ∈ tbl.filter (fun e => (partition s).1.isPrefixOf e.1) :=
                  List.mem_filter.2 ⟨h1, List.isPrefixOf_iff_prefix.2 h2⟩
                rw [hF] at this
                exact List.mem_singleton.1 this
              cases hv : (partition s).2 with
              | none =>
                have hsp := hp1 hv
                refine .inr (.inr (.inl ⟨e.2, rfl, .inr ⟨find_none hf, hlong, hs, e.1, he1, ?_, ?_⟩⟩))
                · rw [hsp]; exact he2
                · rw [hsp]; exact hu
              | some v =>
                have hsp := hp2 v hv
                refine .inr (.inr (.inr (.inl ⟨_, v, e.2, hsp, hq, rfl, ?_⟩)))
                by_cases hd : (partition s).1 = ['-', '-']
                · exact .inr ⟨hd, e.1, hd ▸ hu⟩
                · refine .inl (.inr ⟨?_, ?_, hd, e.1, he1, he2, hu⟩)
                  · intro b hb
                    exact hno v b hv (find_mem G.nodup hb)
                  · rw [hsp] at hlong
                    obtain ⟨t, ht⟩ := hlong
                    match hpp : (partition s).1, ht with
                    | [], ht => cases ht
                    | [x], ht =>
                      exfalso
                      cases ht
                    | x :: y :: r, ht =>
                      cases ht
                      exact ⟨r, rfl⟩
            | _ :: _ :: _, hF, h => cases h
            | [], hF, h =>
              simp only [List.map_nil] at h
              have hnp : ∀ e ∈ tbl, ¬ (partition s).1 <+: e.1 := by
                intro e he hp
                have : e ∈ tbl.filter (fun e => (partition s).1.isPrefixOf e.1) :=
                  List.mem_filter.2 ⟨he, List.isPrefixOf_iff_prefix.2 hp⟩
                rw [hF] at this
                cases this
              have ht2 : ∀ e ∈ tbl, e.1 ≠ s.take 2 := by
                intro e he e'
                obtain ⟨t, rfl⟩ := hlong
                exact G.long e he e'
              by_cases hn : negativeNumber digit s = true
              · rw [if_pos hn] at h
                cases h
                exact .inl ⟨rfl, .inr (.inr ⟨hs, fun _ => hnp, ht2, .inl hn⟩)⟩
              · rw [if_neg hn] at h
                by_cases hsp : ' ' ∈ s
                · rw [if_pos hsp] at h
                  cases h
                  exact .inl ⟨rfl, .inr (.inr ⟨hs, fun _ => hnp, ht2, .inr hsp⟩)⟩
                · rw [if_neg hsp] at h
                  cases h
                  exact .inr (.inl rfl)
          · rw [optionTuples_short G hlong hh hl hf] at h
            generalize hF : tbl.filter (fun e => e.1 = s.take 2) = F at h
            match F, hF, h with
            | [e], hF, h =>
              simp only [List.map_cons, List.map_nil] at h
              cases h
              exact .inr (.inr (.inr (.inr ⟨_, rfl⟩)))
            | _ :: _ :: _, hF, h => cases h
            | [], hF, h =>
              simp only [List.map_nil] at h
              have ht2 : ∀ e ∈ tbl, e.1 ≠ s.take 2 := by
                intro e he e'
                have : e ∈ tbl.filter (fun e => e.1 = s.take 2) :=
                  List.mem_filter.2 ⟨he, by simpa using e'⟩
                rw [hF] at this
                cases this
              by_cases hn : negativeNumber digit s = true
              · rw [if_pos hn] at h
                cases h
                exact .inl ⟨rfl, .inr (.inr ⟨hs, fun c => absurd c hlong, ht2, .inl hn⟩)⟩
              · rw [if_neg hn] at h
                by_cases hsp : ' ' ∈ s
                · rw [if_pos hsp] at h
                  cases h
                  exact .inl ⟨rfl, .inr (.inr ⟨hs, fun c => absurd c hlong, ht2, .inr hsp⟩)⟩
                · rw [if_neg hsp] at h
                  cases h
                  exact .inr (.inl rfl)
  · rw [if_pos hh] at h
    cases h
    exact .inl ⟨rfl, .inl hh⟩

theorem parseOptional_arg (G : Good tbl) {s : Str} (h : Argument digit tbl s) :
    parseOptional digit tbl s = .ok .arg := by
  rw [parseOptional]
  by_cases hh : s.head? = some '-'
  · rw [if_neg (fun c => c hh)]
    rcases h with h | rfl | ⟨hs, hp, ht, hor⟩
    · exact absurd hh h
    · have hf : find ['-'] tbl = none := by
        cases hf : find ['-'] tbl with
        | none => rfl
        | some b => exact absurd (G.two _ (find_some hf)) (by simp)
      rw [hf]
      simp
    · have hf : find s tbl = none := by
        cases hf : find s tbl with
        | none => rfl
        | some b =>
          exfalso
          have hm := find_some hf
          by_cases hlong : ['-', '-'] <+: s
          · refine hp hlong _ hm ?_
            rw [partition_none (G.noEq _ hm)]
            exact List.prefix_refl _
          · have := (G.short _ hm hlong).2
            refine ht _ hm ?_
            rw [← this, List.take_length]
      rw [hf]
      simp only []
      by_cases hl : s.length = 1
      · rw [if_pos hl]
      · rw [if_neg hl]
        have hT : optionTuples tbl s = [] := by
          by_cases hlong : ['-', '-'] <+: s
          · rw [optionTuples_long hlong, List.filter_eq_nil_iff.2]
            · rfl
            · intro e he hb
              exact hp hlong e he (List.isPrefixOf_iff_prefix.1 hb)
          · rw [optionTuples_short G hlong hh hl hf, List.filter_eq_nil_iff.2]
            · rfl
            · intro e he hb
              exact ht e he (by simpa using hb)
        split
        · rename_i v a e1 e2
          exfalso
          have hm := find_some e2
          by_cases hlong : ['-', '-'] <+: s
          · exact hp hlong _ hm (List.prefix_refl _)
          · obtain ⟨hq, _, hp2⟩ := partition_spec s
            have hsp := hp2 v e1
            have h2 : ¬ ['-', '-'] <+: (partition s).1 := by
              intro hc
              rw [hsp] at hlong
              exact hlong (hc.trans (List.prefix_append _ _))
            have hlen := (G.short _ hm h2).2
            refine ht _ hm ?_
            rw [hsp, List.take_append_of_le_length (Nat.le_of_eq hlen.symm), ← hlen,
              List.take_length]
            rw [← hsp]
        · rw [hT]
          simp only []
          rcases hor with hn | hsp
          · rw [if_pos hn]
          · split
            · rfl
            · first | rfl | rw [if_pos hsp]
  · rw [if_pos hh]

end Verif.Cli
