import Verif.Cli.Loop

/-
The effect of a list of items, against `Acceptable` and `Result`.
-/

namespace Verif.Cli

/-- The items fit the texts and files already given. -/
def Fits (ns : Namespace) (items : List (Act × Option Str)) : Prop :=
  (ns.text.isSome = true → ∀ t, (Act.file, some t) ∉ items) ∧
    (ns.file.isSome = true → ∀ t, (Act.text, some t) ∉ items)

/-- One item. -/
theorem takeAction_ok {ns m : Namespace} {a : Act} {v : Option Str}
    (hsw : Switches [(a, v)] (ns.flags.map (·.1))) (h : takeAction ns a v = .ok m) :
    Acceptable [(a, v)] ∧ Fits ns [(a, v)] ∧ Result ns [(a, v)] m := by
  have acc : (a ≠ .help) → (∀ d s, (a, v) = (Act.on d, some s) → ∃ b, Says s b) →
      (∀ l, (a, v) = (Act.language, some l) → l ∈ languages) → Acceptable [(a, v)] := by
    intro h1 h2 h3
    refine ⟨fun w hw => ?_, fun d s hw => ?_, fun l hw => ?_, fun s t hw hw' => ?_⟩
    · exact h1 (congrArg Prod.fst (List.mem_singleton.1 hw)).symm
    · exact h2 d s (List.mem_singleton.1 hw).symm
    · exact h3 l (List.mem_singleton.1 hw).symm
    · have := (List.mem_singleton.1 hw).trans (List.mem_singleton.1 hw').symm
      cases this
  have fits : (∀ t, (a, v) = (Act.file, some t) → ns.text = none) →
      (∀ t, (a, v) = (Act.text, some t) → ns.file = none) → Fits ns [(a, v)] := by
    intro h1 h2
    refine ⟨fun hs t ht => ?_, fun hs t ht => ?_⟩
    · rw [h1 t (List.mem_singleton.1 ht).symm] at hs; cases hs
    · rw [h2 t (List.mem_singleton.1 ht).symm] at hs; cases hs
  have flg : (∀ d, asks d (a, v) = none) → ∀ d b, find d ns.flags = some b →
      find d ns.flags = some (lastOr (asks d) b [(a, v)]) := by
    intro h1 d b hb
    rw [lastOr_cons, h1 d]
    exact hb
  have setf : ∀ e c, (∀ d, asks d (a, v) = if e = d then some c else none) →
      ∀ d b, find d ns.flags = some b →
      find d (setFlag e c ns.flags) = some (lastOr (asks d) b [(a, v)]) := by
    intro e c h1 d b hb
    rw [lastOr_cons, h1 d, find_setFlag]
    by_cases hed : e = d
    · rw [if_pos hed, if_pos hed]; rfl
    · rw [if_neg hed, if_neg hed]; exact hb
  match a, v, h with
  | .text, some s, h =>
    simp only [takeAction] at h
    by_cases hf : ns.file.isSome = true
    · rw [if_pos hf] at h; cases h
    · rw [if_neg hf] at h
      cases h
      refine ⟨acc (by simp) (by simp) (by simp), fits (by simp) ?_, ⟨rfl, rfl, rfl, ?_, rfl, flg (fun _ => rfl), rfl⟩⟩
      · intro t _
        cases hn : ns.file with
        | none => rfl
        | some x => rw [hn] at hf; exact absurd rfl hf
      · simp
  | .file, some s, h =>
    simp only [takeAction] at h
    by_cases hf : ns.text.isSome = true
    · rw [if_pos hf] at h; cases h
    · rw [if_neg hf] at h
      cases h
      refine ⟨acc (by simp) (by simp) (by simp), fits ?_ (by simp), ⟨rfl, rfl, rfl, ?_, rfl, flg (fun _ => rfl), rfl⟩⟩
      · intro t _
        cases hn : ns.text with
        | none => rfl
        | some x => rw [hn] at hf; exact absurd rfl hf
      · simp
  | .cacheDir, some s, h =>
    simp only [takeAction] at h
    cases h
    exact ⟨acc (by simp) (by simp) (by simp), fits (by simp) (by simp),
      ⟨rfl, rfl, rfl, by simp, rfl, flg (fun _ => rfl), rfl⟩⟩
  | .overwrite, none, h =>
    simp only [takeAction] at h
    cases h
    exact ⟨acc (by simp) (by simp) (by simp), fits (by simp) (by simp),
      ⟨rfl, rfl, rfl, by simp, rfl, flg (fun _ => rfl), rfl⟩⟩
  | .language, some s, h =>
    simp only [takeAction] at h
    by_cases hf : s ∈ languages
    · rw [if_pos hf] at h
      cases h
      refine ⟨acc (by simp) (by simp) ?_, fits (by simp) (by simp),
        ⟨rfl, rfl, rfl, by simp, rfl, flg (fun _ => rfl), rfl⟩⟩
      intro l hl
      cases hl
      exact hf
    · rw [if_neg hf] at h; cases h
  | .on d, none, h =>
    simp only [takeAction] at h
    cases h
    exact ⟨acc (by simp) (by simp) (by simp), fits (by simp) (by simp),
      ⟨rfl, rfl, rfl, by simp, rfl, setf d true (fun _ => rfl),
        setFlag_names (hsw d none (.inl List.mem_cons_self))⟩⟩
  | .on d, some s, h =>
    simp only [takeAction] at h
    cases hb : parseBool s with
    | error e => rw [hb] at h; cases h
    | ok b =>
      rw [hb] at h
      cases h
      have hs := parseBool_ok.1 hb
      refine ⟨acc (by simp) ?_ (by simp), fits (by simp) (by simp),
        ⟨rfl, rfl, rfl, by simp, rfl, setf d b ?_,
          setFlag_names (hsw d _ (.inl List.mem_cons_self))⟩⟩
      · intro d' s' e
        cases e
        exact ⟨b, hs⟩
      · intro d'
        simp only [asks, says_true hs]
  | .off d, none, h =>
    simp only [takeAction] at h
    cases h
    exact ⟨acc (by simp) (by simp) (by simp), fits (by simp) (by simp),
      ⟨rfl, rfl, rfl, by simp, rfl, setf d false (fun _ => rfl),
        setFlag_names (hsw d none (.inr List.mem_cons_self))⟩⟩
  | .help, _, h => simp only [takeAction] at h; cases h
  | .text, none, h => simp only [takeAction] at h; cases h
  | .file, none, h => simp only [takeAction] at h; cases h
  | .cacheDir, none, h => simp only [takeAction] at h; cases h
  | .overwrite, some _, h => simp only [takeAction] at h; cases h
  | .language, none, h => simp only [takeAction] at h; cases h
  | .off _, some _, h => simp only [takeAction] at h; cases h

theorem takeAction_total {ns : Namespace} {a : Act} {v : Option Str}
    (hsh : Shaped [(a, v)]) (hacc : Acceptable [(a, v)]) (hfit : Fits ns [(a, v)]) :
    ∃ m, takeAction ns a v = .ok m := by
  obtain ⟨h1, h2⟩ := hsh (a, v) List.mem_cons_self
  match a, v with
  | .text, some s =>
    simp only [takeAction]
    rw [if_neg (fun h => hfit.2 h s List.mem_cons_self)]
    exact ⟨_, rfl⟩
  | .file, some s =>
    simp only [takeAction]
    rw [if_neg (fun h => hfit.1 h s List.mem_cons_self)]
    exact ⟨_, rfl⟩
  | .cacheDir, some s => exact ⟨_, rfl⟩
  | .overwrite, none => exact ⟨_, rfl⟩
  | .language, some s =>
    simp only [takeAction]
    rw [if_pos (hacc.known s List.mem_cons_self)]
    exact ⟨_, rfl⟩
  | .on d, none => exact ⟨_, rfl⟩
  | .on d, some s =>
    obtain ⟨b, hb⟩ := hacc.truth d s List.mem_cons_self
    simp only [takeAction, parseBool_ok.2 hb]
    exact ⟨_, rfl⟩
  | .off d, none => exact ⟨_, rfl⟩
  | .help, v => exact absurd List.mem_cons_self (hacc.noHelp v)
  | .text, none => exact absurd rfl (h1 rfl)
  | .file, none => exact absurd rfl (h1 rfl)
  | .cacheDir, none => exact absurd rfl (h1 rfl)
  | .overwrite, some _ => exact absurd rfl (h2 (by simp))
  | .language, none => exact absurd rfl (h1 rfl)
  | .off _, some _ => exact absurd rfl (h2 (by simp))

theorem Result.trans {ns m r : Namespace} {i : Act × Option Str} {items : List (Act × Option Str)}
    (h1 : Result ns [i] m) (h2 : Result m items r) : Result ns (i :: items) r := by
  refine ⟨?_, ?_, ?_, ?_, ?_, ?_, ?_⟩
  · rw [h2.text, h1.text, lastOr_cons, lastOr_cons, lastOr_nil]
  · rw [h2.file, h1.file, lastOr_cons, lastOr_cons, lastOr_nil]
  · rw [h2.cacheDir, h1.cacheDir, lastOr_cons, lastOr_cons, lastOr_nil]
  · rw [h2.overwrite, h1.overwrite, List.any_cons, List.any_cons, List.any_nil, Bool.or_false,
      Bool.or_assoc]
  · rw [h2.language, h1.language, lastOr_cons, lastOr_cons, lastOr_nil]
  · intro d b hb
    have := h2.flags d _ (h1.flags d b hb)
    rw [this, lastOr_cons, lastOr_cons, lastOr_nil]
  · rw [h2.names, h1.names]

theorem acceptable_cons {i : Act × Option Str} {items : List (Act × Option Str)} :
    Acceptable (i :: items) ↔ Acceptable [i] ∧ Acceptable items ∧
      (∀ s t, i = (Act.text, some s) → (Act.file, some t) ∉ items) ∧
      (∀ s t, i = (Act.file, some s) → (Act.text, some t) ∉ items) := by
  constructor
  · intro h
    refine ⟨⟨fun v hv => ?_, fun d s hv => ?_, fun l hv => ?_, fun s t hv hw => ?_⟩,
      ⟨fun v hv => ?_, fun d s hv => ?_, fun l hv => ?_, fun s t hv hw => ?_⟩, ?_, ?_⟩
    · exact h.noHelp v (List.mem_cons.2 (.inl (List.mem_singleton.1 hv)))
    · exact h.truth d s (List.mem_cons.2 (.inl (List.mem_singleton.1 hv)))
    · exact h.known l (List.mem_cons.2 (.inl (List.mem_singleton.1 hv)))
    · exact h.single s t (List.mem_cons.2 (.inl (List.mem_singleton.1 hv)))
        (List.mem_cons.2 (.inl (List.mem_singleton.1 hw)))
    · exact h.noHelp v (List.mem_cons_of_mem _ hv)
    · exact h.truth d s (List.mem_cons_of_mem _ hv)
    · exact h.known l (List.mem_cons_of_mem _ hv)
    · exact h.single s t (List.mem_cons_of_mem _ hv) (List.mem_cons_of_mem _ hw)
    · rintro s t rfl hm
      exact h.single s t List.mem_cons_self (List.mem_cons_of_mem _ hm)
    · rintro s t rfl hm
      exact h.single t s (List.mem_cons_of_mem _ hm) List.mem_cons_self
  · rintro ⟨h1, h2, h3, h4⟩
    refine ⟨fun v hv => ?_, fun d s hv => ?_, fun l hv => ?_, fun s t hv hw => ?_⟩
    · rcases List.mem_cons.1 hv with hv | hv
      · exact h1.noHelp v (List.mem_singleton.2 hv)
      · exact h2.noHelp v hv
    · rcases List.mem_cons.1 hv with hv | hv
      · exact h1.truth d s (List.mem_singleton.2 hv)
      · exact h2.truth d s hv
    · rcases List.mem_cons.1 hv with hv | hv
      · exact h1.known l (List.mem_singleton.2 hv)
      · exact h2.known l hv
    · rcases List.mem_cons.1 hv with hv | hv
      · rcases List.mem_cons.1 hw with hw | hw
        · rw [← hv] at hw; cases hw
        · exact h3 s t hv.symm hw
      · rcases List.mem_cons.1 hw with hw | hw
        · exact h4 t s hw.symm hv
        · exact h2.single s t hv hw

/-- Whether a text was given, after one item. -/
theorem text_after {ns m : Namespace} {i : Act × Option Str} (h : Result ns [i] m) :
    (m.text.isSome = true ↔ ns.text.isSome = true ∨ ∃ s, i = (Act.text, some s)) ∧
    (m.file.isSome = true ↔ ns.file.isSome = true ∨ ∃ s, i = (Act.file, some s)) := by
  obtain ⟨a, v⟩ := i
  have h1 := h.text
  have h2 := h.file
  rw [lastOr_cons, lastOr_nil] at h1 h2
  constructor
  · rw [h1]
    unfold valueOf
    simp only []
    by_cases ha : a = .text
    · subst ha
      cases v with
      | none => simp
      | some s => simp
    · rw [if_neg ha]
      simp [ha]
  · rw [h2]
    unfold valueOf
    simp only []
    by_cases ha : a = .file
    · subst ha
      cases v with
      | none => simp
      | some s => simp
    · rw [if_neg ha]
      simp [ha]

theorem applyItems_ok : ∀ {items : List (Act × Option Str)} {ns r : Namespace},
    Switches items (ns.flags.map (·.1)) → applyItems items ns = .ok r →
    Acceptable items ∧ Fits ns items ∧ Result ns items r
  | [], ns, r, _, h => by
    cases h
    refine ⟨⟨fun v h => (by cases h), fun d s h => (by cases h), fun l h => (by cases h),
      fun s t h => (by cases h)⟩, ⟨fun _ t h => (by cases h), fun _ t h => (by cases h)⟩,
      ⟨rfl, rfl, rfl, by simp, rfl, fun d b h => h, rfl⟩⟩
  | (a, v) :: items, ns, r, hsw, h => by
    obtain ⟨m, hm, h⟩ := applyItems_cons.1 h
    obtain ⟨ha, hf, hr⟩ := takeAction_ok
      (fun d w hw => hsw d w (hw.imp (fun h => List.mem_cons.2 (.inl (List.mem_singleton.1 h)))
        (fun h => List.mem_cons.2 (.inl (List.mem_singleton.1 h))))) hm
    obtain ⟨ha', hf', hr'⟩ := applyItems_ok (items := items) (ns := m)
      (fun d w hw => by
        rw [hr.names]
        exact hsw d w (hw.imp (List.mem_cons_of_mem _) (List.mem_cons_of_mem _))) h
    have hta := text_after hr
    refine ⟨acceptable_cons.2 ⟨ha, ha', ?_, ?_⟩, ⟨?_, ?_⟩, hr.trans hr'⟩
    · rintro s t e
      exact hf'.1 (hta.1.2 (.inr ⟨s, e⟩)) t
    · rintro s t e
      exact hf'.2 (hta.2.2 (.inr ⟨s, e⟩)) t
    · intro hs t ht
      rcases List.mem_cons.1 ht with ht | ht
      · exact hf.1 hs t (List.mem_singleton.2 ht)
      · exact hf'.1 (hta.1.2 (.inl hs)) t ht
    · intro hs t ht
      rcases List.mem_cons.1 ht with ht | ht
      · exact hf.2 hs t (List.mem_singleton.2 ht)
      · exact hf'.2 (hta.2.2 (.inl hs)) t ht

theorem applyItems_total : ∀ {items : List (Act × Option Str)} {ns : Namespace},
    Switches items (ns.flags.map (·.1)) → Shaped items → Acceptable items → Fits ns items →
    ∃ r, applyItems items ns = .ok r
  | [], ns, _, _, _, _ => ⟨ns, rfl⟩
  | (a, v) :: items, ns, hsw, hsh, hacc, hfit => by
    obtain ⟨ha, ha', h3, h4⟩ := acceptable_cons.1 hacc
    obtain ⟨m, hm⟩ := takeAction_total (ns := ns)
      (fun i hi => hsh i (List.mem_cons.2 (.inl (List.mem_singleton.1 hi)))) ha
      ⟨fun hs t ht => hfit.1 hs t (List.mem_cons.2 (.inl (List.mem_singleton.1 ht))),
        fun hs t ht => hfit.2 hs t (List.mem_cons.2 (.inl (List.mem_singleton.1 ht)))⟩
    obtain ⟨_, _, hr⟩ := takeAction_ok
      (fun d w hw => hsw d w (hw.imp (fun h => List.mem_cons.2 (.inl (List.mem_singleton.1 h)))
        (fun h => List.mem_cons.2 (.inl (List.mem_singleton.1 h))))) hm
    have hta := text_after hr
    obtain ⟨r, hr'⟩ := applyItems_total (items := items) (ns := m)
      (fun d w hw => by
        rw [hr.names]
        exact hsw d w (hw.imp (List.mem_cons_of_mem _) (List.mem_cons_of_mem _)))
      (fun i hi => hsh i (List.mem_cons_of_mem _ hi)) ha'
      ⟨fun hs t ht => by
        rcases hta.1.1 hs with hs | ⟨s, e⟩
        · exact hfit.1 hs t (List.mem_cons_of_mem _ ht)
        · exact h3 s t e ht, fun hs t ht => by
        rcases hta.2.1 hs with hs | ⟨s, e⟩
        · exact hfit.2 hs t (List.mem_cons_of_mem _ ht)
        · exact h4 s t e ht⟩
    exact ⟨r, applyItems_cons.2 ⟨m, hm, hr'⟩⟩

end Verif.Cli
