import Verif.Cache.Remove

/-
`recover_residuals` and `remove_invalid` make only the transitions of `Trans`.
-/

namespace Verif.Cache

section
variable {G α : Type} {key : Key} {F : Faults} {Gd : FS G → FS G → Prop} {K : FS G → Prop}

theorem sem_rename {fs fs' : FS G} {a b : Name} {r : Except Err Unit}
    (h : Sem key F (.rename a b) fs r fs') :
    (fs' = fs ∨ Moved a b fs fs') ∧ (r = .ok () → Moved a b fs fs') := by
  have key1 : ∀ r', Norm key (.rename a b) fs r' fs' →
      (fs' = fs ∨ Moved a b fs fs') ∧ (r' = .ok () → Moved a b fs fs') := by
    rintro r' ⟨rfl, rfl⟩
    unfold FS.rename
    split
    · exact ⟨.inl rfl, by simp⟩
    · rename_i i hi
      split
      · rename_i hb
        exact ⟨.inr ⟨i, hi, rfl, .inl hb⟩, fun _ => ⟨i, hi, rfl, .inl hb⟩⟩
      · rename_i j hj
        split
        · rename_i hm
          exact ⟨.inr ⟨i, hi, rfl, .inr ⟨j, hj, hm⟩⟩, fun _ => ⟨i, hi, rfl, .inr ⟨j, hj, hm⟩⟩⟩
        · exact ⟨.inl rfl, by simp⟩
  rcases h with h | ⟨-, h, x, rfl⟩ | ⟨-, rfl, r', h⟩
  · exact key1 r h
  · exact ⟨.inl h, by simp⟩
  · exact ⟨(key1 r' h).1, by simp⟩

theorem sem_lstat {fs fs' : FS G} {n : Name} {v : Kind × Ino}
    (h : Sem key F (.lstat n) fs (.ok v) fs') :
    fs.entry n = some v.2 ∧ v.1 = (fs.node v.2).kind := by
  have h1 := (Sem.normal (by simp) h).1
  simp only [FS.lstat] at h1
  split at h1
  · cases h1
  · rename_i i hi
    cases h1
    exact ⟨hi, rfl⟩

theorem kind_dir {x : Node} (h : x.kind = .dir) : ∃ es, x = .dir es := by
  cases x with
  | dir es => exact ⟨es, rfl⟩
  | file => cases h
  | link => cases h
  | special => cases h

end

variable {W : World} {F : Faults} {Gd : FS W.G → FS W.G → Prop} {K : FS W.G → Prop}
  {bs : List (W.G × W.G)}

/-- What the holder has made sure of before it moves or removes anything. -/
def Ck (W : World) (F : Faults) (fs : FS W.G) : Prop :=
  Reliable W F → Kept W fs → CompleteAt W fs W.key.digest

/-- The invariant of the parent directory while the pairs `bs` have been built. -/
structure Base (W : World) (bs : List (W.G × W.G)) (fs : FS W.G) : Prop where
  wf : Wf fs
  log : LogInv W fs
  built : fs.built = bs

theorem Base.trans (hk : W.key.Valid) {fs fs' : FS W.G} (hb : Base W bs fs) (h : Trans W F fs fs')
    (he : fs'.built = fs.built) : Base W bs fs' :=
  ⟨hb.wf.trans h, hb.log.trans hk hb.wf h, he.trans hb.built⟩

theorem Ck.cut (hk : W.key.Valid) {fs fs' : FS W.G} {n : Name} (hb : Base W bs fs) (hc : Ck W F fs)
    (hn : W.key.residual n = true) (h : Cut n fs fs') : Ck W F fs' :=
  fun hr hkept => cut_complete_final hk hb.wf hn h
    (hc hr (cut_kept hk hb.wf hb.log hn h hkept))

theorem Ck.same {fs fs' : FS W.G} (hc : Ck W F fs) (h : Same W fs fs') : Ck W F fs' :=
  fun hr hkept => h.complete (.inl rfl) (hc hr (h.symm.kept hkept))

theorem loadPath_spec {n : Name} {fs : FS W.G} (hrefl : ∀ fs, Gd fs fs) :
    Safe W.key F Gd K (loadPath W n) true fs fun h' r fs' => h' = true ∧ fs' = fs ∧
      (∀ g, r = .ok (some g) → ∃ i es, fs.entry n = some i ∧ fs.node i = .dir es ∧
        NamesOk es ∧ Holds W es g) ∧
      (r = .ok none → ReadsWork F → ¬ CompleteAt W fs n) := by
  by_cases hc : ReadsWork F ∧ CompleteAt W fs n
  · obtain ⟨hr, i, es, h1, h2, h3, g, h4⟩ := hc
    refine Safe.mono (loadPath_reads hr hrefl h1 h2 h3 h4) ?_
    rintro h' r fs' ⟨rfl, rfl, rfl⟩
    refine ⟨rfl, rfl, ?_, by simp⟩
    intro g' hg
    cases hg
    exact ⟨i, es, h1, h2, h3, h4⟩
  · refine Safe.mono (loadPath_held hrefl) ?_
    rintro h' r fs' ⟨h1, h2, h3⟩
    exact ⟨h1, h2, h3, fun _ hr hcomp => hc ⟨hr, hcomp⟩⟩

theorem lexists_safe {n : Name} {fs : FS W.G} (hrefl : ∀ fs, Gd fs fs) :
    Safe W.key F Gd K (lexists W n) true fs fun h' r fs' => h' = true ∧ fs' = fs ∧
      (r = .ok true → fs.entry n ≠ none) := by
  unfold lexists
  refine Safe.tryExcept (Safe.bind (Safe.callRead (by simp) (by simp) rfl hrefl ?_))
  intro r hs
  cases r with
  | error x =>
    simp only
    split <;> exact ⟨rfl, rfl, by simp⟩
  | ok v =>
    refine ⟨rfl, rfl, fun _ => ?_⟩
    rw [(sem_lstat hs).1]
    simp

theorem checkBundleDirectory_safe {n : Name} {fs : FS W.G} (hrefl : ∀ fs, Gd fs fs) :
    Safe W.key F Gd K (checkBundleDirectory W n) true fs fun h' _ fs' => h' = true ∧ fs' = fs := by
  unfold checkBundleDirectory
  refine Safe.bind (Safe.callRead (by simp) (by simp) rfl hrefl ?_)
  intro r hs
  cases r with
  | error x => exact ⟨rfl, rfl⟩
  | ok v =>
    simp only
    split <;> exact ⟨rfl, rfl⟩

theorem replace_safe {a b : Name} {fs : FS W.G} (hrefl : ∀ fs, Gd fs fs)
    (hG : ∀ fs', Moved a b fs fs' → Gd fs fs') :
    Safe W.key F Gd K (replaceWithRetry W a b) true fs fun h' r fs' => h' = true ∧
      (fs' = fs ∨ Moved a b fs fs') ∧ (r = .ok () → Moved a b fs fs') := by
  unfold replaceWithRetry
  refine Safe.tryExcept (Safe.callHeld (by simp) (by simp) ?_)
  intro r fs' hs
  obtain ⟨h1, h2⟩ := sem_rename hs
  refine ⟨?_, ?_⟩
  · rcases h1 with rfl | h1
    · exact hrefl _
    · exact hG _ h1
  · cases r with
    | ok u => exact ⟨rfl, h1, fun _ => h2 rfl⟩
    | error x =>
      simp only
      split <;> exact ⟨rfl, h1, by simp⟩

theorem residualDirs_safe {fs : FS W.G} (hrefl : ∀ fs, Gd fs fs) (l : List Name) :
    Safe W.key F Gd K (residualDirs W l) true fs fun h' r fs' => h' = true ∧ fs' = fs ∧
      ∀ l', r = .ok l' →
        (∀ n ∈ l', W.key.residual n = true) ∧
        ∀ n ∈ l, W.key.residual n = true → ∀ i es, fs.entry n = some i →
          fs.node i = .dir es → n ∈ l' := by
  induction l with
  | nil =>
    refine ⟨rfl, rfl, ?_⟩
    intro l' h
    cases h
    simp
  | cons n l ih =>
    unfold residualDirs
    split
    · rename_i hres
      refine Safe.bind (Safe.callRead (by simp) (by simp) rfl hrefl ?_)
      intro r hs
      cases r with
      | error x => exact ⟨rfl, rfl, by simp⟩
      | ok v =>
        obtain ⟨h1, h2⟩ := sem_lstat hs
        refine Safe.bind (Safe.mono ih ?_)
        rintro h' r fs' ⟨rfl, rfl, h5⟩
        cases r with
        | error x => exact ⟨rfl, rfl, by simp⟩
        | ok rest =>
          refine ⟨rfl, rfl, ?_⟩
          intro l' hl'
          obtain ⟨h6, h7⟩ := h5 rest rfl
          simp only [Except.ok.injEq] at hl'
          subst hl'
          constructor
          · intro m hm
            split at hm
            · rcases List.mem_cons.1 hm with rfl | hm
              · exact hres
              · exact h6 m hm
            · exact h6 m hm
          · intro m hm hmr i es hi hes
            rcases List.mem_cons.1 hm with rfl | hm
            · rw [h1] at hi
              cases hi
              rw [hes] at h2
              simp [h2, Node.kind]
            · have := h7 m hm hmr i es hi hes
              split
              · exact List.mem_cons_of_mem _ this
              · exact this
    · rename_i hres
      refine Safe.mono ih ?_
      rintro h' r fs' ⟨h3, h4, h5⟩
      refine ⟨h3, h4, fun l' hl' => ⟨(h5 l' hl').1, ?_⟩⟩
      intro m hm hmr
      rcases List.mem_cons.1 hm with rfl | hm
      · exact (hres hmr).elim
      · exact (h5 l' hl').2 m hm hmr

theorem withMtimes_safe {fs : FS W.G} (hrefl : ∀ fs, Gd fs fs) (l : List Name) :
    Safe W.key F Gd K (withMtimes W l) true fs fun h' r fs' => h' = true ∧ fs' = fs ∧
      ∀ l', r = .ok l' → l'.map Prod.fst = l := by
  induction l with
  | nil =>
    refine ⟨rfl, rfl, ?_⟩
    intro l' h
    cases h
    rfl
  | cons n l ih =>
    unfold withMtimes
    refine Safe.bind (Safe.callRead (by simp) (by simp) rfl hrefl ?_)
    intro r hs
    cases r with
    | error x => exact ⟨rfl, rfl, by simp⟩
    | ok v =>
      refine Safe.bind (Safe.mono ih ?_)
      rintro h' r fs' ⟨rfl, rfl, h5⟩
      cases r with
      | error x => exact ⟨rfl, rfl, by simp⟩
      | ok rest =>
        refine ⟨rfl, rfl, ?_⟩
        intro l' hl'
        cases hl'
        simp [h5 rest rfl]

theorem mem_insertDesc (x y : Name × Nat) (l : List (Name × Nat)) :
    y ∈ insertDesc x l ↔ y = x ∨ y ∈ l := by
  induction l with
  | nil => simp [insertDesc]
  | cons z l ih =>
    simp only [insertDesc]
    split
    · simp
    · simp only [List.mem_cons, ih]
      tauto

theorem mem_sortDesc (y : Name × Nat) (l : List (Name × Nat)) : y ∈ sortDesc l ↔ y ∈ l := by
  induction l with
  | nil => simp [sortDesc]
  | cons z l ih => simp [sortDesc, mem_insertDesc, ih]

theorem recoverFirst_safe {fs : FS W.G}
    (hT : ∀ fs fs', Trans W F fs fs' → fs'.built = fs.built → Gd fs fs')
    (l : List Name) (hl : ∀ n ∈ l, W.key.IsPrevious n) :
    Safe W.key F Gd K (recoverFirst W l) true fs fun h' r fs' => h' = true ∧
      (Trans W F fs fs' ∧ fs'.built = fs.built) ∧
      (r = .ok none → fs' = fs ∧ (ReadsWork F → ∀ n ∈ l, ¬ CompleteAt W fs n)) ∧
      ∀ n, r = .ok (some n) → n ∈ l ∧ CompleteAt W fs n ∧ Moved n W.key.digest fs fs' := by
  have hrefl : ∀ fs, Gd fs fs := fun fs => hT _ _ (.stay fs) rfl
  induction l with
  | nil => exact ⟨rfl, ⟨.stay _, rfl⟩, by simp, by simp⟩
  | cons n l ih =>
    unfold recoverFirst
    refine Safe.bind (Safe.mono (loadPath_spec hrefl) ?_)
    rintro h' r fs' ⟨rfl, rfl, h3, h4⟩
    cases r with
    | error x => exact ⟨rfl, ⟨.stay _, rfl⟩, by simp, by simp⟩
    | ok gs =>
      cases gs with
      | none =>
        simp only
        refine Safe.mono (ih fun m hm => hl m (List.mem_cons_of_mem _ hm)) ?_
        rintro h' r fs'' ⟨h5, h6, h7, h8⟩
        refine ⟨h5, h6, ?_, ?_⟩
        · intro hr
          refine ⟨(h7 hr).1, ?_⟩
          intro hrw m hm
          rcases List.mem_cons.1 hm with rfl | hm
          · exact h4 rfl hrw
          · exact (h7 hr).2 hrw m hm
        · intro m hm
          exact ⟨List.mem_cons_of_mem _ (h8 m hm).1, (h8 m hm).2⟩
      | some g =>
        simp only
        obtain ⟨i, es, h5, h6, h7, h8⟩ := h3 g rfl
        have hc : CompleteAt W fs' n := ⟨i, es, h5, h6, h7, g, h8⟩
        have hp := hl n List.mem_cons_self
        refine Safe.bind (Safe.mono (replace_safe hrefl
          fun fs2 hm => hT _ _ (.recover _ _ n hp hc hm) hm.built) ?_)
        rintro h' r fs'' ⟨rfl, h9, h10⟩
        have ht : Trans W F fs' fs'' ∧ fs''.built = fs'.built := by
          rcases h9 with rfl | h9
          · exact ⟨.stay _, rfl⟩
          · exact ⟨.recover _ _ n hp hc h9, h9.built⟩
        cases r with
        | error x => exact ⟨rfl, ht, by simp, by simp⟩
        | ok u =>
          refine ⟨rfl, ht, by simp, ?_⟩
          intro m hm
          cases hm
          exact ⟨List.mem_cons_self, hc, h10 rfl⟩

theorem removeFlat_clean (hk : W.key.Valid)
    (hT : ∀ fs fs', Trans W F fs fs' → fs'.built = fs.built → Gd fs fs')
    {n : Name} {be : Bool} {fs : FS W.G} (hn : W.key.residual n = true) (hb : Base W bs fs)
    (hc : Ck W F fs) :
    Safe W.key F Gd K (removeFlat W n be) true fs fun h' _ fs' => h' = true ∧ Base W bs fs' ∧
      Ck W F fs' ∧ Cut n fs fs' := by
  refine Safe.mono (removeFlat_safe (fun fs => hT _ _ (.stay fs) rfl) ?_) ?_
  · intro fs1 fs2 h1 h2
    exact hT _ _ (.clean _ _ n hn (hc.cut hk hb hn h1) h2) h2.built
  · rintro h' r fs' ⟨h1, h2, -⟩
    exact ⟨h1, hb.trans hk (F := F) (.clean _ _ n hn hc h2) h2.built, hc.cut hk hb hn h2, h2⟩

theorem removeAll_safe (hk : W.key.Valid)
    (hT : ∀ fs fs', Trans W F fs fs' → fs'.built = fs.built → Gd fs fs')
    (l : List Name) (hl : ∀ n ∈ l, W.key.residual n = true) : ∀ fs : FS W.G, Base W bs fs →
    Ck W F fs → Safe W.key F Gd K (removeAll W l) true fs fun h' _ fs' => h' = true ∧
      Base W bs fs' ∧ Ck W F fs' ∧
      (CompleteAt W fs W.key.digest → CompleteAt W fs' W.key.digest) := by
  induction l with
  | nil => exact fun fs hb hc => ⟨rfl, hb, hc, id⟩
  | cons n l ih =>
    intro fs hb hc
    unfold removeAll
    have hres := hl n List.mem_cons_self
    refine Safe.bind (Safe.mono (removeFlat_clean hk hT hres hb hc) ?_)
    rintro h' r fs' ⟨rfl, h1, h2, h3⟩
    have h4 := cut_complete_final hk hb.wf hres h3
    cases r with
    | error x => exact ⟨rfl, h1, h2, h4⟩
    | ok _ =>
      refine Safe.mono (ih (fun m hm => hl m (List.mem_cons_of_mem _ hm)) fs' h1 h2) ?_
      rintro h' r fs'' ⟨h5, h6, h7, h8⟩
      exact ⟨h5, h6, h7, fun h => h8 (h4 h)⟩

/-- The final name is taken, or no loadable bundle is under a previous name. -/
theorem ck_of_tried {fs : FS W.G} (h : fs.entry W.key.digest ≠ none ∨
    (ReadsWork F → ∀ n i es, W.key.IsPrevious n → fs.entry n = some i → fs.node i = .dir es →
      ¬ CompleteAt W fs n)) : Ck W F fs := by
  rintro hr (hkept | ⟨h1, mv, es, h2, h3, h4, h5, h6, h7, h8⟩)
  · exact hkept
  · rcases h with h | h
    · exact (h h1).elim
    · exact (h hr.1 _ _ es h4 h5 h7 ⟨_, es, h5, h7, h8⟩).elim

theorem recoverResiduals_safe (hk : W.key.Valid)
    (hT : ∀ fs fs', Trans W F fs fs' → fs'.built = fs.built → Gd fs fs')
    {fs : FS W.G} (hb : Base W bs fs) :
    Safe W.key F Gd K (recoverResiduals W) true fs fun h' r fs' => h' = true ∧
      Base W bs fs' ∧ (∀ u, r = .ok u → Ck W F fs' ∧
        (ReadsWork F → Recoverable W fs → CompleteAt W fs' W.key.digest)) := by
  have hrefl : ∀ fs, Gd fs fs := fun fs => hT _ _ (.stay fs) rfl
  unfold recoverResiduals
  refine Safe.bind (Safe.callRead (by simp) (by simp) rfl hrefl ?_)
  intro r hs
  cases r with
  | error x => exact ⟨rfl, hb, by simp⟩
  | ok children =>
    have hch : ∀ n, W.key.residual n = true → (n ∈ children ↔ fs.entry n ≠ none) := by
      obtain ⟨-, l, h1, -, h2⟩ := Sem.normal (by simp) hs
      cases h1
      exact h2
    refine Safe.bind (Safe.mono (residualDirs_safe hrefl children) ?_)
    rintro h' r fs' ⟨rfl, h2, h3⟩
    replace h2 := h2.symm
    subst h2
    cases r with
    | error x => exact ⟨rfl, hb, by simp⟩
    | ok residuals =>
      obtain ⟨h4, h5⟩ := h3 residuals rfl
      have h6 : ∀ n i es, W.key.IsPrevious n → fs.entry n = some i → fs.node i = .dir es →
          n ∈ residuals.filter W.key.previous.isPrefixOf := by
        intro n i es hp hi hes
        have hr : W.key.residual n = true := (Key.residual_iff _ _).2 (.inr (.inl hp))
        rw [List.mem_filter]
        refine ⟨h5 n ((hch n hr).2 (by simp [hi])) hr i es hi hes, ?_⟩
        simpa [Key.IsPrevious] using hp
      refine Safe.bind (Safe.mono (lexists_safe hrefl) ?_)
      rintro h' r fs' ⟨rfl, h7, h8⟩
      replace h7 := h7.symm
      subst h7
      cases r with
      | error x => exact ⟨rfl, hb, by simp⟩
      | ok present =>
        simp only
        have final : ∀ (recovered : Option Name) (fs' : FS W.G), Base W bs fs' → Ck W F fs' →
            (ReadsWork F → Recoverable W fs → CompleteAt W fs' W.key.digest) →
            Safe W.key F Gd K (removeAll W (residuals.filter fun n => some n ≠ recovered)) true fs'
              fun h' r fs' => h' = true ∧ Base W bs fs' ∧ (∀ u, r = .ok u → Ck W F fs' ∧
                (ReadsWork F → Recoverable W fs → CompleteAt W fs' W.key.digest)) := by
          intro recovered fs' hb' hc' hco
          refine Safe.mono (removeAll_safe hk hT _ ?_ fs' hb' hc') ?_
          · intro n hn
            exact h4 n (List.mem_filter.1 hn).1
          · rintro h' r fs'' ⟨h1, h2, h3, h4⟩
            exact ⟨h1, h2, fun _ _ => ⟨h3, fun hr hre => h4 (hco hr hre)⟩⟩
        cases present with
        | true =>
          simp only [if_true]
          refine final none fs hb (ck_of_tried (.inl (h8 rfl))) ?_
          rintro - (hre | ⟨hre, -⟩)
          · exact hre
          · exact (h8 rfl hre).elim
        | false =>
          simp only [Bool.false_eq_true, if_false]
          refine Safe.bind (Safe.bind (Safe.mono (withMtimes_safe hrefl _) ?_))
          rintro h' r fs' ⟨rfl, h9, h10⟩
          replace h9 := h9.symm
          subst h9
          cases r with
          | error x => exact ⟨rfl, hb, by simp⟩
          | ok previous =>
            have h11 := h10 previous rfl
            have h12 : ∀ n, n ∈ (sortDesc previous).map Prod.fst ↔
                n ∈ residuals.filter W.key.previous.isPrefixOf := by
              intro n
              rw [← h11]
              simp only [List.mem_map, mem_sortDesc]
            simp only
            refine Safe.mono (recoverFirst_safe hT _ ?_) ?_
            · intro n hn
              have := (List.mem_filter.1 ((h12 n).1 hn)).2
              simpa [Key.IsPrevious] using this
            · rintro h' r fs' ⟨rfl, h13, h14, h15⟩
              cases r with
              | error x => exact ⟨rfl, hb.trans hk h13.1 h13.2, by simp⟩
              | ok recovered =>
                cases recovered with
                | none =>
                  obtain ⟨rfl, h16⟩ := h14 rfl
                  refine final none fs' hb (ck_of_tried (.inr ?_)) ?_
                  · intro hr n i es hp hi hes
                    exact h16 hr n ((h12 n).2 (h6 n i es hp hi hes))
                  · rintro hr (hre | ⟨-, u, i, es, hi, hes, hco⟩)
                    · exact hre
                    · have hp : W.key.IsPrevious
                          ('.' :: W.key.digest ++ ".previous-".toList ++ u) :=
                        (isPrevious_iff _ _).2 ⟨u, rfl⟩
                      exact (h16 hr _ ((h12 _).2 (h6 _ i es hp hi hes)) ⟨i, es, hi, hes, hco⟩).elim
                | some n =>
                  obtain ⟨h16, h17, h18⟩ := h15 n rfl
                  have hp : W.key.IsPrevious n := by
                    have := (List.mem_filter.1 ((h12 n).1 h16)).2
                    simpa [Key.IsPrevious] using this
                  have hne : n ≠ W.key.digest := fun he => Key.final_not_previous hk (he ▸ hp)
                  have hco := h18.complete hne h17
                  exact final (some n) fs' (hb.trans hk h13.1 h13.2) (fun _ _ => hco) fun _ _ => hco

theorem removeInvalid_safe (hk : W.key.Valid)
    (hT : ∀ fs fs', Trans W F fs fs' → fs'.built = fs.built → Gd fs fs')
    {fs : FS W.G} (hb : Base W bs fs) (hc : Ck W F fs)
    (hnot : ReadsWork F → ¬ CompleteAt W fs W.key.digest) :
    Safe W.key F Gd K (removeInvalid W) true fs fun h' _ fs' => h' = true ∧
      Base W bs fs' ∧ Ck W F fs' := by
  have hrefl : ∀ fs, Gd fs fs := fun fs => hT _ _ (.stay fs) rfl
  have hnk : Reliable W F → ¬ Kept W fs := fun hr hkept => hnot hr.1 (hc hr hkept)
  unfold removeInvalid
  refine Safe.bind (Safe.tryExcept (Safe.bind (Safe.mono (checkBundleDirectory_safe hrefl) ?_)))
  rintro h' r fs' ⟨rfl, h1⟩
  replace h1 := h1.symm
  subst h1
  cases r with
  | error x =>
    simp only
    split
    · exact ⟨rfl, hb, hc⟩
    · exact ⟨rfl, hb, hc⟩
  | ok u =>
    simp only [Safe, not_true_eq_false, if_false]
    refine Safe.bind (Safe.callRead (by simp) (by simp) rfl hrefl ?_)
    intro r hs
    cases r with
    | error x => exact ⟨rfl, hb, hc⟩
    | ok u =>
      simp only
      have hcor : W.key.IsCorrupt (W.key.corrupt ++ u) := ⟨u, rfl⟩
      refine Safe.bind (Safe.mono (replace_safe hrefl
        fun fs2 hm => hT _ _ (.quarantine _ _ _ hcor hnk hm) hm.built) ?_)
      rintro h' r fs' ⟨rfl, h2, h3⟩
      have hck : Moved W.key.digest (W.key.corrupt ++ u) fs fs' → Base W bs fs' ∧ Ck W F fs' := by
        intro hm
        refine ⟨hb.trans hk (F := F) (.quarantine _ _ _ hcor hnk hm) hm.built, ?_⟩
        obtain ⟨i, hi, rfl, -⟩ := hm
        rintro hr (⟨j, es, h4, -⟩ | ⟨-, mv, es, h4, h5, h6, -⟩)
        · simp [move_entry] at h4
        · rw [lastMove_move_src] at h4
          cases h4
          exact (Key.previous_not_corrupt h6 hcor).elim
      cases r with
      | error x =>
        rcases h2 with rfl | h2
        · exact ⟨rfl, hb, hc⟩
        · exact ⟨rfl, hck h2⟩
      | ok _ =>
        obtain ⟨hb', hc'⟩ := hck (h3 rfl)
        refine Safe.bind (Safe.mono (removeFlat_clean hk hT
          ((Key.residual_iff _ _).2 (.inr (.inr hcor))) hb' hc') ?_)
        rintro h' r fs'' ⟨rfl, h4, h5, -⟩
        cases r with
        | error x => exact ⟨rfl, h4, h5⟩
        | ok _ => exact ⟨rfl, h4, h5⟩

end Verif.Cache
