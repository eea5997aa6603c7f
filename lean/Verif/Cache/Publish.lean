import Verif.Cache.Recover

/-
`publish` makes only the transitions of `Trans`; what is there afterwards, and after a failure.
-/

namespace Verif.Cache

variable {W : World} {F : Faults} {Gd : FS W.G → FS W.G → Prop} {K : FS W.G → Prop}
  {bs : List (W.G × W.G)}

/-- The steps `publish` undoes things with work: looking whether a name is taken, removing a temporary
directory, and renaming the previous bundle back. No interrupt comes between a rename, or making the
temporary directory, and the statement after it. -/
structure Undo (W : World) (F : Faults) : Prop where
  lstat : ∀ n, ¬ F.fail (.lstat n) ∧ ¬ F.late (.lstat n)
  scandir : ∀ n, W.key.IsTmp n → ¬ F.fail (.scandir n) ∧ ¬ F.late (.scandir n)
  lstatIn : ∀ n e, W.key.IsTmp n → ¬ F.fail (.lstatIn n e) ∧ ¬ F.late (.lstatIn n e)
  openDir : ∀ n, W.key.IsTmp n → ¬ F.fail (.openDir n) ∧ ¬ F.late (.openDir n)
  unlinkFd : ∀ i e, ¬ F.fail (.unlinkFd i e) ∧ ¬ F.late (.unlinkFd i e)
  rmdir : ∀ n, W.key.IsTmp n → ¬ F.fail (.rmdir n) ∧ ¬ F.late (.rmdir n)
  back : ∀ n, W.key.IsPrevious n → ¬ F.fail (.rename n W.key.digest)
  rename : ∀ a b, ¬ F.late (.rename a b)
  mkdtemp : ¬ F.late .mkdtemp

theorem Sem.norm {G : Type} {key : Key} {o : Op} {fs fs' : FS G} {r : Except Err (Res G o)}
    (hf : ¬ F.fail o ∧ ¬ F.late o) (h : Sem key F o fs r fs') : Norm key o fs r fs' := by
  rcases h with h | ⟨h, -⟩ | ⟨h, -⟩
  · exact h
  · exact (hf.1 h).elim
  · exact (hf.2 h).elim

theorem sem_rename_error {G : Type} {key : Key} {fs fs' : FS G} {a b : Name} {x : Err}
    (hl : ¬ F.late (.rename a b)) (hs : Sem key F (.rename a b) fs (.error x) fs') :
    fs' = fs := by
  rcases hs with ⟨h5, h6⟩ | ⟨-, h5, -⟩ | ⟨h5, -⟩
  · rw [h6]
    unfold FS.rename at h5 ⊢
    cases ha : fs.entry a with
    | none => rfl
    | some i =>
      rw [ha] at h5
      simp only at h5 ⊢
      cases hb : fs.entry b with
      | none => rw [hb] at h5; cases h5
      | some j =>
        rw [hb] at h5
        simp only at h5 ⊢
        split at h5
        · cases h5
        · rename_i hm
          rw [if_neg hm]
  · exact h5
  · exact (hl h5).elim

/-- Everything in the list of entries can be removed. -/
def AllRemovable (es : List (Name × Ent)) : Prop :=
  ∀ e ent, (e, ent) ∈ es → Removable e ent

theorem lookup_mem {es : List (Name × Ent)} {e : Name} {ent : Ent}
    (h : es.lookup e = some ent) : (e, ent) ∈ es := by
  induction es with
  | nil => simp at h
  | cons p es ih =>
    obtain ⟨k, v⟩ := p
    rw [List.lookup_cons] at h
    by_cases hk : e = k
    · subst hk
      simp only [beq_self_eq_true, Option.some.injEq] at h
      simp [h]
    · have : (e == k) = false := by simpa using hk
      rw [this] at h
      exact List.mem_cons_of_mem _ (ih h)

theorem lookup_of_mem {p : Name × Ent} {es : List (Name × Ent)} (h : p ∈ es) :
    es.lookup p.1 ≠ none := by
  induction es with
  | nil => simp at h
  | cons q es ih =>
    rw [List.lookup_cons]
    by_cases hpq : p.1 = q.1
    · simp [hpq]
    · have hf : (p.1 == q.1) = false := by simpa using hpq
      rw [hf]
      rcases List.mem_cons.1 h with rfl | h
      · exact (hpq rfl).elim
      · exact ih h

/-- What the staging writes do: only the content of the temporary directory `t` changes. -/
structure Staged (t : Ino) (fs fs' : FS W.G) : Prop where
  entry : fs'.entry = fs.entry
  node : ∀ j, j ≠ t → fs'.node j = fs.node j
  built : fs'.built = fs.built
  base : Base W bs fs'
  ck : Ck W F fs'
  content : ∃ es, fs'.node t = .dir es ∧ AllRemovable es

theorem removable_bundle {e : Name} {b : Bytes} (h : e ∈ bundleNames) : Removable e (.reg b) :=
  .inr ⟨b, rfl, (mem_bundleNames e).1 h⟩

theorem write_eq {fs : FS W.G} {n e : Name} {b : Bytes} {t : Ino} {es : List (Name × Ent)}
    (ht : fs.entry n = some t) (hes : fs.node t = .dir es) :
    fs.write n e b =
      (.ok (), fs.setNode t (.dir ((e, .reg b) :: es.filter fun p => p.1 ≠ e))) := by
  unfold FS.write
  rw [ht]
  simp only
  rw [hes]

theorem staged_write (hk : W.key.Valid) {fs₀ fs : FS W.G} {n e : Name} {b : Bytes} {t : Ino}
    {es : List (Name × Ent)} (hn : W.key.IsTmp n) (he : e ∈ bundleNames)
    (h : Staged (F := F) (bs := bs) t fs₀ fs) (ht : fs.entry n = some t) (hes : fs.node t = .dir es)
    (hrem : AllRemovable es) : Staged (F := F) (bs := bs) t fs₀ (fs.write n e b).2 := by
  have hs := same_write hk h.base.wf hn e b
  refine ⟨?_, ?_, ?_, ?_, h.ck.same hs, ?_⟩
  · rw [← h.entry]
    exact funext (write_entry fs n e b)
  · intro j hj
    rw [← h.node j hj]
    refine write_node _ _ _ _ _ ?_
    rw [ht]
    simpa using hj.symm
  · rw [write_built, h.built]
  · exact h.base.trans hk (F := F) (.write _ n e b hn) (write_built _ _ _ _)
  · rw [write_eq ht hes]
    refine ⟨(e, .reg b) :: es.filter fun p => p.1 ≠ e, by simp [FS.setNode], ?_⟩
    intro x ent hx
    rcases List.mem_cons.1 hx with hx | hx
    · cases hx
      exact removable_bundle he
    · exact hrem x ent (List.mem_filter.1 hx).1

/-- One write into the temporary directory. -/
theorem write_safe (hk : W.key.Valid)
    (hT : ∀ fs fs', Trans W F fs fs' → fs'.built = fs.built → Gd fs fs')
    {fs₀ fs : FS W.G} {n e : Name} {b : Bytes} {t : Ino} {es : List (Name × Ent)}
    (hn : W.key.IsTmp n) (he : e ∈ bundleNames) (h : Staged (F := F) (bs := bs) t fs₀ fs)
    (ht : fs.entry n = some t) (hes : fs.node t = .dir es) (hrem : AllRemovable es) :
    Safe W.key F Gd K (Prog.call (.write n e b)) true fs fun h' r fs' => h' = true ∧
      Staged (F := F) (bs := bs) t fs₀ fs' ∧ (∀ u, r = .ok u →
        fs'.node t = .dir ((e, .reg b) :: es.filter fun p => p.1 ≠ e)) := by
  refine Safe.callHeld (by simp) (by simp) ?_
  intro r fs' hs
  rcases hs with ⟨rfl, rfl⟩ | ⟨-, ⟨x, rfl⟩, h1⟩ | ⟨-, rfl, r', -, rfl⟩
  · refine ⟨hT _ _ (.write _ n e b hn) (write_built _ _ _ _), rfl, staged_write hk hn he h ht hes hrem, ?_⟩
    intro u _
    rw [write_eq ht hes]
    simp [FS.setNode]
  · rcases h1 with rfl | ⟨c, -, rfl⟩
    · exact ⟨hT _ _ (.stay _) rfl, rfl, h, by simp⟩
    · exact ⟨hT _ _ (.write _ n e c hn) (write_built _ _ _ _), rfl, staged_write hk hn he h ht hes hrem, by simp⟩
  · exact ⟨hT _ _ (.write _ n e b hn) (write_built _ _ _ _), rfl, staged_write hk hn he h ht hes hrem, by simp⟩

theorem verifyFst_safe {fs : FS W.G} {n e : Name} {b : Bytes} {t : Ino} {es : List (Name × Ent)}
    (hrefl : ∀ fs, Gd fs fs) (ht : fs.entry n = some t) (hes : fs.node t = .dir es)
    (hl : es.lookup e = some (.reg b)) :
    Safe W.key F Gd K (verifyFst W n e) true fs fun h' r fs' => h' = true ∧ fs' = fs ∧
      ∀ j, r = .ok j → j = metadataOf W b ∧ ∃ x, W.parse b = some x := by
  unfold verifyFst
  refine Safe.bind (Safe.callRead (by simp) (by simp) rfl hrefl ?_)
  intro r hs
  cases r with
  | error x => exact ⟨rfl, rfl, by simp⟩
  | ok ent =>
    have h1 := (Sem.normal (by simp) hs).1
    simp only [FS.inDir, ht, hes, Except.bind, FS.readEnt, hl, Except.ok.injEq] at h1
    subst h1
    simp only [readOpenRegular, Option.any_none, Bool.false_eq_true, if_false]
    refine Safe.bind (Safe.ofExcept ?_)
    simp only
    split
    · exact ⟨rfl, rfl, by simp⟩
    · rename_i x hx
      refine ⟨rfl, rfl, ?_⟩
      intro j hj
      cases hj
      exact ⟨rfl, x, hx⟩

theorem mem_tagger : taggerName ∈ bundleNames := by simp [bundleNames]
theorem mem_verbalizer : verbalizerName ∈ bundleNames := by simp [bundleNames]
theorem mem_manifest : manifestName ∈ bundleNames := by simp [bundleNames]
theorem tagger_ne_verbalizer : taggerName ≠ verbalizerName := by decide
theorem tagger_ne_manifest : taggerName ≠ manifestName := by decide
theorem verbalizer_ne_manifest : verbalizerName ≠ manifestName := by decide

/-- `publish` up to the manifest. -/
theorem stage_safe (hk : W.key.Valid)
    (hT : ∀ fs fs', Trans W F fs fs' → fs'.built = fs.built → Gd fs fs')
    {fs : FS W.G} {n : Name} {t : Ino} {g v : W.G} (hn : W.key.IsTmp n) (hb : Base W bs fs)
    (hc : Ck W F fs) (ht : fs.entry n = some t) (hes : fs.node t = .dir []) :
    Safe W.key F Gd K (stage W n g v) true fs fun h' r fs' => h' = true ∧
      Staged (F := F) (bs := bs) t fs fs' ∧ ∀ u, r = .ok u → fs'.node t = .dir (bundleOf W g v) ∧
        (∃ x, W.parse (W.ser (W.opt g)) = some x) ∧ ∃ y, W.parse (W.ser (W.opt v)) = some y := by
  have hrefl : ∀ fs, Gd fs fs := fun fs => hT _ _ (.stay fs) rfl
  have h0 : Staged (F := F) (bs := bs) t fs fs :=
    ⟨rfl, fun _ _ => rfl, rfl, hb, hc, [], hes, fun _ _ h => by simp at h⟩
  unfold stage writeFst
  refine Safe.bind (Safe.mono (write_safe hk hT hn mem_tagger h0 ht hes
    (fun _ _ h => by simp at h)) ?_)
  rintro h' r fs1 ⟨rfl, h1, h2⟩
  cases r with
  | error x => exact ⟨rfl, h1, by simp⟩
  | ok u =>
    have e1 := h2 u rfl
    simp only [List.filter_nil] at e1
    have rem1 : AllRemovable [(taggerName, Ent.reg (W.ser (W.opt g)))] := by
      intro e ent h
      rw [List.mem_singleton] at h
      cases h
      exact removable_bundle mem_tagger
    have t1 : fs1.entry n = some t := by rw [h1.entry]; exact ht
    refine Safe.bind (Safe.mono (write_safe hk hT hn mem_verbalizer h1 t1 e1 rem1) ?_)
    rintro h' r fs2 ⟨rfl, h3, h4⟩
    cases r with
    | error x => exact ⟨rfl, h3, by simp⟩
    | ok u =>
      have e2 := h4 u rfl
      rw [List.filter_cons_of_pos (by simpa using tagger_ne_verbalizer), List.filter_nil] at e2
      have rem2 : AllRemovable [(verbalizerName, Ent.reg (W.ser (W.opt v))),
          (taggerName, Ent.reg (W.ser (W.opt g)))] := by
        intro e ent h
        rcases List.mem_cons.1 h with h | h
        · cases h
          exact removable_bundle mem_verbalizer
        · exact rem1 e ent h
      have t2 : fs2.entry n = some t := by rw [h3.entry]; exact ht
      refine Safe.bind (Safe.mono (verifyFst_safe (b := W.ser (W.opt g)) hrefl t2 e2 ?_) ?_)
      · rw [List.lookup_cons]
        have : (taggerName == verbalizerName) = false := by simpa using tagger_ne_verbalizer
        rw [this]
        simp
      · rintro h' r fs' ⟨rfl, h5, h6⟩
        subst h5
        cases r with
        | error x => exact ⟨rfl, h3, by simp⟩
        | ok j1 =>
          obtain ⟨rfl, hx⟩ := h6 j1 rfl
          refine Safe.bind (Safe.mono (verifyFst_safe (b := W.ser (W.opt v)) hrefl t2 e2 ?_) ?_)
          · rw [List.lookup_cons]
            simp
          · rintro h' r fs'' ⟨rfl, h7, h8⟩
            subst h7
            cases r with
            | error x => exact ⟨rfl, h3, by simp⟩
            | ok j2 =>
              obtain ⟨rfl, hy⟩ := h8 j2 rfl
              refine Safe.mono (write_safe hk hT hn mem_manifest h3 t2 e2 rem2) ?_
              rintro h' r fs3 ⟨h9, h10, h11⟩
              refine ⟨h9, h10, ?_⟩
              intro u hu
              have e3 := h11 u hu
              rw [List.filter_cons_of_pos (by simpa using verbalizer_ne_manifest),
                List.filter_cons_of_pos (by simpa using tagger_ne_manifest),
                List.filter_nil] at e3
              exact ⟨e3, hx, hy⟩

/-- Moving the current bundle away. -/
theorem moveCurrent_safe (hk : W.key.Valid)
    (hT : ∀ fs fs', Trans W F fs fs' → fs'.built = fs.built → Gd fs fs')
    {fs : FS W.G} (hne : bs ≠ []) (hb : Base W bs fs) (hc : Ck W F fs) :
    Safe W.key F Gd K (moveCurrent W) true fs fun h' r fs' => h' = true ∧ Base W bs fs' ∧
      (∀ x, r = .error x → Undo W F → fs' = fs) ∧
      (∀ q, r = .ok q → match q with
        | none => fs' = fs ∧ ((∀ n, ¬ F.fail (.lstat n)) → fs.entry W.key.digest = none)
        | some q => W.key.IsPrevious q ∧ Moved W.key.digest q fs fs') ∧
      (fs' = fs ∨ ∃ q, W.key.IsPrevious q ∧ Moved W.key.digest q fs fs') := by
  have hrefl : ∀ fs, Gd fs fs := fun fs => hT _ _ (.stay fs) rfl
  unfold moveCurrent
  refine Safe.bind ?_
  have hlex : Safe W.key F Gd K (lexists W W.final) true fs fun h' r fs' => h' = true ∧ fs' = fs ∧
      (r = .ok false → (∀ n, ¬ F.fail (.lstat n)) → fs.entry W.key.digest = none) := by
    unfold lexists
    refine Safe.tryExcept (Safe.bind (Safe.callRead (by simp) (by simp) rfl hrefl ?_))
    intro r hs
    cases r with
    | ok v => exact ⟨rfl, rfl, by simp⟩
    | error x =>
      simp only
      split
      · rename_i hx
        refine ⟨rfl, rfl, ?_⟩
        intro _ hf
        rcases hs with ⟨h1, -⟩ | ⟨h1, -⟩ | ⟨-, h1, -⟩
        · simp only [FS.lstat] at h1
          split at h1
          · assumption
          · cases h1
        · exact (hf _ h1).elim
        · cases h1
          simp [Err.isOS] at hx
      · exact ⟨rfl, rfl, by simp⟩
  refine Safe.mono hlex ?_
  rintro h' r fs' ⟨rfl, h1, h2⟩
  replace h1 := h1.symm
  subst h1
  cases r with
  | error x => exact ⟨rfl, hb, by simp, by simp, .inl rfl⟩
  | ok present =>
    cases present with
    | false =>
      refine ⟨rfl, hb, by simp, ?_, .inl rfl⟩
      intro q hq
      cases hq
      exact ⟨rfl, h2 rfl⟩
    | true =>
      simp only [not_true_eq_false, if_false]
      refine Safe.bind (Safe.mono (checkBundleDirectory_safe hrefl) ?_)
      rintro h' r fs' ⟨rfl, h1⟩
      replace h1 := h1.symm
      subst h1
      cases r with
      | error x => exact ⟨rfl, hb, by simp, by simp, .inl rfl⟩
      | ok _ =>
        refine Safe.bind (Safe.callRead (by simp) (by simp) rfl hrefl ?_)
        intro r hs
        cases r with
        | error x => exact ⟨rfl, hb, by simp, by simp, .inl rfl⟩
        | ok u =>
          simp only
          have hp : W.key.IsPrevious (W.key.previous ++ u) := ⟨u, rfl⟩
          refine Safe.bind ?_
          have hren : Safe W.key F Gd K (replaceWithRetry W W.final (W.key.previous ++ u)) true fs
              fun h' r fs' => h' = true ∧
                (fs' = fs ∨ Moved W.key.digest (W.key.previous ++ u) fs fs') ∧
                (r = .ok () → Moved W.key.digest (W.key.previous ++ u) fs fs') ∧
                (∀ x, r = .error x → Undo W F → fs' = fs) := by
            unfold replaceWithRetry
            refine Safe.tryExcept (Safe.callHeld (by simp) (by simp) ?_)
            intro r fs' hs
            obtain ⟨h3, h4⟩ := sem_rename hs
            refine ⟨?_, ?_⟩
            · rcases h3 with rfl | h3
              · exact hrefl _
              · exact hT _ _ (.moveAway _ _ _ hp (hb.built ▸ hne) hc h3) h3.built
            · cases r with
              | ok _ => exact ⟨rfl, h3, fun _ => h4 rfl, by simp⟩
              | error x =>
                have h5 : Undo W F → fs' = fs := fun hu =>
                  sem_rename_error (hu.rename _ _) hs
                simp only
                split <;> exact ⟨rfl, h3, by simp, fun _ _ => h5⟩
          refine Safe.mono hren ?_
          rintro h' r fs' ⟨rfl, h3, h4, h5⟩
          have hb' : Base W bs fs' := by
            rcases h3 with rfl | h3
            · exact hb
            · exact hb.trans hk (F := F) (.moveAway _ _ _ hp (hb.built ▸ hne) hc h3) h3.built
          have h6 : fs' = fs ∨ ∃ q, W.key.IsPrevious q ∧ Moved W.key.digest q fs fs' := by
            rcases h3 with h3 | h3
            · exact .inl h3
            · exact .inr ⟨_, hp, h3⟩
          cases r with
          | error x => exact ⟨rfl, hb', fun y _ => h5 x rfl, by simp, h6⟩
          | ok _ =>
            refine ⟨rfl, hb', by simp, ?_, h6⟩
            intro q hq
            cases hq
            exact ⟨hp, h4 rfl⟩

section
variable {K : FS W.G → Prop}

/-- Any guarantee. -/
abbrev Any (W : World) : FS W.G → FS W.G → Prop := fun _ _ => True

theorem checkEntries_removes (hu : Undo W F) {n : Name} (hn : W.key.IsTmp n) {t : Ino}
    {es : List (Name × Ent)} {fs : FS W.G} (hrem : AllRemovable es) (ht : fs.entry n = some t)
    (hes : fs.node t = .dir es) (l : List Name) (hl : ∀ e ∈ l, es.lookup e ≠ none) :
    Safe W.key F (Any W) K (checkEntries W n l) true fs fun h' r fs' => h' = true ∧ fs' = fs ∧
      r = .ok true := by
  induction l with
  | nil => exact ⟨rfl, rfl, rfl⟩
  | cons e l ih =>
    have ih := ih fun e he => hl e (List.mem_cons_of_mem _ he)
    unfold checkEntries
    refine Safe.bind (Safe.callRead (by simp) (by simp) rfl (fun _ => trivial) ?_)
    intro r hs
    have h1 := ((hs.norm (hu.lstatIn n e hn))).1
    simp only [FS.lstatIn, FS.inDir, ht, hes, bind, Except.bind] at h1
    have h2 := hl e List.mem_cons_self
    cases hent : es.lookup e with
    | none => exact (h2 hent).elim
    | some ent =>
      rw [hent] at h1
      simp only at h1
      subst h1
      simp only
      rcases hrem e ent (lookup_mem hent) with rfl | ⟨b, rfl, hb⟩
      · exact ih
      · simp only [Ent.kind, (mem_bundleNames e).2 hb, if_true]
        exact ih

theorem unlinkAll_removes (hu : Undo W F) {t : Ino} (l : List Name) :
    ∀ (fs : FS W.G) (es : List (Name × Ent)), AllRemovable es → fs.node t = .dir es →
    Safe W.key F (Any W) K (unlinkAll W t l) true fs fun h' r fs' => h' = true ∧
      r = .ok () ∧ fs'.entry = fs.entry ∧
      ∃ es', fs'.node t = .dir es' ∧ ∀ p ∈ es', p ∈ es ∧ p.1 ∉ l := by
  induction l with
  | nil =>
    intro fs es hrem hes
    exact ⟨rfl, rfl, rfl, es, hes, fun p hp => ⟨hp, by simp⟩⟩
  | cons e l ih =>
    intro fs es hrem hes
    unfold unlinkAll
    have hents : fs.ents t = es := by simp [FS.ents, hes]
    refine Safe.bind (Safe.tryExcept (Safe.callHeld (by simp) (by simp) ?_))
    intro r fs' hs
    refine ⟨trivial, ?_⟩
    obtain ⟨h1, h2⟩ := hs.norm (hu.unlinkFd t e)
    unfold FS.unlinkFd at h1 h2
    rw [hents] at h1 h2
    cases hent : es.lookup e with
    | none =>
      rw [hent] at h1 h2
      simp only at h1 h2
      subst h1 h2
      simp only [if_true, Safe]
      refine Safe.mono (ih fs' es hrem hes) ?_
      rintro h' r fs'' ⟨h3, h4, h5, es', h6, h7⟩
      refine ⟨h3, h4, h5, es', h6, ?_⟩
      intro p hp
      refine ⟨(h7 p hp).1, ?_⟩
      rw [List.mem_cons, not_or]
      refine ⟨?_, (h7 p hp).2⟩
      rintro rfl
      exact lookup_of_mem (h7 p hp).1 hent
    | some ent =>
      rw [hent] at h1 h2
      have h3 : r = .ok () ∧ fs' = fs.setNode t (.dir (es.filter fun p => p.1 ≠ e)) := by
        rcases hrem e ent (lookup_mem hent) with rfl | ⟨b, rfl, -⟩
        · exact ⟨h1, h2⟩
        · exact ⟨h1, h2⟩
      obtain ⟨rfl, rfl⟩ := h3
      simp only
      refine Safe.mono (ih _ (es.filter fun p => p.1 ≠ e) ?_ ?_) ?_
      · intro x ent' hx
        exact hrem x ent' (List.mem_filter.1 hx).1
      · simp [FS.setNode]
      · rintro h' r fs'' ⟨h3, h4, h5, es', h6, h7⟩
        refine ⟨h3, h4, h5, es', h6, ?_⟩
        intro p hp
        obtain ⟨h8, h9⟩ := h7 p hp
        obtain ⟨h10, h11⟩ := List.mem_filter.1 h8
        refine ⟨h10, ?_⟩
        rw [List.mem_cons, not_or]
        exact ⟨by simpa using h11, h9⟩

theorem removeFlat_removes (hu : Undo W F) {n : Name} (hn : W.key.IsTmp n) {t : Ino} {be : Bool}
    {es : List (Name × Ent)} {fs : FS W.G} (hrem : AllRemovable es) (ht : fs.entry n = some t)
    (hes : fs.node t = .dir es) :
    Safe W.key F (Any W) K (removeFlat W n be) true fs fun h' r fs' => h' = true ∧
      r = .ok true ∧ fs'.entry n = none := by
  have hrefl : ∀ fs, Any W fs fs := fun _ => trivial
  unfold removeFlat removeFlatImpl
  refine Safe.tryExcept (Safe.bind (Safe.tryExcept (Safe.bind
    (Safe.callRead (by simp) (by simp) rfl hrefl ?_))))
  intro r hs
  have h1 := (hs.norm (hu.lstat n)).1
  simp only [FS.lstat, ht, hes] at h1
  subst h1
  simp only [Safe, Node.kind, ne_eq, not_true_eq_false, if_false]
  refine Safe.bind (Safe.callRead (by simp) (by simp) rfl hrefl ?_)
  intro r hs
  have h1 := (hs.norm (hu.scandir n hn)).1
  simp only [FS.inDir, ht, hes, Except.map] at h1
  subst h1
  simp only
  refine Safe.bind (Safe.mono (checkEntries_removes hu hn hrem ht hes _ ?_) ?_)
  · intro e he hl
    rw [List.mem_map] at he
    obtain ⟨p, hp, rfl⟩ := he
    exact lookup_of_mem hp hl
  · rintro h' r fs' ⟨rfl, h2, rfl⟩
    replace h2 := h2.symm
    subst h2
    simp only [not_true_eq_false, if_false]
    refine Safe.bind (Safe.callRead (by simp) (by simp) rfl hrefl ?_)
    intro r hs
    have h1 := (hs.norm (hu.openDir n hn)).1
    simp only [FS.openDir, ht, hes] at h1
    subst h1
    simp only [not_true_eq_false, if_false]
    refine Safe.bind (Safe.mono (unlinkAll_removes hu _ fs es hrem hes) ?_)
    rintro h' r fs' ⟨rfl, rfl, h3, es', h4, h5⟩
    simp only
    have h6 : es' = [] := by
      cases es' with
      | nil => rfl
      | cons p es' =>
        obtain ⟨h7, h8⟩ := h5 p List.mem_cons_self
        exact (h8 (List.mem_map_of_mem h7)).elim
    subst h6
    refine Safe.bind (Safe.callHeld (by simp) (by simp) ?_)
    intro r fs'' hs
    refine ⟨trivial, ?_⟩
    obtain ⟨h7, h8⟩ := hs.norm (hu.rmdir n hn)
    unfold FS.rmdir at h7 h8
    rw [h3, ht] at h7 h8
    simp only at h7 h8
    rw [h4] at h7 h8
    simp only at h7 h8
    subst h7 h8
    exact ⟨rfl, rfl, by simp [FS.setEntry]⟩

theorem lexists_undo (hu : Undo W F) {n : Name} {fs : FS W.G} :
    Safe W.key F (Any W) K (lexists W n) true fs fun h' r fs' => h' = true ∧ fs' = fs ∧
      r = .ok (fs.entry n).isSome := by
  unfold lexists
  refine Safe.tryExcept (Safe.bind (Safe.callRead (by simp) (by simp) rfl (fun _ => trivial) ?_))
  intro r hs
  have h1 := (hs.norm (hu.lstat n)).1
  unfold FS.lstat at h1
  split at h1
  · rename_i h2
    subst h1
    simp only [Err.isOS, if_true]
    exact ⟨rfl, rfl, by rw [h2]; rfl⟩
  · rename_i i h2
    subst h1
    exact ⟨rfl, rfl, by rw [h2]; rfl⟩

end

/-- What `restore` knows about the previous bundle it was given. -/
def WasMoved (W : World) (q? : Option Name) (fs : FS W.G) : Prop :=
  ∀ q, q? = some q → W.key.IsPrevious q ∧ fs.entry W.key.digest = none ∧ fs.entry q ≠ none ∧
    ∃ mv, lastMove W fs = some mv ∧ mv.src = W.key.digest ∧ mv.dst = q

theorem WasMoved.moved (hk : W.key.Valid) {q : Name} {fs fs' : FS W.G} (hq : W.key.IsPrevious q)
    (h : Moved W.key.digest q fs fs') : WasMoved W (some q) fs' := by
  rintro q' hq'
  cases hq'
  have hne : W.key.digest ≠ q := fun he => Key.final_not_previous hk (he ▸ hq)
  obtain ⟨i, h1, rfl, -⟩ := h
  refine ⟨hq, by simp [move_entry], ?_, _, lastMove_move_src, rfl, rfl⟩
  simp [move_entry, hne.symm]

theorem restore_safe (hk : W.key.Valid)
    (hT : ∀ fs fs', Trans W F fs fs' → fs'.built = fs.built → Gd fs fs')
    {fs : FS W.G} (hb : Base W bs fs) (q? : Option Name) (hq : WasMoved W q? fs) (x : Err) :
    Safe W.key F Gd K (restore W q? x) true fs fun h' r fs' => h' = true ∧ Base W bs fs' ∧
      (∀ u, r ≠ .ok u) ∧
      (Undo W F → match q? with
        | none => fs' = fs
        | some q => Moved q W.key.digest fs fs') := by
  have hrefl : ∀ fs, Gd fs fs := fun fs => hT _ _ (.stay fs) rfl
  unfold restore
  cases q? with
  | none => exact ⟨rfl, hb, by simp, fun _ => rfl⟩
  | some q =>
    obtain ⟨hp, hfin, hex, mv, h1, h2, h3⟩ := hq q rfl
    simp only
    by_cases hu : Undo W F
    · refine Safe.bind (Safe.mono (Safe.and (fun _ _ _ => trivial) (lexists_safe hrefl)
        (lexists_undo hu)) ?_)
      rintro h' r fs' ⟨⟨rfl, h4, -⟩, -, -, rfl⟩
      replace h4 := h4.symm
      subst h4
      have : (fs.entry q).isSome = true := by
        cases h : fs.entry q with
        | none => exact (hex h).elim
        | some i => rfl
      simp only [this, not_true_eq_false, if_false]
      refine Safe.bind (Safe.mono (Safe.and (fun _ _ _ => trivial) (lexists_safe hrefl)
        (lexists_undo hu)) ?_)
      rintro h' r fs' ⟨⟨rfl, h4, -⟩, -, -, rfl⟩
      replace h4 := h4.symm
      subst h4
      simp only [World.final, hfin, Option.isSome_none, Bool.false_eq_true, if_false]
      refine Safe.bind (Safe.tryExcept (Safe.callHeld (by simp) (by simp) ?_))
      intro r fs' hs
      have hn := hs.norm ⟨hu.back q hp, hu.rename q _⟩
      cases hi : fs.entry q with
      | none => exact (hex hi).elim
      | some i =>
        obtain ⟨h5, h6⟩ := hn
        unfold FS.rename at h5 h6
        rw [hi] at h5 h6
        simp only at h5 h6
        rw [hfin] at h5 h6
        simp only at h5 h6
        subst h5
        have hm : Moved q W.key.digest fs fs' := ⟨i, hi, h6, .inl hfin⟩
        have ht : Trans W F fs fs' := .putBack _ _ q mv hp h1 h2 h3 hm
        exact ⟨hT _ _ ht hm.built, rfl, hb.trans hk ht hm.built, by simp, fun _ => hm⟩
    · have done : ∀ fs' : FS W.G, Base W bs fs' → ∀ y, true = true ∧ Base W bs fs' ∧
          (∀ u, (Except.error y : Except Err Unit) ≠ .ok u) ∧
          (Undo W F → Moved q W.key.digest fs fs') :=
        fun fs' hb' y => ⟨rfl, hb', by simp, fun h => (hu h).elim⟩
      refine Safe.bind (Safe.mono (lexists_safe hrefl) ?_)
      rintro h' r fs' ⟨rfl, h4, -⟩
      replace h4 := h4.symm
      subst h4
      cases r with
      | error y => exact done fs hb y
      | ok b =>
        cases b with
        | false => exact done fs hb x
        | true =>
          simp only [not_true_eq_false, if_false]
          refine Safe.bind (Safe.mono (lexists_safe hrefl) ?_)
          rintro h' r fs' ⟨rfl, h4, -⟩
          replace h4 := h4.symm
          subst h4
          cases r with
          | error y => exact done fs hb y
          | ok b =>
            cases b with
            | true => exact done fs hb x
            | false =>
              simp only [Bool.false_eq_true, if_false]
              refine Safe.bind (Safe.mono (replace_safe hrefl fun fs2 hm =>
                hT _ _ (.putBack _ _ q mv hp h1 h2 h3 hm) hm.built) ?_)
              rintro h' r fs' ⟨rfl, h5, -⟩
              have hb' : Base W bs fs' := by
                rcases h5 with rfl | h5
                · exact hb
                · exact hb.trans hk (F := F) (.putBack _ _ q mv hp h1 h2 h3 h5) h5.built
              cases r with
              | error y => exact done fs' hb' y
              | ok _ => exact done fs' hb' x

/-- With a directory that is not empty under the final name `restore` does nothing. -/
theorem restore_blocked (hrefl : ∀ fs, Gd fs fs) {fs : FS W.G}
    (hf : ∃ j e es, fs.entry W.key.digest = some j ∧ fs.node j = .dir (e :: es))
    (q? : Option Name) (x : Err) :
    Safe W.key F Gd K (restore W q? x) true fs fun h' r fs' => h' = true ∧ fs' = fs ∧
      ∀ u, r ≠ .ok u := by
  obtain ⟨j, e, es, h1, h2⟩ := hf
  have hno : ∀ q fs', ¬ Moved q W.key.digest fs fs' := by
    rintro q fs' ⟨i, -, -, h3 | ⟨k, h3, h4⟩⟩
    · rw [h1] at h3; cases h3
    · rw [h1] at h3
      cases h3
      rw [h2] at h4
      cases hn : fs.node i <;> rw [hn] at h4 <;> simp [FS.mayReplace] at h4
  unfold restore
  cases q? with
  | none => exact ⟨rfl, rfl, by simp⟩
  | some q =>
    simp only
    refine Safe.bind (Safe.mono (lexists_safe hrefl) ?_)
    rintro h' r fs' ⟨rfl, rfl, -⟩
    cases r with
    | error y => exact ⟨rfl, rfl, by simp⟩
    | ok b =>
      cases b with
      | false => exact ⟨rfl, rfl, by simp⟩
      | true =>
        simp only [not_true_eq_false, if_false]
        refine Safe.bind (Safe.mono (lexists_safe hrefl) ?_)
        rintro h' r fs'' ⟨rfl, rfl, -⟩
        cases r with
        | error y => exact ⟨rfl, rfl, by simp⟩
        | ok b =>
          cases b with
          | true => exact ⟨rfl, rfl, by simp⟩
          | false =>
            simp only [Bool.false_eq_true, if_false]
            refine Safe.bind (Safe.mono (replace_safe hrefl
              fun fs2 hm => (hno q fs2 hm).elim) ?_)
            rintro h' r fs2 ⟨rfl, h5, -⟩
            rcases h5 with rfl | h5
            · cases r with
              | error y => exact ⟨rfl, rfl, by simp⟩
              | ok _ => exact ⟨rfl, rfl, by simp⟩
            · exact (hno q _ h5).elim

theorem swapIn_safe (hk : W.key.Valid)
    (hT : ∀ fs fs', Trans W F fs fs' → fs'.built = fs.built → Gd fs fs')
    {fs : FS W.G} (hb : Base W bs fs) {tmp : Name} (htmp : W.key.IsTmp tmp) {t : Ino}
    {p : W.G × W.G} (hp : p ∈ fs.built) (ht : fs.entry tmp = some t)
    (hes : fs.node t = .dir (bundleOf W (W.opt p.1) (W.opt p.2))) (hg : ∃ g, Reloads W p g)
    (q? : Option Name) (hq : WasMoved W q? fs) :
    Safe W.key F Gd K (swapIn W tmp q?) true fs fun h' r fs' => h' = true ∧ Base W bs fs' ∧
      (∀ u, r = .ok u → Moved tmp W.key.digest fs fs') ∧
      (∀ x, r = .error x → Undo W F → match q? with
        | none => fs' = fs
        | some q => Moved q W.key.digest fs fs') := by
  have hrefl : ∀ fs, Gd fs fs := fun fs => hT _ _ (.stay fs) rfl
  unfold swapIn replaceWithRetry
  refine Safe.tryExcept (Safe.tryExcept (Safe.callHeld (by simp) (by simp) ?_))
  intro r fs' hs
  obtain ⟨h1, h2⟩ := sem_rename hs
  have ht' : Trans W F fs fs' := by
    rcases h1 with rfl | h1
    · exact .stay _
    · exact .putNew _ _ tmp p t htmp hp ht hes hg h1
  have hbu : fs'.built = fs.built := by
    rcases h1 with rfl | h1
    · rfl
    · exact h1.built
  refine ⟨hT _ _ ht' hbu, ?_⟩
  have hb' := hb.trans hk ht' hbu
  cases r with
  | ok u => exact ⟨rfl, hb', fun _ _ => h2 rfl, by simp⟩
  | error x =>
    have hsafe : ∀ y, Safe W.key F Gd K (restore W q? y) true fs' fun h' r fs'' => h' = true ∧
        Base W bs fs'' ∧ (∀ u, r = .ok u → Moved tmp W.key.digest fs fs'') ∧
        (∀ x, r = .error x → Undo W F → match q? with
          | none => fs'' = fs
          | some q => Moved q W.key.digest fs fs'') := by
      intro y
      rcases h1 with rfl | h1
      · refine Safe.mono (restore_safe hk hT hb' q? hq y) ?_
        rintro h' r fs'' ⟨h3, h4, h5, h6⟩
        exact ⟨h3, h4, fun u hu => (h5 u hu).elim, fun _ _ => h6⟩
      · -- the rename took effect and was then interrupted
        by_cases hu : Undo W F
        · have h3 := sem_rename_error (hu.rename _ _) hs
          subst h3
          refine Safe.mono (restore_safe hk hT hb' q? hq y) ?_
          rintro h' r fs'' ⟨h3, h4, h5, h6⟩
          exact ⟨h3, h4, fun u hu => (h5 u hu).elim, fun _ _ => h6⟩
        · have taken : ∃ j e es, fs'.entry W.key.digest = some j ∧ fs'.node j = .dir (e :: es) := by
            have hne : W.key.digest ≠ tmp := fun he => Key.final_not_tmp hk (he ▸ htmp)
            obtain ⟨i, hi, rfl, -⟩ := h1
            rw [ht] at hi
            cases hi
            exact ⟨t, _, _, by simp [move_entry, hne, World.final], hes⟩
          refine Safe.mono (restore_blocked hrefl taken q? y) ?_
          rintro h' r fs'' ⟨rfl, rfl, h5⟩
          exact ⟨rfl, hb', fun u hu => (h5 u hu).elim, fun _ _ h => (hu h).elim⟩
    simp only
    split
    · exact hsafe _
    · exact hsafe _

/-- The `finally` of `publish`. -/
theorem cleanTmp_safe (hk : W.key.Valid)
    (hT : ∀ fs fs', Trans W F fs fs' → fs'.built = fs.built → Gd fs fs')
    {fs : FS W.G} (hb : Base W bs fs) {tmp : Name} (htmp : W.key.IsTmp tmp) :
    Safe W.key F Gd K (cleanTmp W tmp) true fs fun h' _ fs' => h' = true ∧ Base W bs fs' ∧
      Cut tmp fs fs' := by
  have hrefl : ∀ fs, Gd fs fs := fun fs => hT _ _ (.stay fs) rfl
  unfold cleanTmp
  refine Safe.bind (Safe.mono (lexists_safe hrefl) ?_)
  rintro h' r fs' ⟨rfl, h1, -⟩
  replace h1 := h1.symm
  subst h1
  cases r with
  | error x => exact ⟨rfl, hb, Cut.refl _ _⟩
  | ok b =>
    cases b with
    | false => exact ⟨rfl, hb, Cut.refl _ _⟩
    | true =>
      simp only [if_true]
      refine Safe.bind (Safe.mono (removeFlat_safe hrefl
        fun fs1 fs2 _ h => hT _ _ (.cutTmp _ _ tmp htmp h) h.built) ?_)
      rintro h' r fs' ⟨rfl, h2, -⟩
      have hb' := hb.trans hk (F := F) (.cutTmp _ _ tmp htmp h2) h2.built
      cases r with
      | error x => exact ⟨rfl, hb', h2⟩
      | ok _ => exact ⟨rfl, hb', h2⟩

theorem cleanTmp_removes (hu : Undo W F) {fs : FS W.G} {tmp : Name} (htmp : W.key.IsTmp tmp)
    {t : Ino} {es : List (Name × Ent)} (hrem : AllRemovable es) (ht : fs.entry tmp = some t)
    (hes : fs.node t = .dir es) :
    Safe W.key F (Any W) K (cleanTmp W tmp) true fs fun h' r fs' => h' = true ∧ r = .ok () ∧
      fs'.entry tmp = none := by
  unfold cleanTmp
  refine Safe.bind (Safe.mono (lexists_undo hu) ?_)
  rintro h' r fs' ⟨rfl, rfl, rfl⟩
  simp only [ht, Option.isSome_some, if_true]
  refine Safe.bind (Safe.mono (removeFlat_removes hu htmp hrem ht hes) ?_)
  rintro h' r fs'' ⟨rfl, rfl, h1⟩
  exact ⟨rfl, rfl, h1⟩

/-- The pair `p` is what the final name stands for. -/
def HasNew (W : World) (p : W.G × W.G) (fs : FS W.G) : Prop :=
  ∃ t, fs.entry W.key.digest = some t ∧ fs.node t = .dir (bundleOf W (W.opt p.1) (W.opt p.2))

/-- The pair `p` was published, it can be read back, and no temporary directory remained. -/
structure Installed (W : World) (p : W.G × W.G) (fs fs' : FS W.G) : Prop where
  new : HasNew W p fs'
  tmp : ∀ n, W.key.IsTmp n → fs'.entry n = fs.entry n
  reloads : ∃ g, Reloads W p g

/-- The bundle and the temporary directories are as they were. -/
structure Restored (W : World) (fs fs' : FS W.G) : Prop where
  final : fs'.entry W.key.digest = fs.entry W.key.digest
  tmp : ∀ n, W.key.IsTmp n → fs'.entry n = fs.entry n
  node : ∀ n i, fs.entry n = some i → fs'.node i = fs.node i

/-- As `Restored`, but for the directory `tmp` of the attempt. -/
structure Undone (W : World) (tmp : Name) (t : Ino) (fs fs' : FS W.G) : Prop where
  final : fs'.entry W.key.digest = fs.entry W.key.digest
  others : ∀ n, W.key.IsTmp n → n ≠ tmp → fs'.entry n = fs.entry n
  own : fs'.entry tmp = some t
  content : ∃ es, fs'.node t = .dir es ∧ AllRemovable es
  node : ∀ j, j ≠ t → fs'.node j = fs.node j

theorem bundleOf_removable (t v : W.G) : AllRemovable (bundleOf W t v) := by
  intro e ent h
  unfold bundleOf at h
  simp only [List.mem_cons, List.not_mem_nil, or_false] at h
  rcases h with h | h | h <;> cases h
  · exact removable_bundle mem_manifest
  · exact removable_bundle mem_verbalizer
  · exact removable_bundle mem_tagger

theorem publish_safe (hk : W.key.Valid)
    (hT : ∀ fs fs', Trans W F fs fs' → fs'.built = fs.built → Gd fs fs')
    {fs : FS W.G} (hb : Base W bs fs) (hc : Ck W F fs) {p : W.G × W.G} (hp : p ∈ fs.built) :
    Safe W.key F Gd K (publish W (W.opt p.1) (W.opt p.2)) true fs fun h' r fs' => h' = true ∧
      Base W bs fs' ∧ (∀ u, r = .ok u → Installed W p fs fs' ∧ fs'.built = fs.built) ∧
      (∀ x, r = .error x → Undo W F → Restored W fs fs' ∨ Installed W p fs fs') := by
  have hrefl : ∀ fs, Gd fs fs := fun fs => hT _ _ (.stay fs) rfl
  unfold publish
  refine Safe.bind (Safe.callHeld (by simp) (by simp) ?_)
  intro r fs1 hs
  have restored : Restored W fs fs := ⟨rfl, fun _ _ => rfl, fun _ _ _ => rfl⟩
  rcases hs with ⟨u, h1, rfl, rfl⟩ | ⟨-, rfl, x, rfl⟩ | ⟨hl, rfl, r', u, h1, rfl, rfl⟩
  rotate_left
  · exact ⟨hrefl _, rfl, hb, by simp, fun _ _ _ => .inl restored⟩
  · have ht : Trans W F fs (fs.mkdir (W.key.tmp ++ u)) := .mkdtemp _ _ ⟨u, rfl⟩ h1
    exact ⟨hT _ _ ht rfl, rfl, hb.trans hk ht rfl, by simp, fun _ _ h => (h.mkdtemp hl).elim⟩
  simp only
  generalize htmp' : W.key.tmp ++ u = tmp at h1
  have htmp : W.key.IsTmp tmp := ⟨u, htmp'⟩
  have htr : Trans W F fs (fs.mkdir tmp) := .mkdtemp _ _ htmp h1
  have hb1 : Base W bs (fs.mkdir tmp) := hb.trans hk htr rfl
  have hc1 : Ck W F (fs.mkdir tmp) := hc.same (same_mkdir hk hb.wf htmp)
  have hne : W.key.digest ≠ tmp := fun he => Key.final_not_tmp hk (he ▸ htmp)
  refine ⟨hT _ _ htr rfl, ?_⟩
  have ht1 : (fs.mkdir tmp).entry tmp = some fs.next := by simp [FS.mkdir]
  have hn1 : (fs.mkdir tmp).node fs.next = .dir [] := by simp [FS.mkdir]
  -- what is known of a state in which the attempt is over
  have finish : ∀ (x : Err) (fsE : FS W.G), Base W bs fsE →
      (Undo W F → Undone W tmp fs.next fs fsE) →
      Safe W.key F Gd K ((cleanTmp W tmp).bind fun _ => (.raise x : Prog W.G (Option Name))) true
        fsE fun h' r fs' => h' = true ∧ Base W bs fs' ∧ (∀ q, r ≠ .ok q) ∧
          (Undo W F → Restored W fs fs') := by
    intro x fsE hbE hE
    refine Safe.bind ?_
    by_cases hu : Undo W F
    · obtain ⟨e1, e2, e3, ⟨es, e4, e5⟩, e6⟩ := hE hu
      refine Safe.mono (Safe.and (fun _ _ _ => trivial) (cleanTmp_safe hk hT hbE htmp)
        (cleanTmp_removes hu htmp e5 e3 e4)) ?_
      rintro h' r fs' ⟨⟨rfl, h2, h3⟩, -, rfl, h4⟩
      refine ⟨rfl, h2, by simp, fun _ => ⟨?_, ?_, ?_⟩⟩
      · rw [h3.other _ hne, e1]
      · intro n hn
        by_cases hnt : n = tmp
        · rw [hnt, h4, h1]
        · rw [h3.other _ hnt, e2 n hn hnt]
      · intro n i hi
        have hlt := hb.wf.lt _ _ hi
        have hit : i ≠ fs.next := by omega
        rcases h3.node i with h5 | ⟨h5, -⟩
        · rw [h5, e6 i hit]
        · rw [e3] at h5
          cases h5
          exact (hit rfl).elim
    · refine Safe.mono (cleanTmp_safe hk hT hbE htmp) ?_
      rintro h' r fs' ⟨rfl, h2, -⟩
      cases r with
      | error y => exact ⟨rfl, h2, by simp, fun h => (hu h).elim⟩
      | ok _ => exact ⟨rfl, h2, by simp, fun h => (hu h).elim⟩
  -- staging keeps everything but the new directory
  have stg : ∀ fs2 : FS W.G, Staged (F := F) (bs := bs) fs.next (fs.mkdir tmp) fs2 →
      Undone W tmp fs.next fs fs2 := by
    intro fs2 h2
    refine ⟨?_, ?_, ?_, h2.content, ?_⟩
    · rw [h2.entry]
      simp [FS.mkdir, hne]
    · intro n hn hnt
      rw [h2.entry]
      simp [FS.mkdir, hnt]
    · rw [h2.entry, ht1]
    · intro j hj
      rw [h2.node j hj]
      simp [FS.mkdir, hj]
  have body : Safe W.key F Gd K (((stage W tmp (W.opt p.1) (W.opt p.2)).bind fun _ =>
      (moveCurrent W).bind fun previous =>
      (swapIn W tmp previous).bind fun _ => .ret previous).tryExcept fun x =>
        (cleanTmp W tmp).bind fun _ => .raise x) true (fs.mkdir tmp)
      fun h' r fs' => h' = true ∧ Base W bs fs' ∧
        (∀ q, r = .ok q → Installed W p fs fs' ∧ fs'.built = fs.built ∧
          (∀ n, q = some n → W.key.IsPrevious n) ∧ Ck W F fs') ∧
        (∀ x, r = .error x → Undo W F → Restored W fs fs') := by
    have fin : ∀ (x : Err) (fsE : FS W.G), Base W bs fsE →
        (Undo W F → Undone W tmp fs.next fs fsE) →
        Safe W.key F Gd K ((cleanTmp W tmp).bind fun _ => (.raise x : Prog W.G (Option Name))) true
          fsE fun h' r fs' => h' = true ∧ Base W bs fs' ∧
            (∀ q, r = .ok q → Installed W p fs fs' ∧ fs'.built = fs.built ∧
              (∀ n, q = some n → W.key.IsPrevious n) ∧ Ck W F fs') ∧
            (∀ x, r = .error x → Undo W F → Restored W fs fs') := by
      intro x fsE hbE hE
      refine Safe.mono (finish x fsE hbE hE) ?_
      rintro h' r fs' ⟨h2, h3, h4, h5⟩
      exact ⟨h2, h3, fun q hq => (h4 q hq).elim, fun _ _ => h5⟩
    refine Safe.tryExcept (Safe.bind (Safe.mono (stage_safe hk hT htmp hb1 hc1 ht1 hn1) ?_))
    rintro h' r fs2 ⟨rfl, h2, h3⟩
    have hU2 := stg fs2 h2
    cases r with
    | error x => exact fin x fs2 h2.base fun _ => hU2
    | ok _ =>
      obtain ⟨hbun, ⟨x, hx⟩, ⟨y, hy⟩⟩ := h3 _ rfl
      refine Safe.bind (Safe.mono (moveCurrent_safe hk hT (hb.built ▸ List.ne_nil_of_mem hp) h2.base h2.ck) ?_)
      rintro h' r fs3 ⟨rfl, hb3, h4, h5, h6⟩
      cases r with
      | error x =>
        refine fin x fs3 hb3 fun hu => ?_
        rw [h4 x rfl hu]
        exact hU2
      | ok q? =>
        have h5 := h5 q? rfl
        have hent3 : fs3.entry tmp = some fs.next ∧ fs3.node = fs2.node ∧
            fs3.built = fs2.built ∧
            ∀ n, W.key.IsTmp n → n ≠ tmp → fs3.entry n = fs.entry n := by
          rcases h6 with rfl | ⟨q, hq, i, hi, rfl, -⟩
          · exact ⟨hU2.own, rfl, rfl, hU2.others⟩
          · have hqt : tmp ≠ q := fun he => Key.tmp_not_previous htmp (he ▸ hq)
            refine ⟨?_, rfl, rfl, ?_⟩
            · rw [move_entry, if_neg hne.symm, if_neg hqt]
              exact hU2.own
            · intro n hn hnt
              have h9 : n ≠ q := fun he => Key.tmp_not_previous hn (he ▸ hq)
              have h10 : n ≠ W.key.digest := fun he => Key.final_not_tmp hk (he ▸ hn)
              rw [move_entry, if_neg h10, if_neg h9]
              exact hU2.others n hn hnt
        have hwas : WasMoved W q? fs3 := by
          cases q? with
          | none => intro q hq; cases hq
          | some q => exact WasMoved.moved hk h5.1 h5.2
        refine Safe.bind (Safe.mono (swapIn_safe hk hT hb3 htmp (p := p) ?_ hent3.1
          (by rw [hent3.2.1]; exact hbun) ⟨_, x, y, hx, hy, rfl⟩ q? hwas) ?_)
        · rw [hent3.2.2.1, h2.built]
          exact hp
        · rintro h' r fs4 ⟨rfl, hb4, h7, h8⟩
          cases r with
          | error x =>
            refine fin x fs4 hb4 fun hu => ?_
            have h8 := h8 x rfl hu
            cases q? with
            | none =>
              simp only at h5 h8
              rw [h8, h5.1]
              exact hU2
            | some q =>
              obtain ⟨hq, i, hi, rfl, -⟩ := h5
              obtain ⟨j, hj, rfl, -⟩ := h8
              have hqf : q ≠ W.key.digest := fun he => Key.final_not_previous hk (he ▸ hq)
              have hji : j = i := by
                rw [move_entry, if_neg hqf, if_pos rfl] at hj
                cases hj
                rfl
              subst hji
              refine ⟨?_, ?_, ?_, hU2.content, hU2.node⟩
              · rw [move_entry, if_neg hqf.symm, if_pos rfl, ← hi]
                exact hU2.final
              · intro n hn hnt
                have h9 : n ≠ q := fun he => Key.tmp_not_previous hn (he ▸ hq)
                have h10 : n ≠ W.key.digest := fun he => Key.final_not_tmp hk (he ▸ hn)
                rw [move_entry, if_neg h9, if_neg h10, move_entry, if_neg h10, if_neg h9]
                exact hU2.others n hn hnt
              · have h9 : tmp ≠ q := fun he => Key.tmp_not_previous htmp (he ▸ hq)
                rw [move_entry, if_neg h9, if_neg hne.symm, move_entry, if_neg hne.symm, if_neg h9]
                exact hU2.own
          | ok _ =>
            obtain ⟨i, hi, rfl, -⟩ := h7 _ rfl
            have hit : i = fs.next := by
              rw [hent3.1] at hi
              cases hi
              rfl
            subst hit
            have hnew : HasNew W p (fs3.move tmp W.key.digest fs.next) := by
              refine ⟨fs.next, ?_, ?_⟩
              · rw [move_entry, if_neg hne, if_pos rfl]
              · show fs3.node fs.next = _
                rw [hent3.2.1]
                exact hbun
            have hinst : Installed W p fs (fs3.move tmp W.key.digest fs.next) := by
              refine ⟨hnew, ?_, _, x, y, hx, hy, rfl⟩
              intro n hn
              have h10 : n ≠ W.key.digest := fun he => Key.final_not_tmp hk (he ▸ hn)
              by_cases hnt : n = tmp
              · rw [move_entry, if_pos hnt, hnt, h1]
              · rw [move_entry, if_neg hnt, if_neg h10]
                exact hent3.2.2.2 n hn hnt
            refine ⟨rfl, hb4, ?_, by simp⟩
            intro q hq
            cases hq
            refine ⟨hinst, ?_, ?_, ?_⟩
            · show fs3.built = _
              rw [hent3.2.2.1, h2.built]
              rfl
            · intro n hn
              subst hn
              exact h5.1
            · rintro hr -
              obtain ⟨t, h9, h10⟩ := hnew
              exact ⟨t, _, h9, h10, bundleOf_names _ _, _, bundleOf_holds hr.2
                ⟨x, y, hx, hy, rfl⟩⟩
  refine Safe.bind (Safe.mono body ?_)
  rintro h' r fs' ⟨rfl, h2, h3, h4⟩
  cases r with
  | error x => exact ⟨rfl, h2, by simp, fun _ _ hu => .inl (h4 x rfl hu)⟩
  | ok q? =>
    obtain ⟨h5, h6, h7, h8⟩ := h3 q? rfl
    cases q? with
    | none => exact ⟨rfl, h2, fun _ _ => ⟨h5, h6⟩, by simp⟩
    | some q =>
      have hq := h7 q rfl
      have hres : W.key.residual q = true := (Key.residual_iff _ _).2 (.inr (.inl hq))
      simp only
      refine Safe.bind (Safe.mono (removeFlat_clean hk hT hres h2 h8) ?_)
      rintro h' r fs'' ⟨rfl, h9, -, h10⟩
      have hnew : Installed W p fs fs'' := by
        have hqf := residual_ne_final hk hres
        obtain ⟨⟨t, h11, h12⟩, h13, h14⟩ := h5
        refine ⟨⟨t, by rw [h10.other _ hqf.symm]; exact h11, ?_⟩, ?_, h14⟩
        · rcases h10.node t with h15 | ⟨h15, -⟩
          · rw [h15, h12]
          · exact (hqf (h2.wf.inj _ _ _ h15 h11)).elim
        · intro n hn
          have h15 : n ≠ q := fun he => Key.tmp_not_previous hn (he ▸ hq)
          rw [h10.other _ h15]
          exact h13 n hn
      cases r with
      | error x => exact ⟨rfl, h9, by simp, fun _ _ _ => .inr hnew⟩
      | ok _ => exact ⟨rfl, h9, fun _ _ => ⟨hnew, by rw [h10.built, h6]⟩, by simp⟩

end Verif.Cache
