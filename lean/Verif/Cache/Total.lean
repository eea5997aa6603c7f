import Verif.Cache.Foreign

/-
Without failures the recovery of residuals ends normally.
-/

namespace Verif.Cache

variable {W : World} {F : Faults} {K : FS W.G → Prop}

/-- Nothing fails. -/
def NoFaults (F : Faults) : Prop := ∀ o, ¬ F.fail o ∧ ¬ F.late o

/-- The files of a bundle in the list are regular. -/
def Plain (es : List (Name × Ent)) : Prop :=
  ∀ e ent, es.lookup e = some ent →
    e = "tagger.fst".toList ∨ e = "verbalizer.fst".toList ∨ e = "manifest.json".toList →
    ∃ b, ent = .reg b

theorem norm_error {G : Type} {key : Key} {o : Op} {fs fs' : FS G} {x : Err}
    (h : Norm key o fs (.error x) fs') : x.isOS = true := by
  cases o with
  | openDir n =>
    obtain ⟨h, -⟩ := h
    unfold FS.openDir at h
    split at h
    · cases h; rfl
    · split at h <;> cases h
      rfl
  | listFd n => cases h.1
  | readFd n e =>
    obtain ⟨h, -⟩ := h
    unfold FS.readEnt at h
    split at h <;> cases h <;> rfl
  | lstat n =>
    obtain ⟨h, -⟩ := h
    unfold FS.lstat at h
    split at h <;> cases h
    rfl
  | mtime n =>
    obtain ⟨-, h⟩ := h
    split at h
    · cases h; rfl
    · obtain ⟨t, h⟩ := h
      cases h
  | iterdir => obtain ⟨-, l, h, -⟩ := h; cases h
  | scandir n =>
    obtain ⟨h, -⟩ := h
    unfold FS.inDir at h
    split at h
    · cases h; rfl
    · split at h <;> cases h
      rfl
  | lstatIn n e =>
    obtain ⟨h, -⟩ := h
    unfold FS.lstatIn FS.inDir at h
    split at h
    · cases h; rfl
    · split at h
      · simp only [bind, Except.bind] at h
        split at h <;> cases h
        rfl
      · cases h; rfl
  | unlinkFd fd e =>
    obtain ⟨h, -⟩ := h
    unfold FS.unlinkFd at h
    split at h <;> cases h <;> rfl
  | rmdir n =>
    obtain ⟨h, -⟩ := h
    unfold FS.rmdir at h
    split at h
    · cases h; rfl
    · split at h <;> cases h <;> rfl
  | rename a b =>
    obtain ⟨h, -⟩ := h
    unfold FS.rename at h
    split at h
    · cases h; rfl
    · split at h
      · cases h
      · split at h <;> cases h
        rfl
  | mkdtemp => obtain ⟨u, -, h, -⟩ := h; cases h
  | write n e b =>
    obtain ⟨h, -⟩ := h
    unfold FS.write at h
    split at h
    · cases h; rfl
    · split at h <;> cases h
      rfl
  | readPath n e =>
    obtain ⟨h, -⟩ := h
    unfold FS.inDir at h
    split at h
    · cases h; rfl
    · split at h
      · simp only [Except.bind, FS.readEnt] at h
        split at h <;> cases h <;> rfl
      · cases h; rfl
  | uuid => obtain ⟨-, u, h⟩ := h; cases h
  | openAnchor => cases h.2
  | acquire => cases h.2
  | writeOwner => cases h.2
  | release => cases h.2
  | build => obtain ⟨p, h, -⟩ := h; cases h
  | fingerprint => cases h.2

/-- The exceptions that `best_effort` turns into `False`. -/
abbrev Soft (x : Err) : Prop := x.isOS = true ∨ x = .path

theorem callHeld_soft (hF : NoFaults F) {o : Op} (ho : o ≠ .acquire) (ho' : o ≠ .release)
    {fs : FS W.G} :
    Safe W.key F (Any W) K (Prog.call o) true fs fun h' r _ => h' = true ∧
      ∀ x, r = .error x → Soft x := by
  refine Safe.callHeld ho ho' ?_
  intro r fs' hs
  refine ⟨trivial, rfl, ?_⟩
  rintro x rfl
  exact .inl (norm_error (hs.norm (hF o)))

theorem removeFlat_total (hF : NoFaults F) {fs : FS W.G} {n : Name} :
    Safe W.key F (Any W) K (removeFlat W n true) true fs fun h' r _ => h' = true ∧
      ∃ b, r = .ok b := by
  have ce : ∀ l (fs : FS W.G), Safe W.key F (Any W) K (checkEntries W n l) true fs
      fun h' r _ => h' = true ∧ ∀ x, r = .error x → Soft x := by
    intro l
    induction l with
    | nil => intro fs; exact ⟨rfl, by simp⟩
    | cons e l ih =>
      intro fs
      unfold checkEntries
      refine Safe.bind (Safe.mono (callHeld_soft hF (by simp) (by simp)) ?_)
      rintro h' r fs' ⟨rfl, h1⟩
      cases r with
      | error x => exact ⟨rfl, by rintro y hy; cases hy; exact h1 x rfl⟩
      | ok k =>
        simp only
        split
        · exact ih _
        · split
          · exact ih _
          · exact ⟨rfl, by simp⟩
        · exact ⟨rfl, by simp⟩
  have ua : ∀ fd l (fs : FS W.G), Safe W.key F (Any W) K (unlinkAll W fd l) true fs
      fun h' r _ => h' = true ∧ ∀ x, r = .error x → Soft x := by
    intro fd l
    induction l with
    | nil => intro fs; exact ⟨rfl, by simp⟩
    | cons e l ih =>
      intro fs
      unfold unlinkAll
      refine Safe.bind (Safe.tryExcept (Safe.mono (callHeld_soft hF (by simp) (by simp)) ?_))
      rintro h' r fs' ⟨rfl, h1⟩
      cases r with
      | error x =>
        simp only
        split
        · exact ih _
        · exact ⟨rfl, by rintro y hy; cases hy; exact h1 x rfl⟩
      | ok k => exact ih _
  unfold removeFlat
  refine Safe.tryExcept (Safe.mono (Q := fun h' r _ => h' = true ∧
    ∀ x, r = .error x → Soft x) ?_ ?_)
  · unfold removeFlatImpl
    refine Safe.bind (Safe.tryExcept (Safe.bind (Safe.mono
      (callHeld_soft hF (by simp) (by simp)) ?_)))
    rintro h' r fs' ⟨rfl, h1⟩
    cases r with
    | error x =>
      simp only
      split
      · exact ⟨rfl, by simp⟩
      · exact ⟨rfl, by rintro y hy; cases hy; exact h1 x rfl⟩
    | ok st =>
      obtain ⟨kind, ino⟩ := st
      simp only [Safe]
      split
      · exact ⟨rfl, by simp⟩
      · refine Safe.bind (Safe.mono (callHeld_soft hF (by simp) (by simp)) ?_)
        rintro h' r fs' ⟨rfl, h1⟩
        cases r with
        | error x => exact ⟨rfl, by rintro y hy; cases hy; exact h1 x rfl⟩
        | ok entries =>
          refine Safe.bind (Safe.mono (ce _ _) ?_)
          rintro h' r fs' ⟨rfl, h1⟩
          cases r with
          | error x => exact ⟨rfl, by rintro y hy; cases hy; exact h1 x rfl⟩
          | ok fine =>
            simp only
            split
            · exact ⟨rfl, by simp⟩
            · refine Safe.bind (Safe.mono (callHeld_soft hF (by simp) (by simp)) ?_)
              rintro h' r fs' ⟨rfl, h1⟩
              cases r with
              | error x => exact ⟨rfl, by rintro y hy; cases hy; exact h1 x rfl⟩
              | ok fd =>
                simp only
                split
                · exact ⟨rfl, by rintro y hy; cases hy; exact .inr rfl⟩
                · refine Safe.bind (Safe.mono (ua _ _ _) ?_)
                  rintro h' r fs' ⟨rfl, h1⟩
                  cases r with
                  | error x => exact ⟨rfl, by rintro y hy; cases hy; exact h1 x rfl⟩
                  | ok _ =>
                    refine Safe.bind (Safe.mono (callHeld_soft hF (by simp) (by simp)) ?_)
                    rintro h' r fs' ⟨rfl, h1⟩
                    cases r with
                    | error x => exact ⟨rfl, by rintro y hy; cases hy; exact h1 x rfl⟩
                    | ok _ => exact ⟨rfl, by simp⟩
  · rintro h' r fs' ⟨rfl, h1⟩
    cases r with
    | ok b => exact ⟨rfl, b, rfl⟩
    | error x =>
      simp only
      rw [if_pos (by simpa [Soft] using h1 x rfl)]
      exact ⟨rfl, _, rfl⟩

theorem removeAll_total (hF : NoFaults F) (l : List Name) (fs : FS W.G) :
    Safe W.key F (Any W) K (removeAll W l) true fs fun h' r _ => h' = true ∧ r = .ok () := by
  induction l generalizing fs with
  | nil => exact ⟨rfl, rfl⟩
  | cons n l ih =>
    unfold removeAll
    refine Safe.bind (Safe.mono (removeFlat_total hF) ?_)
    rintro h' r fs' ⟨rfl, b, rfl⟩
    exact ih _

/-- Reading a known file of a plain directory fails only in a way that `_load_path` expects. -/
theorem readRegularAt_plain (hF : NoFaults F) {fs : FS W.G} {fd : Ino} {e : Name}
    {x : Option Int} {m : Option Nat} (hp : Plain (fs.ents fd)) (he : e ∈ bundleNames) :
    Safe W.key F (Any W) K (readRegularAt W fd e x m) true fs fun h' r fs' => h' = true ∧
      fs' = fs ∧ ∀ y, r = .error y → y.isOS = true ∨ y = .integrity := by
  unfold readRegularAt
  refine Safe.bind (Safe.tryExcept (Safe.callRead (by simp) (by simp) rfl (fun _ => trivial) ?_))
  intro r hs
  obtain ⟨h1, -⟩ := hs.norm (hF _)
  subst h1
  unfold FS.readEnt
  cases hl : (fs.ents fd).lookup e with
  | none => exact ⟨rfl, rfl, by rintro y hy; cases hy; exact .inl rfl⟩
  | some ent =>
    obtain ⟨b, rfl⟩ := hp e ent hl ((mem_bundleNames e).1 he)
    simp only
    refine Safe.ofExcept ⟨rfl, rfl, ?_⟩
    intro y hy
    unfold readOpenRegular at hy
    simp only at hy
    split at hy
    · cases hy; exact .inr rfl
    · split at hy
      · cases hy; exact .inr rfl
      · cases hy

theorem loadGraph_total (hF : NoFaults F) {fs : FS W.G} {fd : Ino} {e : Name}
    {files : List (Str × Json)} (hp : Plain (fs.ents fd)) (he : e ∈ bundleNames) :
    Safe W.key F (Any W) K (loadGraph W fd files e) true fs fun h' r fs' => h' = true ∧
      fs' = fs ∧ ∃ g, r = .ok g := by
  unfold loadGraph
  split
  · exact ⟨rfl, rfl, _, rfl⟩
  · refine Safe.tryExcept (Safe.bind (Safe.mono (readRegularAt_plain hF hp he) ?_))
    rintro h' r fs' ⟨rfl, rfl, h1⟩
    cases r with
    | ok b => exact ⟨rfl, rfl, _, rfl⟩
    | error x =>
      simp only
      rw [if_pos (by simpa using h1 x rfl)]
      exact ⟨rfl, rfl, _, rfl⟩

theorem loadPath_total (hF : NoFaults F) {fs : FS W.G} {n : Name} {i : Ino}
    {es : List (Name × Ent)} (hi : fs.entry n = some i) (hes : fs.node i = .dir es)
    (hp : Plain es) :
    Safe W.key F (Any W) K (loadPath W n) true fs fun h' r fs' => h' = true ∧ fs' = fs ∧
      ∃ g, r = .ok g := by
  have he : fs.ents i = es := by simp [FS.ents, hes]
  have hp' : Plain (fs.ents i) := by rw [he]; exact hp
  unfold loadPath openChain
  refine Safe.tryExcept (Safe.bind (Safe.tryExcept (Safe.callRead (by simp) (by simp) rfl
    (fun _ => trivial) ?_)))
  intro r hs
  obtain ⟨h1, -⟩ := hs.norm (hF _)
  simp only [FS.openDir, hi, hes] at h1
  subst h1
  simp only
  unfold loadOpen
  refine Safe.bind (Safe.callRead (by simp) (by simp) rfl (fun _ => trivial) ?_)
  intro r hs
  obtain ⟨h1, -⟩ := hs.norm (hF _)
  subst h1
  simp only
  split
  · exact ⟨rfl, rfl, _, rfl⟩
  · unfold readManifest
    refine Safe.bind (Safe.tryExcept (Safe.bind (Safe.mono
      (readRegularAt_plain hF hp' mem_manifest) ?_)))
    have rest : ∀ j, Safe W.key F (Any W) K (match checkManifest W j with
        | none => .ret none
        | some files =>
          (loadGraph W i files taggerName).bind fun tagger =>
          match tagger with
          | none => .ret none
          | some t =>
            (loadGraph W i files verbalizerName).bind fun verbalizer =>
            .ret (verbalizer.map fun v => (t, v)) : Prog W.G (Option (W.G × W.G))) true fs
        fun h' r fs' => h' = true ∧ fs' = fs ∧ ∃ g, r = .ok g := by
      intro j
      split
      · exact ⟨rfl, rfl, _, rfl⟩
      · refine Safe.bind (Safe.mono (loadGraph_total hF hp' mem_tagger) ?_)
        rintro h' r fs' ⟨rfl, rfl, g, rfl⟩
        simp only
        split
        · exact ⟨rfl, rfl, _, rfl⟩
        · refine Safe.bind (Safe.mono (loadGraph_total hF hp' mem_verbalizer) ?_)
          rintro h' r fs' ⟨rfl, rfl, g, rfl⟩
          exact ⟨rfl, rfl, _, rfl⟩
    rintro h' r fs' ⟨rfl, rfl, h1⟩
    cases r with
    | ok b =>
      have := rest (W.loads b)
      simp only [Safe]
      refine Safe.mono this ?_
      rintro h' r fs' ⟨rfl, rfl, g, rfl⟩
      exact ⟨rfl, rfl, _, rfl⟩
    | error x =>
      simp only
      have hx : (x.isOS || x.isValue) = true := by
        rcases h1 x rfl with h | rfl
        · simp [h]
        · rfl
      rw [if_pos hx]
      have := rest none
      simp only [Safe]
      refine Safe.mono this ?_
      rintro h' r fs' ⟨rfl, rfl, g, rfl⟩
      exact ⟨rfl, rfl, _, rfl⟩

/-- Everything under a previous name is plain. -/
def PlainAt (W : World) (fs : FS W.G) : Prop :=
  ∀ n i es, W.key.IsPrevious n → fs.entry n = some i → fs.node i = .dir es → Plain es

theorem recoverFirst_total (hF : NoFaults F) {fs : FS W.G} (hpl : PlainAt W fs)
    (hf : fs.entry W.key.digest = none) (l : List Name)
    (hl : ∀ n ∈ l, W.key.IsPrevious n ∧ ∃ i es, fs.entry n = some i ∧ fs.node i = .dir es) :
    Safe W.key F (Any W) K (recoverFirst W l) true fs fun h' r _ => h' = true ∧
      ∃ n, r = .ok n := by
  induction l with
  | nil => exact ⟨rfl, _, rfl⟩
  | cons n l ih =>
    obtain ⟨hn, i, es, hi, hes⟩ := hl n List.mem_cons_self
    unfold recoverFirst
    refine Safe.bind (Safe.mono (loadPath_total hF hi hes (hpl n i es hn hi hes)) ?_)
    rintro h' r fs' ⟨rfl, rfl, g, rfl⟩
    simp only
    split
    · unfold replaceWithRetry
      refine Safe.bind (Safe.tryExcept (Safe.callHeld (by simp) (by simp) ?_))
      intro r fs'' hs
      obtain ⟨rfl, -⟩ := hs.norm (hF _)
      refine ⟨trivial, ?_⟩
      simp only [FS.rename, hi, World.final, hf, Safe]
      exact ⟨trivial, _, rfl⟩
    · exact ih fun m hm => hl m (List.mem_cons_of_mem _ hm)

theorem residualDirs_total (hF : NoFaults F) {fs : FS W.G} (l : List Name)
    (hl : ∀ n ∈ l, W.key.residual n = true → fs.entry n ≠ none) :
    Safe W.key F (Any W) K (residualDirs W l) true fs fun h' r fs' => h' = true ∧ fs' = fs ∧
      ∃ l', r = .ok l' ∧ ∀ n ∈ l', ∃ i es, fs.entry n = some i ∧ fs.node i = .dir es := by
  induction l with
  | nil => exact ⟨rfl, rfl, [], rfl, by simp⟩
  | cons n l ih =>
    have ih := ih fun m hm => hl m (List.mem_cons_of_mem _ hm)
    unfold residualDirs
    split
    · rename_i hres
      refine Safe.bind (Safe.callRead (by simp) (by simp) rfl (fun _ => trivial) ?_)
      intro r hs
      obtain ⟨h1, -⟩ := hs.norm (hF _)
      obtain ⟨i, hi⟩ := Option.ne_none_iff_exists'.1 (hl n List.mem_cons_self hres)
      simp only [FS.lstat, hi] at h1
      subst h1
      simp only
      refine Safe.bind (Safe.mono ih ?_)
      rintro h' r fs' ⟨rfl, rfl, l', rfl, h2⟩
      refine ⟨rfl, rfl, _, rfl, ?_⟩
      intro m hm
      split at hm
      · rename_i hk
        rcases List.mem_cons.1 hm with rfl | hm
        · obtain ⟨es, h3⟩ := kind_dir hk
          exact ⟨i, es, hi, h3⟩
        · exact h2 m hm
      · exact h2 m hm
    · exact ih

theorem withMtimes_total (hF : NoFaults F) {fs : FS W.G} (l : List Name)
    (hl : ∀ n ∈ l, fs.entry n ≠ none) :
    Safe W.key F (Any W) K (withMtimes W l) true fs fun h' r fs' => h' = true ∧ fs' = fs ∧
      ∃ l', r = .ok l' ∧ l'.map Prod.fst = l := by
  induction l with
  | nil => exact ⟨rfl, rfl, [], rfl, rfl⟩
  | cons n l ih =>
    have ih := ih fun m hm => hl m (List.mem_cons_of_mem _ hm)
    unfold withMtimes
    refine Safe.bind (Safe.callRead (by simp) (by simp) rfl (fun _ => trivial) ?_)
    intro r hs
    obtain ⟨-, h1⟩ := hs.norm (hF _)
    obtain ⟨i, hi⟩ := Option.ne_none_iff_exists'.1 (hl n List.mem_cons_self)
    simp only [hi] at h1
    obtain ⟨t, rfl⟩ := h1
    simp only
    refine Safe.bind (Safe.mono ih ?_)
    rintro h' r fs' ⟨rfl, rfl, l', rfl, h2⟩
    exact ⟨rfl, rfl, _, rfl, by simp [h2]⟩

theorem recoverResiduals_total (hF : NoFaults F) {fs : FS W.G} (hpl : PlainAt W fs) :
    Safe W.key F (Any W) K (recoverResiduals W) true fs fun h' r _ => h' = true ∧
      r = .ok () := by
  unfold recoverResiduals
  refine Safe.bind (Safe.callRead (by simp) (by simp) rfl (fun _ => trivial) ?_)
  intro r hs
  obtain ⟨-, l, rfl, -, hl⟩ := hs.norm (hF _)
  simp only
  refine Safe.bind (Safe.mono (residualDirs_total hF l fun n hn hr => (hl n hr).1 hn) ?_)
  rintro h' r fs' ⟨rfl, rfl, l', rfl, h1⟩
  simp only
  refine Safe.bind ?_
  unfold lexists
  refine Safe.tryExcept (Safe.bind (Safe.callRead (by simp) (by simp) rfl (fun _ => trivial) ?_))
  intro r hs
  obtain ⟨h2, -⟩ := hs.norm (hF _)
  cases hf : fs'.entry W.key.digest with
  | some i =>
    simp only [FS.lstat, World.final, hf] at h2
    subst h2
    simp only [Safe, if_true]
    exact removeAll_total hF _ _
  | none =>
    simp only [FS.lstat, World.final, hf] at h2
    subst h2
    simp only [Err.isOS, if_true, Safe, Bool.false_eq_true, if_false]
    refine Safe.bind (Safe.bind (Safe.mono (withMtimes_total hF _ ?_) ?_))
    · intro n hn
      obtain ⟨i, es, hi, -⟩ := h1 n (List.mem_filter.1 hn).1
      rw [hi]
      simp
    · rintro h' r fs'' ⟨rfl, rfl, l2, rfl, h3⟩
      simp only
      refine Safe.mono (recoverFirst_total hF hpl hf _ ?_) ?_
      · intro n hn
        simp only [List.mem_map, mem_sortDesc] at hn
        have hn : n ∈ l2.map Prod.fst := by simpa using hn
        rw [h3] at hn
        obtain ⟨h4, h5⟩ := List.mem_filter.1 hn
        exact ⟨by simpa [Key.IsPrevious] using h5, h1 n h4⟩
      · rintro h' r fs3 ⟨rfl, n, rfl⟩
        exact removeAll_total hF _ _

end Verif.Cache
