import Verif.Cache.Critical

/-
Without failures in the steps between building and publishing, a pair is built at most once.
-/

namespace Verif.Cache

variable {W : World} {F : Faults} {Gd : FS W.G → FS W.G → Prop} {K : FS W.G → Prop}
  {bs : List (W.G × W.G)}

/-- Reading a bundle, looking at the final name and the steps that publish a built pair work. All
other steps may fail. -/
structure Calm (W : World) (F : Faults) : Prop where
  reads : ReadsWork F
  lstat : ¬ F.fail (.lstat W.key.digest) ∧ ¬ F.late (.lstat W.key.digest)
  build : ¬ F.late .build
  fingerprint : ¬ F.fail .fingerprint ∧ ¬ F.late .fingerprint
  mkdtemp : ¬ F.fail .mkdtemp ∧ ¬ F.late .mkdtemp
  write : ∀ n e b, ¬ F.fail (.write n e b) ∧ ¬ F.late (.write n e b)
  readPath : ∀ n e, ¬ F.fail (.readPath n e) ∧ ¬ F.late (.readPath n e)
  rename : ∀ n, W.key.IsTmp n →
    ¬ F.fail (.rename n W.key.digest) ∧ ¬ F.late (.rename n W.key.digest)

theorem lstat_none {fs : FS W.G} {n : Name} :
    fs.lstat n = .error .notFound ↔ fs.entry n = none := by
  unfold FS.lstat
  cases fs.entry n <;> simp

/-- After `remove_invalid` the final name is free. -/
theorem removeInvalid_frees (hk : W.key.Valid) (hc : Calm W F) {fs : FS W.G} :
    Safe W.key F (Any W) K (removeInvalid W) true fs fun h' r fs' => h' = true ∧
      ∀ u, r = .ok u → fs'.entry W.key.digest = none := by
  have hrefl : ∀ fs, Any W fs fs := fun _ => trivial
  unfold removeInvalid checkBundleDirectory
  refine Safe.bind (Safe.tryExcept (Safe.bind (Safe.bind
    (Safe.callRead (by simp) (by simp) rfl hrefl ?_))))
  intro r hs
  cases r with
  | error x =>
    have h1 := (hs.norm hc.lstat).1
    simp only
    split
    · rename_i hx
      subst hx
      refine ⟨rfl, ?_⟩
      intro _ _
      exact lstat_none.1 h1.symm
    · exact ⟨rfl, by simp⟩
  | ok v =>
    simp only
    split
    · simp only [Safe, not_true_eq_false, if_false]
      refine Safe.bind (Safe.callRead (by simp) (by simp) rfl hrefl ?_)
      intro r hs
      cases r with
      | error x => exact ⟨rfl, by simp⟩
      | ok u =>
        simp only
        have hcor : W.key.IsCorrupt (W.key.corrupt ++ u) := ⟨u, rfl⟩
        have hne : W.key.digest ≠ W.key.corrupt ++ u :=
          fun he => Key.final_not_corrupt hk (he ▸ hcor)
        refine Safe.bind (Safe.mono (replace_safe hrefl fun _ _ => trivial) ?_)
        rintro h' r fs' ⟨rfl, -, h3⟩
        cases r with
        | error x => exact ⟨rfl, by simp⟩
        | ok _ =>
          refine Safe.bind (Safe.mono (removeFlat_safe hrefl fun _ _ _ _ => trivial) ?_)
          rintro h' r fs'' ⟨rfl, h4, -⟩
          cases r with
          | error x => exact ⟨rfl, by simp⟩
          | ok _ =>
            refine ⟨rfl, ?_⟩
            intro _ _
            rw [h4.other _ hne]
            obtain ⟨i, -, rfl, -⟩ := h3 rfl
            simp [move_entry, World.final]
    · simp only [Safe]
      exact ⟨rfl, by simp⟩

theorem write_calm (hc : Calm W F) {fs : FS W.G} {n e : Name} {b : Bytes} {t : Ino}
    {es : List (Name × Ent)} (ht : fs.entry n = some t) (hes : fs.node t = .dir es) :
    Safe W.key F (Any W) K (Prog.call (.write n e b)) true fs fun h' r fs' => h' = true ∧
      r = .ok () ∧ fs'.entry = fs.entry ∧
      fs'.node t = .dir ((e, .reg b) :: es.filter fun p => p.1 ≠ e) := by
  refine Safe.callHeld (by simp) (by simp) ?_
  intro r fs' hs
  obtain ⟨rfl, rfl⟩ := hs.norm (hc.write _ _ _)
  rw [write_eq ht hes]
  exact ⟨trivial, rfl, rfl, rfl, by simp [FS.setNode]⟩

theorem verifyFst_calm (hc : Calm W F) {fs : FS W.G} {n e : Name} {b : Bytes} {t : Ino}
    {es : List (Name × Ent)} (ht : fs.entry n = some t) (hes : fs.node t = .dir es)
    (hl : es.lookup e = some (.reg b)) (hp : W.parse b ≠ none) :
    Safe W.key F (Any W) K (verifyFst W n e) true fs fun h' r fs' => h' = true ∧ fs' = fs ∧
      ∃ j, r = .ok j := by
  unfold verifyFst
  refine Safe.bind (Safe.callRead (by simp) (by simp) rfl (fun _ => trivial) ?_)
  intro r hs
  have h1 := (hs.norm (hc.readPath _ _)).1
  simp only [FS.inDir, ht, hes, Except.bind, FS.readEnt, hl] at h1
  subst h1
  simp only [readOpenRegular, Option.any_none, Bool.false_eq_true, if_false]
  refine Safe.bind (Safe.ofExcept ?_)
  simp only
  split
  · rename_i h
    exact (hp h).elim
  · exact ⟨rfl, rfl, _, rfl⟩

theorem stage_calm (hc : Calm W F) (hp : ∀ g, W.parse (W.ser g) ≠ none) {fs : FS W.G} {n : Name}
    {t : Ino} {g v : W.G} (ht : fs.entry n = some t) (hes : fs.node t = .dir []) :
    Safe W.key F (Any W) K (stage W n g v) true fs fun h' r fs' => h' = true ∧ r = .ok () ∧
      fs'.entry = fs.entry := by
  unfold stage writeFst
  refine Safe.bind (Safe.mono (write_calm hc ht hes) ?_)
  rintro h' r fs1 ⟨rfl, rfl, h1, h2⟩
  refine Safe.bind (Safe.mono (write_calm hc (by rw [h1]; exact ht) h2) ?_)
  rintro h' r fs2 ⟨rfl, rfl, h3, h4⟩
  have ht2 : fs2.entry n = some t := by rw [h3, h1]; exact ht
  rw [List.filter_cons_of_pos (by simpa using tagger_ne_verbalizer), List.filter_nil,
    List.filter_nil] at h4
  refine Safe.bind (Safe.mono (verifyFst_calm (b := W.ser (W.opt g)) hc ht2 h4 ?_ (hp _)) ?_)
  · rw [List.lookup_cons]
    have : (taggerName == verbalizerName) = false := by simpa using tagger_ne_verbalizer
    rw [this]
    simp
  rintro h' r fs3 ⟨rfl, rfl, j1, rfl⟩
  refine Safe.bind (Safe.mono (verifyFst_calm (b := W.ser (W.opt v)) hc ht2 h4 ?_ (hp _)) ?_)
  · rw [List.lookup_cons]
    simp
  rintro h' r fs4 ⟨rfl, rfl, j2, rfl⟩
  refine Safe.mono (write_calm hc ht2 h4) ?_
  rintro h' r fs5 ⟨rfl, rfl, h5, -⟩
  exact ⟨rfl, rfl, by rw [h5, h3, h1]⟩

/-- Publishing under a free final name works. -/
theorem publish_calm (hk : W.key.Valid) (hc : Calm W F) (hp : ∀ g, W.parse (W.ser g) ≠ none)
    {fs : FS W.G} (hf : fs.entry W.key.digest = none) (g v : W.G) :
    Safe W.key F (Any W) K (publish W g v) true fs fun h' r _ => h' = true ∧ r = .ok () := by
  unfold publish
  refine Safe.bind (Safe.callHeld (by simp) (by simp) ?_)
  intro r fs1 hs
  obtain ⟨u, -, rfl, rfl⟩ := hs.norm hc.mkdtemp
  refine ⟨trivial, ?_⟩
  simp only
  generalize htmp' : W.key.tmp ++ u = tmp
  have htmp : W.key.IsTmp tmp := ⟨u, htmp'⟩
  have hne : W.key.digest ≠ tmp := fun he => Key.final_not_tmp hk (he ▸ htmp)
  refine Safe.bind (Safe.tryExcept (Safe.bind (Safe.mono (stage_calm hc hp (t := fs.next)
    (by simp [FS.mkdir]) (by simp [FS.mkdir])) ?_)))
  rintro h' r fs2 ⟨rfl, rfl, h2⟩
  have hf2 : fs2.entry W.key.digest = none := by simp [h2, FS.mkdir, hne, hf]
  have ht2 : fs2.entry tmp = some fs.next := by simp [h2, FS.mkdir]
  unfold moveCurrent lexists
  refine Safe.bind (Safe.bind (Safe.tryExcept (Safe.bind
    (Safe.callRead (by simp) (by simp) rfl (fun _ => trivial) ?_))))
  intro r hs
  have h3 := (hs.norm hc.lstat).1
  rw [lstat_none.2 hf2] at h3
  subst h3
  simp only [Err.isOS, if_true, Safe, Bool.false_eq_true, not_false_eq_true]
  unfold swapIn replaceWithRetry
  refine Safe.bind (Safe.tryExcept (Safe.tryExcept (Safe.callHeld (by simp) (by simp) ?_)))
  intro r fs3 hs
  obtain ⟨rfl, -⟩ := hs.norm (hc.rename _ htmp)
  refine ⟨trivial, ?_⟩
  simp only [FS.rename, ht2, World.final, hf2, Safe]
  exact ⟨trivial, trivial⟩

/-- At most one pair was built, and when one was, its bundle is kept. -/
def Once (W : World) (fs : FS W.G) : Prop :=
  fs.built = [] ∨ (∃ p, fs.built = [p]) ∧ Kept W fs

/-- The steps: a pair is built only if none was. -/
def OnceStep (W : World) (F : Faults) (fs fs' : FS W.G) : Prop :=
  Trans W F fs fs' ∧ (fs'.built = fs.built ∨ fs.built = [])

theorem FromOne.reloads {init : List (Name × Ent) → Prop}
    (hinit : ∀ es g, init es → ¬ Holds W es g) {fs : FS W.G} {g : W.G × W.G}
    (h : FromOne W init fs g) : ∃ p ∈ fs.built, Reloads W p g := by
  obtain ⟨o, h1 | ⟨p, hp, rfl⟩, h2⟩ := h
  · exact (hinit o g h1 h2).elim
  · exact ⟨p, hp, h2.bundleOf⟩

theorem HoldsAt.fromOne {init : List (Name × Ent) → Prop} {fs : FS W.G} {g : W.G × W.G}
    (hi : Inv W init fs) (h : HoldsAt W fs g) : FromOne W init fs g := by
  obtain ⟨i, es, h5, h6, -, h7⟩ := h
  obtain ⟨o, h8, h9⟩ := hi.origin _ _ _ (.inl rfl) h5 h6
  exact ⟨o, h8, h7.sub h9⟩

/-- The locked part when a bundle is kept: nothing is built. -/
theorem critical_kept (hk : W.key.Valid) (hr : Reliable W F)
    (hT : ∀ fs fs', Trans W F fs fs' → fs'.built = fs.built → Gd fs fs')
    (hkeep : ∀ fs fs', Gd fs fs' → Base W bs fs ∧ Kept W fs → Base W bs fs' ∧ Kept W fs')
    {fs : FS W.G} (hb : Base W bs fs) (hkp : Kept W fs) :
    Safe W.key F Gd K (critical W false) true fs fun h' r fs' => h' = true ∧
      ∀ g, r = .ok g → HoldsAt W fs' g := by
  have hrefl : ∀ fs, Gd fs fs := fun fs => hT _ _ (.stay fs) rfl
  unfold critical
  refine Safe.bind (Safe.mono (Safe.inv hkeep ⟨hb, hkp⟩ (recoverResiduals_safe hk hT hb)) ?_)
  rintro h' r fs1 ⟨⟨rfl, hb1, hc1⟩, -, hkp1⟩
  cases r with
  | error x => exact ⟨rfl, by simp⟩
  | ok u =>
    have hc1 := (hc1 u rfl).1 hr hkp1
    simp only [Bool.false_eq_true, if_false]
    refine Safe.bind (Safe.bind (Safe.mono (loadPath_spec hrefl) ?_))
    rintro h' r fs' ⟨rfl, h2, h3, h4⟩
    replace h2 := h2.symm
    subst h2
    cases r with
    | error x => exact ⟨rfl, by simp⟩
    | ok gs =>
      cases gs with
      | none => exact (h4 rfl hr.1 hc1).elim
      | some g =>
        refine ⟨rfl, ?_⟩
        intro g' hg'
        cases hg'
        exact h3 g rfl

/-- The locked part when nothing was built: what is built is published. -/
theorem critical_first (hk : W.key.Valid) (hc : Calm W F) (hl : Lawful W)
    (hp : ∀ g, W.parse (W.ser g) ≠ none) {fs : FS W.G} (hb : Base W [] fs) :
    Safe W.key F (OnceStep W F) K (critical W false) true fs fun h' r fs' => h' = true ∧
      Once W fs' ∧ ∀ g, r = .ok g → HoldsAt W fs' g := by
  have hT : ∀ fs fs', Trans W F fs fs' → fs'.built = fs.built → OnceStep W F fs fs' :=
    fun _ _ h h' => ⟨h, .inl h'⟩
  have hrefl : ∀ fs, OnceStep W F fs fs := fun fs => hT _ _ (.stay fs) rfl
  have none_yet : ∀ {fs : FS W.G}, Base W [] fs → Once W fs := fun h => .inl h.built
  unfold critical
  refine Safe.bind (Safe.mono (recoverResiduals_safe hk hT hb) ?_)
  rintro h' r fs1 ⟨rfl, hb1, hc1⟩
  cases r with
  | error x => exact ⟨rfl, none_yet hb1, by simp⟩
  | ok u =>
    have hc1 := (hc1 u rfl).1
    simp only [Bool.false_eq_true, if_false]
    refine Safe.bind (Safe.bind (Safe.mono (loadPath_spec hrefl) ?_))
    rintro h' r fs' ⟨rfl, h2, h3, h4⟩
    replace h2 := h2.symm
    subst h2
    cases r with
    | error x => exact ⟨rfl, none_yet hb1, by simp⟩
    | ok gs =>
      cases gs with
      | some g =>
        refine ⟨rfl, none_yet hb1, ?_⟩
        intro g' hg'
        cases hg'
        exact h3 g rfl
      | none =>
        simp only
        refine Safe.bind (Safe.mono (Safe.and (fun _ _ _ => trivial)
          (removeInvalid_safe hk hT hb1 hc1 (h4 rfl)) (removeInvalid_frees hk hc)) ?_)
        rintro h' r fs2 ⟨⟨rfl, hb2, hc2⟩, -, hfree⟩
        cases r with
        | error x => exact ⟨rfl, none_yet hb2, by simp⟩
        | ok u =>
          have hfree := hfree u rfl
          simp only [Safe]
          refine Safe.bind (Safe.callHeld (by simp) (by simp) ?_)
          intro r fs3 hs
          rcases hs with ⟨p, rfl, rfl⟩ | ⟨-, rfl, x, rfl⟩ | ⟨h, -⟩
          rotate_left
          · exact ⟨hrefl _, rfl, none_yet hb2, by simp⟩
          · exact (hc.build h).elim
          refine ⟨⟨.build _ p, .inr hb2.built⟩, ?_⟩
          have hb3 := hb2.build hk p
          have hc3 : Ck W F { fs2 with built := p :: fs2.built } := hc2.same (same_build fs2 p)
          simp only
          refine Safe.bind (Safe.callRead (by simp) (by simp) rfl hrefl ?_)
          intro r hs
          obtain ⟨-, rfl⟩ := hs.norm hc.fingerprint
          simp only [ne_eq, not_true_eq_false, if_false]
          refine Safe.bind (Safe.mono (Safe.and (fun _ _ _ => trivial)
            (publish_safe hk hT hb3 hc3 (p := p) List.mem_cons_self)
            (publish_calm hk hc hp (by exact hfree) _ _)) ?_)
          rintro h' r fs4 ⟨⟨rfl, hb4, h5, -⟩, -, rfl⟩
          obtain ⟨⟨⟨t, h6, h7⟩, -, g, hg⟩, -⟩ := h5 () rfl
          have once : Once W fs4 := by
            refine .inr ⟨⟨p, hb4.built⟩, .inl ⟨t, _, h6, h7, bundleOf_names _ _, g, ?_⟩⟩
            exact bundleOf_holds hl hg
          simp only
          refine Safe.bind (Safe.mono (loadPath_spec hrefl) ?_)
          rintro h' r fs5 ⟨rfl, h8, h9, -⟩
          replace h8 := h8.symm
          subst h8
          cases r with
          | error x => exact ⟨rfl, once, by simp⟩
          | ok gs =>
            cases gs with
            | none => exact ⟨rfl, once, by simp⟩
            | some g =>
              refine ⟨rfl, once, ?_⟩
              intro g' hg'
              cases hg'
              exact h9 g rfl

/-- What holds while the lock is free. -/
structure Settled (W : World) (init : List (Name × Ent) → Prop) (fs : FS W.G) : Prop where
  log : LogInv W fs
  inv : Inv W init fs
  once : Once W fs

/-- `build_fst` with a cache and without overwriting, among others that do the same. -/
theorem buildCached_once (hk : W.key.Valid) (hc : Calm W F) (hl : Lawful W)
    (hp : ∀ g, W.parse (W.ser g) ≠ none) {init : List (Name × Ent) → Prop} {fs : FS W.G}
    (hi : Inv W init fs) :
    Safe W.key F (OnceStep W F) (Settled W init) (buildCached W false) false fs fun h' r fs' =>
      h' = false ∧ ∀ g, r = .ok g → FromOne W init fs' g := by
  have hr : Reliable W F := ⟨hc.reads, hl⟩
  have hT : ∀ fs fs', Trans W F fs fs' → fs'.built = fs.built → OnceStep W F fs fs' :=
    fun _ _ h h' => ⟨h, .inl h'⟩
  have hrefl : ∀ fs, OnceStep W F fs fs := fun fs => hT _ _ (.stay fs) rfl
  have hinv : ∀ fs fs', OnceStep W F fs fs' → LogInv W fs ∧ Inv W init fs →
      LogInv W fs' ∧ Inv W init fs' :=
    fun _ _ h h' => ⟨h'.1.trans hk h'.2.wf h.1, h'.2.trans hk h.1⟩
  have locked : ∀ fs1, Safe W.key F (OnceStep W F) (Settled W init)
      (withLock W (critical W false)) false fs1
        fun h' r fs' => h' = false ∧ ∀ g, r = .ok g → FromOne W init fs' g := by
    intro fs1
    refine withLock_safe (Q := fun r fs' => ∀ g, r = .ok g → FromOne W init fs' g) hrefl
      (fun r a b h hq g hg => (hq g hg).trans h.1) (fun _ _ _ => by simp)
      (fun _ _ _ _ => by simp) ?_
    rintro fs2 h2 ⟨hl2, hi2, ho2⟩
    have hb2 : Base W fs2.built fs2 := ⟨hi2.wf, hl2, rfl⟩
    refine Safe.mono (Q := fun h' r fs' => (h' = true ∧ Once W fs' ∧
      ∀ g, r = .ok g → HoldsAt W fs' g) ∧ LogInv W fs' ∧ Inv W init fs')
      (Safe.inv hinv ⟨hl2, hi2⟩ ?_) ?_
    · rcases ho2 with h0 | ⟨⟨p, hp1⟩, hkp⟩
      · rw [h0] at hb2
        exact critical_first hk hc hl hp hb2
      · rw [hp1] at hb2
        have hkeep : ∀ a b, OnceStep W F a b → Base W [p] a ∧ Kept W a →
            Base W [p] b ∧ Kept W b := by
          rintro a b ⟨h3, h4⟩ ⟨h5, h6⟩
          refine ⟨h5.trans hk h3 ?_, h6.trans hk hr h5.wf h3⟩
          rcases h4 with h4 | h4
          · exact h4
          · rw [h5.built] at h4
            cases h4
        refine Safe.mono (Safe.inv hkeep ⟨hb2, hkp⟩ (critical_kept hk hr hT hkeep hb2 hkp)) ?_
        rintro h' r fs' ⟨⟨h3, h4⟩, h5, h6⟩
        exact ⟨h3, .inr ⟨⟨p, h5.built⟩, h6⟩, h4⟩
    · rintro h' r fs' ⟨⟨h3, h4, h5⟩, h6, h7⟩
      exact ⟨h3, ⟨h6, h7, h4⟩, fun g hg => HoldsAt.fromOne h7 (h5 g hg)⟩
  unfold buildCached
  simp only [Bool.false_eq_true, if_false]
  refine Safe.bind (Safe.mono (loadPath_free hk (.inl rfl) hi (fun _ _ h => h.1) hrefl) ?_)
  rintro h' r fs1 ⟨rfl, -, h2⟩
  cases r with
  | error x => exact ⟨rfl, by simp⟩
  | ok gs =>
    cases gs with
    | none => exact locked fs1
    | some g =>
      refine ⟨rfl, ?_⟩
      intro g' hg'
      cases hg'
      exact h2 g rfl

end Verif.Cache
