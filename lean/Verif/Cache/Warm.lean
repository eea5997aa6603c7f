import Verif.Cache.Once
import Verif.Cache.Foreign

/-
With a loadable bundle at the start and without overwriting nothing is built and everybody gets that
bundle.
-/

namespace Verif.Cache

variable {W : World} {F : Faults} {K : FS W.G → Prop}

/-- A complete bundle is not replaced by a rename. -/
theorem Moved.onto {a b : Name} {fs fs' : FS W.G} (h : Moved a b fs fs') (hc : CompleteAt W fs b) :
    False := by
  obtain ⟨i, -, -, h1 | ⟨j, h1, h2⟩⟩ := h
  · obtain ⟨k, es, h3, -⟩ := hc
    rw [h1] at h3
    cases h3
  · obtain ⟨k, es, h3, h4, h5, -⟩ := hc
    rw [h1] at h3
    cases h3
    rw [h4] at h2
    have hes : es = [] := by
      unfold FS.mayReplace at h2
      split at h2
      · rename_i he
        exact Node.dir.inj he
      all_goals simp_all
    subst hes
    have := (h5 "tagger.fst".toList).2 (.inl rfl)
    cases this

/-- While nothing was built, a complete bundle under the final name stays as it is. -/
theorem Trans.keeps_final (hk : W.key.Valid) (hr : Reliable W F) {fs fs' : FS W.G} (hw : Wf fs)
    (hb : fs.built = []) (hc : CompleteAt W fs W.key.digest) (h : Trans W F fs fs') :
    Untouched W.key.digest fs fs' := by
  have cut : ∀ {n}, n ≠ W.key.digest → Cut n fs fs' → Untouched W.key.digest fs fs' := by
    intro n hn h
    refine ⟨h.other _ (Ne.symm hn), ?_⟩
    intro i hi
    rcases h.node i with h1 | ⟨h1, -⟩
    · exact h1
    · exact (hn (hw.inj _ _ _ h1 hi)).elim
  cases h with
  | stay => exact .refl _ _
  | recover _ _ _ _ h => exact (h.onto hc).elim
  | clean _ n hn _ h =>
    refine cut ?_ h
    rintro rfl
    rw [Key.final_not_residual hk] at hn
    cases hn
  | cutTmp _ n hn h => exact cut (fun he => Key.final_not_tmp hk (he ▸ hn)) h
  | cutCorrupt _ n hn h => exact cut (fun he => Key.final_not_corrupt hk (he ▸ hn)) h
  | quarantine _ _ _ h _ => exact (h hr (.inl hc)).elim
  | build p => exact ⟨rfl, fun _ _ => rfl⟩
  | mkdtemp n hn hf =>
    refine ⟨?_, ?_⟩
    · have : W.key.digest ≠ n := fun he => Key.final_not_tmp hk (he ▸ hn)
      simp [FS.mkdir, this]
    · intro i hi
      have := hw.lt _ _ hi
      simp [FS.mkdir, Nat.ne_of_lt this]
  | write n e b hn =>
    refine ⟨write_entry _ _ _ _ _, ?_⟩
    intro i hi
    refine write_node _ _ _ _ _ ?_
    intro he
    exact Key.final_not_tmp hk ((hw.inj _ _ _ he hi) ▸ hn)
  | moveAway _ _ _ hb' _ _ => exact (hb' hb).elim
  | putNew _ _ _ _ _ _ _ _ _ h => exact (h.onto hc).elim
  | putBack _ _ _ _ _ _ _ h => exact (h.onto hc).elim

/-- The steps without building. -/
def NoBuild (W : World) (F : Faults) (fs fs' : FS W.G) : Prop :=
  Trans W F fs fs' ∧ fs'.built = fs.built

/-- The directory under the final name has the content `es`; nothing was built. -/
structure Stands (W : World) (es : List (Name × Ent)) (fs : FS W.G) : Prop where
  base : Base W [] fs
  at_ : ∃ i, fs.entry W.key.digest = some i ∧ fs.node i = .dir es

theorem Stands.step (hk : W.key.Valid) (hr : Reliable W F) {es : List (Name × Ent)}
    (hes : Complete W es) {fs fs' : FS W.G} (h : NoBuild W F fs fs') (hs : Stands W es fs) :
    Stands W es fs' := by
  obtain ⟨i, h1, h2⟩ := hs.at_
  obtain ⟨h3, h4⟩ := h.1.keeps_final hk hr hs.base.wf hs.base.built ⟨i, es, h1, h2, hes⟩
  exact ⟨hs.base.trans hk h.1 h.2, i, h3.trans h1, (h4 i h1).trans h2⟩

/-- A directory determines the graphs it holds. -/
theorem Holds.unique {es : List (Name × Ent)} {g g' : W.G × W.G} (h : Holds W es g)
    (h' : Holds W es g') : g = g' := by
  have file : ∀ {files n x y}, FileOk W es files n x → FileOk W es files n y → x = y := by
    rintro files n x y ⟨b, md, u, h1, h2, -, -, -, h3, rfl⟩ ⟨b', md', u', h1', h2', -, -, -, h3', rfl⟩
    rw [h1] at h1'
    cases h1'
    rw [h3] at h3'
    cases h3'
    rfl
  obtain ⟨b, m, files, h1, -, h2, -, h3, -, h4, h5⟩ := h
  obtain ⟨b', m', files', h1', -, h2', -, h3', -, h4', h5'⟩ := h'
  rw [h1] at h1'
  cases h1'
  rw [h2] at h2'
  cases h2'
  rw [h3] at h3'
  cases h3'
  exact Prod.ext (file h4 h4') (file h5 h5')

theorem buildCached_warm (hk : W.key.Valid) (hr : Reliable W F) {es : List (Name × Ent)}
    {g0 : W.G × W.G} (hn : NamesOk es) (hg : Holds W es g0) {fs : FS W.G} (hs : Stands W es fs) :
    Safe W.key F (NoBuild W F) (Stands W es) (buildCached W false) false fs fun h' r _ =>
      h' = false ∧ ∀ g, r = .ok g → g = g0 := by
  have hrefl : ∀ fs, NoBuild W F fs fs := fun fs => ⟨.stay fs, rfl⟩
  have hstep : ∀ a b, NoBuild W F a b → Stands W es a → Stands W es b :=
    fun a b h hs => hs.step hk hr ⟨hn, g0, hg⟩ h
  have locked : ∀ fs1, Safe W.key F (NoBuild W F) (Stands W es)
      (withLock W (critical W false)) false fs1
        fun h' r _ => h' = false ∧ ∀ g, r = .ok g → g = g0 := by
    intro fs1
    refine withLock_safe (Q := fun r _ => ∀ g, r = .ok g → g = g0) hrefl
      (fun _ _ _ _ h => h) (fun _ _ _ => by simp) (fun _ _ _ _ => by simp) ?_
    intro fs2 h2 hs2
    have hkept : ∀ {fs : FS W.G}, Stands W es fs → Kept W fs := fun hs => by
      obtain ⟨i, h1, h2⟩ := hs.at_
      exact .inl ⟨i, es, h1, h2, hn, g0, hg⟩
    refine Safe.mono (Safe.inv hstep hs2 (critical_kept (bs := []) hk hr (fun _ _ h h' => ⟨h, h'⟩)
      ?_ hs2.base (hkept hs2))) ?_
    · rintro a b ⟨h3, h4⟩ ⟨h5, h6⟩
      exact ⟨h5.trans hk h3 h4, h6.trans hk hr h5.wf h3⟩
    · rintro h' r fs' ⟨⟨h3, h4⟩, h5⟩
      refine ⟨h3, h5, ?_⟩
      intro g hr'
      obtain ⟨i, es', h6, h7, -, h8⟩ := h4 g hr'
      obtain ⟨j, h9, h10⟩ := h5.at_
      rw [h6] at h9
      cases h9
      rw [h7] at h10
      cases h10
      exact h8.unique hg
  unfold buildCached loadPath
  simp only [Bool.false_eq_true, if_false]
  refine Safe.bind (Safe.tryExcept (Safe.bind (Safe.mono
    (openChain_safe (P := Stands W es) hrefl (fun _ => hstep) hs) ?_)))
  rintro h' r fs1 ⟨rfl, hs1, h2⟩
  cases r with
  | error x =>
    simp only
    split
    · exact locked fs1
    · exact ⟨rfl, by simp⟩
  | ok fd =>
    obtain ⟨h3, es1, h4⟩ := h2 fd rfl
    simp only
    refine Safe.mono (loadOpen_safe (o := es) (P := fun fs => Stands W es fs ∧
      fs.entry W.key.digest = some fd) hrefl ?_ ⟨hs1, h3⟩ ?_) ?_
    · rintro - a b h ⟨h5, h6⟩
      obtain ⟨i, h7, h8⟩ := h5.at_
      obtain ⟨h9, -⟩ := h.1.keeps_final hk hr h5.base.wf h5.base.built ⟨i, es, h7, h8, hn, g0, hg⟩
      exact ⟨hstep _ _ h h5, h9.trans h6⟩
    · rintro fs ⟨h5, h6⟩
      obtain ⟨i, h7, h8⟩ := h5.at_
      rw [h6] at h7
      cases h7
      simp only [FS.ents, h8]
      exact Sub.refl _
    · rintro h' r fs2 ⟨rfl, -, h5⟩
      cases r with
      | error x =>
        simp only
        split
        · exact locked fs2
        · exact ⟨rfl, by simp⟩
      | ok gs =>
        cases gs with
        | none => exact locked fs2
        | some g =>
          refine ⟨rfl, ?_⟩
          intro g' hg'
          cases hg'
          exact (h5 g rfl).1.unique hg

end Verif.Cache
