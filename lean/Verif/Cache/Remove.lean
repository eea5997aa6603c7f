import Verif.Cache.Trans

/-
`_remove_flat_bundle` only trims the directory it is called for.
-/

namespace Verif.Cache

theorem lookup_filter_ne (es : List (Name × Ent)) (e x : Name) :
    (es.filter fun p => p.1 ≠ e).lookup x = if x = e then none else es.lookup x := by
  induction es with
  | nil => simp
  | cons p es ih =>
    obtain ⟨k, v⟩ := p
    by_cases hk : k = e
    · subst hk
      rw [List.filter_cons_of_neg (by simp), ih, List.lookup_cons]
      by_cases hx : x = k
      · simp [hx]
      · have : (x == k) = false := by simpa using hx
        simp [hx, this]
    · rw [List.filter_cons_of_pos (by simpa using hk), List.lookup_cons, List.lookup_cons, ih]
      by_cases hx : x = k
      · simp [hx, hk]
      · have : (x == k) = false := by simpa using hx
        simp [this]

section
variable {G : Type} {key : Key} {F : Faults}

theorem sem_unlink {fs fs' : FS G} {fd : Ino} {e : Name} {r : Except Err Unit}
    (h : Sem key F (.unlinkFd fd e) fs r fs') :
    fs' = fs ∨ fs' = (fs.unlinkFd fd e).2 := by
  rcases h with h | ⟨-, h⟩ | ⟨-, -, _, h⟩
  · exact .inr h.2
  · exact .inl h.1
  · exact .inr h.2

theorem sem_rmdir {fs fs' : FS G} {n : Name} {r : Except Err Unit}
    (h : Sem key F (.rmdir n) fs r fs') : fs' = fs ∨ fs' = (fs.rmdir n).2 := by
  rcases h with h | ⟨-, h⟩ | ⟨-, -, _, h⟩
  · exact .inr h.2
  · exact .inl h.1
  · exact .inr h.2

/-- An answer that is not an exception is the normal one. -/
theorem Sem.normal {o : Op} {fs fs' : FS G} {v : Res G o} (ho : o ≠ .fingerprint)
    (h : Sem key F o fs (.ok v) fs') : Norm key o fs (.ok v) fs' := by
  rcases h with h | ⟨-, h⟩ | ⟨-, h, -⟩
  · exact h
  · cases o <;> simp_all [Fault]
  · cases h

theorem cut_unlink {fs : FS G} {n : Name} {fd : Ino} {e : Name} (hn : fs.entry n = some fd)
    (hr : ∀ ent, (fs.ents fd).lookup e = some ent → Removable e ent) :
    Cut n fs (fs.unlinkFd fd e).2 := by
  unfold FS.unlinkFd
  split
  · exact Cut.refl n fs
  · exact Cut.refl n fs
  · rename_i ent hne hl
    refine ⟨fun _ _ => rfl, .inl rfl, ?_, rfl, rfl, rfl⟩
    intro j
    by_cases hj : j = fd
    · subst hj
      right
      refine ⟨hn, fs.ents j, (fs.ents j).filter fun p => p.1 ≠ e, ?_, ?_, ?_⟩
      · unfold FS.ents at hl ⊢
        split
        · assumption
        · rename_i h1
          split at hl
          · rename_i es h2
            exact (h1 _ h2).elim
          · simp at hl
      · simp [FS.setNode]
      · constructor
        · refine ⟨?_, List.filter_sublist⟩
          intro x ent' hx
          rw [lookup_filter_ne] at hx
          split at hx
          · cases hx
          · exact hx
        · intro x ent' hx
          rw [lookup_filter_ne]
          split
          · rename_i hxe
            subst hxe
            exact .inr (hr ent' hx)
          · exact .inl hx
    · left
      simp [FS.setNode, hj]

theorem unlink_entry {fs : FS G} {fd : Ino} {e m : Name} :
    (fs.unlinkFd fd e).2.entry m = fs.entry m := by
  unfold FS.unlinkFd
  split <;> rfl

theorem cut_rmdir {fs : FS G} {n : Name} : Cut n fs (fs.rmdir n).2 := by
  unfold FS.rmdir
  split
  · exact Cut.refl n fs
  · rename_i i hi
    split
    · rename_i hd
      refine ⟨?_, .inr ⟨?_, ?_⟩, fun _ => .inl rfl, rfl, rfl, rfl⟩
      · intro m hm
        simp [FS.setEntry, hm]
      · simp [FS.setEntry]
      · intro j hj
        rw [hi] at hj
        cases hj
        refine ⟨[], hd, ?_⟩
        intro e ent he
        simp at he
    · exact Cut.refl n fs
    · exact Cut.refl n fs

end

variable {W : World} {F : Faults} {Gd : FS W.G → FS W.G → Prop} {K : FS W.G → Prop}

theorem checkEntries_safe {n : Name} {i : Ino} {es : List (Name × Ent)} {fs : FS W.G}
    (hrefl : ∀ fs, Gd fs fs) (hi : fs.entry n = some i) (hes : fs.node i = .dir es)
    (l : List Name) :
    Safe W.key F Gd K (checkEntries W n l) true fs fun h' r fs' => h' = true ∧ fs' = fs ∧
      (r = .ok true → ∀ e ∈ l, ∀ ent, es.lookup e = some ent → Removable e ent) := by
  induction l with
  | nil => exact ⟨rfl, rfl, by simp⟩
  | cons e l ih =>
    unfold checkEntries
    refine Safe.bind (Safe.callRead (by simp) (by simp) rfl hrefl ?_)
    rintro r hs
    cases r with
    | error x => exact ⟨rfl, rfl, by simp⟩
    | ok kind =>
      have hk : ∃ ent, es.lookup e = some ent ∧ kind = ent.kind := by
        have h1 := (Sem.normal (by simp) hs).1
        simp only [FS.lstatIn, FS.inDir, hi, hes, bind, Except.bind] at h1
        split at h1
        · cases h1
        · rename_i ent hl
          cases h1
          exact ⟨ent, hl, rfl⟩
      obtain ⟨ent, hl, rfl⟩ := hk
      have step : Removable e ent → Safe W.key F Gd K (checkEntries W n l) true fs
          fun h' r fs' => h' = true ∧ fs' = fs ∧
            (r = .ok true → ∀ e' ∈ e :: l, ∀ ent, es.lookup e' = some ent → Removable e' ent) := by
        intro hr
        refine Safe.mono ih ?_
        rintro h' r fs' ⟨h1, h2, h3⟩
        refine ⟨h1, h2, ?_⟩
        intro h4 e' he' ent' hl'
        rcases List.mem_cons.1 he' with rfl | he'
        · rw [hl] at hl'
          cases hl'
          exact hr
        · exact h3 h4 e' he' ent' hl'
      simp only
      cases ent with
      | link => exact step (.inl rfl)
      | reg b =>
        simp only [Ent.kind]
        split
        · rename_i hm
          exact step (.inr ⟨b, rfl, (mem_bundleNames e).1 hm⟩)
        · exact ⟨rfl, rfl, by simp⟩
      | dir => exact ⟨rfl, rfl, by simp⟩
      | special => exact ⟨rfl, rfl, by simp⟩

theorem unlinkAll_safe {n : Name} {fd : Ino} {fs₀ : FS W.G}
    (hG : ∀ fs1 fs2, Cut n fs₀ fs1 → Cut n fs1 fs2 → Gd fs1 fs2)
    (hr : ∀ e ent, (fs₀.ents fd).lookup e = some ent → Removable e ent)
    (l : List Name) : ∀ fs : FS W.G, Cut n fs₀ fs → fs.entry n = some fd →
    Safe W.key F Gd K (unlinkAll W fd l) true fs fun h' _ fs' => h' = true ∧ Cut n fs₀ fs' ∧
      fs'.entry n = some fd := by
  induction l with
  | nil => exact fun fs h1 h2 => ⟨rfl, h1, h2⟩
  | cons e l ih =>
    intro fs h1 h2
    unfold unlinkAll
    refine Safe.bind (Safe.tryExcept (Safe.callHeld (by simp) (by simp) ?_))
    intro r fs' hs
    have hc : Cut n fs fs' ∧ fs'.entry n = some fd := by
      rcases sem_unlink hs with rfl | rfl
      · exact ⟨Cut.refl n _, h2⟩
      · refine ⟨cut_unlink h2 ?_, by rw [unlink_entry]; exact h2⟩
        intro ent he
        exact hr e ent (h1.ents fd e ent he)
    refine ⟨hG _ _ h1 hc.1, ?_⟩
    cases r with
    | ok _ => exact ih fs' (h1.trans hc.1) hc.2
    | error x =>
      simp only
      split
      · exact ih fs' (h1.trans hc.1) hc.2
      · exact ⟨rfl, h1.trans hc.1, hc.2⟩

/-- The directory called `n` has something `_remove_flat_bundle` must not remove. -/
def Foreign (fs : FS W.G) (n : Name) : Prop :=
  ∃ i, fs.entry n = some i ∧ ∀ es, fs.node i = .dir es →
    ∃ e ent, es.lookup e = some ent ∧ ¬ Removable e ent

theorem mem_of_lookup {es : List (Name × Ent)} {e : Name} {ent : Ent}
    (h : es.lookup e = some ent) : e ∈ es.map Prod.fst := by
  induction es with
  | nil => simp at h
  | cons p es ih =>
    obtain ⟨k, v⟩ := p
    rw [List.lookup_cons] at h
    by_cases hk : e = k
    · simp [hk]
    · have : (e == k) = false := by simpa using hk
      rw [this] at h
      exact List.mem_cons_of_mem _ (ih h)

theorem removeFlat_safe {n : Name} {be : Bool} {fs : FS W.G} (hrefl : ∀ fs, Gd fs fs)
    (hG : ∀ fs1 fs2, Cut n fs fs1 → Cut n fs1 fs2 → Gd fs1 fs2) :
    Safe W.key F Gd K (removeFlat W n be) true fs fun h' _ fs' => h' = true ∧ Cut n fs fs' ∧
      (Foreign fs n → fs' = fs) := by
  have done : ∀ r : Except Err Bool, true = true ∧ Cut n fs fs ∧ (Foreign fs n → fs = fs) :=
    fun _ => ⟨rfl, Cut.refl n fs, fun _ => rfl⟩
  unfold removeFlat
  refine Safe.tryExcept (Safe.mono (Q := fun h' _ fs' => h' = true ∧ Cut n fs fs' ∧
      (Foreign fs n → fs' = fs)) ?_ ?_)
  · unfold removeFlatImpl
    refine Safe.bind (Safe.tryExcept (Safe.bind (Safe.callRead (by simp) (by simp) rfl hrefl ?_)))
    rintro r hs
    cases r with
    | error x =>
      simp only
      split
      · exact done (.ok true)
      · exact done (.ok true)
    | ok st =>
      obtain ⟨kind, ino⟩ := st
      simp only [Safe]
      split
      · split
        · exact done (.ok true)
        · exact done (.ok true)
      · rename_i hkind
        rw [ne_eq, not_not] at hkind
        have h1 := (Sem.normal (by simp) hs).1
        have hd : ∃ es, fs.entry n = some ino ∧ fs.node ino = .dir es := by
          simp only [FS.lstat] at h1
          split at h1
          · cases h1
          · rename_i i hi
            simp only [Except.ok.injEq, Prod.mk.injEq] at h1
            obtain ⟨h2, rfl⟩ := h1
            rw [hkind] at h2
            cases hn : fs.node ino with
            | dir es => exact ⟨es, hi, rfl⟩
            | file => rw [hn] at h2; cases h2
            | link => rw [hn] at h2; cases h2
            | special => rw [hn] at h2; cases h2
        obtain ⟨es, hi, hes⟩ := hd
        refine Safe.bind (Safe.callRead (by simp) (by simp) rfl hrefl ?_)
        rintro r hs
        cases r with
        | error x => exact done (.ok true)
        | ok entries =>
          have h3 := (Sem.normal (by simp) hs).1
          simp only [FS.inDir, hi, hes, Except.map, Except.ok.injEq] at h3
          subst h3
          simp only
          refine Safe.bind (Safe.mono (checkEntries_safe hrefl hi hes _) ?_)
          rintro h' r fs2 ⟨rfl, h4', h4⟩
          have h4' := h4'.symm
          subst h4'
          cases r with
          | error x => exact done (.ok true)
          | ok fine =>
            cases fine with
            | false => exact done (.ok true)
            | true =>
              have hrem : ∀ e ent, es.lookup e = some ent → Removable e ent :=
                fun e ent he => h4 rfl e (mem_of_lookup he) ent he
              have hfor : ¬ Foreign fs n := by
                rintro ⟨j, hj, h5⟩
                rw [hi] at hj
                cases hj
                obtain ⟨e, ent, h6, h7⟩ := h5 es hes
                exact h7 (hrem e ent h6)
              simp only [not_true_eq_false, if_false]
              refine Safe.bind (Safe.callRead (by simp) (by simp) rfl hrefl ?_)
              rintro r hs
              cases r with
              | error x => exact done (.ok true)
              | ok fd =>
                simp only
                split
                · exact done (.ok true)
                · rename_i hfd
                  rw [ne_eq, not_not] at hfd
                  subst hfd
                  refine Safe.bind (Safe.mono (unlinkAll_safe (fs₀ := fs) hG ?_ _ fs
                    (Cut.refl n fs) hi) ?_)
                  · intro e ent he
                    simp only [FS.ents, hes] at he
                    exact hrem e ent he
                  · rintro h' r fs' ⟨rfl, h5, h6⟩
                    cases r with
                    | error x => exact ⟨rfl, h5, fun hf => (hfor hf).elim⟩
                    | ok _ =>
                      simp only
                      refine Safe.bind (Safe.callHeld (by simp) (by simp) ?_)
                      intro r fs'' hs
                      have hc : Cut n fs' fs'' := by
                        rcases sem_rmdir hs with rfl | rfl
                        · exact Cut.refl n _
                        · exact cut_rmdir
                      refine ⟨hG _ _ h5 hc, ?_⟩
                      cases r with
                      | error x => exact ⟨rfl, h5.trans hc, fun hf => (hfor hf).elim⟩
                      | ok _ => exact ⟨rfl, h5.trans hc, fun hf => (hfor hf).elim⟩
  · rintro h' r fs' ⟨rfl, h1, h2⟩
    cases r with
    | ok b => exact ⟨rfl, h1, h2⟩
    | error x =>
      simp only
      split
      · split
        · exact ⟨rfl, h1, h2⟩
        · exact ⟨rfl, h1, h2⟩
      · exact ⟨rfl, h1, h2⟩

end Verif.Cache
