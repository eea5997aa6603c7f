import Verif.Cache.Logic
import Verif.Cache.Spec

/-
`_load_path` reads only what one directory content says, with and without interference.
-/

namespace Verif.Cache

section
variable {G α : Type} {key : Key} {F : Faults} {Gd : FS G → FS G → Prop} {K : FS G → Prop}

/-- An operation that changes nothing, under a predicate that the others keep. -/
theorem Safe.callPure {o : Op} {h : Bool} {fs : FS G} {P : FS G → Prop}
    {Q : Bool → Except Err (Res G o) → FS G → Prop}
    (ho : o ≠ .acquire) (ho' : o ≠ .release) (hpure : o.pure = true) (hrefl : ∀ fs, Gd fs fs)
    (hst : h = false → ∀ fs fs', Gd fs fs' → P fs → P fs') (hP : P fs)
    (hq : ∀ fs1, P fs1 → ∀ r, Sem key F o fs1 r fs1 → Q h r fs1) :
    Safe key F Gd K (Prog.call o) h fs Q := by
  cases h with
  | true =>
    refine Safe.callHeld ho ho' fun r fs' hs => ?_
    have := Sem.same hpure hs
    subst this
    exact ⟨hrefl _, hq _ hP r hs⟩
  | false =>
    refine Safe.callFree ho hpure hrefl fun fs1 h1 r hs => hq fs1 ?_ r hs
    clear hs
    induction h1 with
    | refl => exact hP
    | tail _ h ih => exact hst rfl _ _ h ih

/-- An operation that changes nothing, while the lock is held. -/
theorem Safe.callRead {o : Op} {fs : FS G} {Q : Bool → Except Err (Res G o) → FS G → Prop}
    (ho : o ≠ .acquire) (ho' : o ≠ .release) (hpure : o.pure = true) (hrefl : ∀ fs, Gd fs fs)
    (hq : ∀ r, Sem key F o fs r fs → Q true r fs) :
    Safe key F Gd K (Prog.call o) true fs Q := by
  refine Safe.callHeld ho ho' fun r fs' hs => ?_
  have := Sem.same hpure hs
  subst this
  exact ⟨hrefl _, hq r hs⟩

end

theorem Sub.refl (es : List (Name × Ent)) : Sub es es := fun _ _ h => h

theorem Sub.trans {a b c : List (Name × Ent)} (h : Sub a b) (h' : Sub b c) : Sub a c :=
  fun n e he => h' n e (h n e he)

variable {W : World} {F : Faults} {Gd : FS W.G → FS W.G → Prop} {K : FS W.G → Prop}

theorem mem_bundleNames (n : Name) : n ∈ bundleNames ↔
    n = "tagger.fst".toList ∨ n = "verbalizer.fst".toList ∨ n = "manifest.json".toList := by
  unfold bundleNames taggerName verbalizerName manifestName
  simp only [List.mem_cons, List.not_mem_nil, or_false]

theorem mem_fstNames (n : Name) : n ∈ [taggerName, verbalizerName] ↔
    n = "tagger.fst".toList ∨ n = "verbalizer.fst".toList := by
  unfold taggerName verbalizerName
  simp only [List.mem_cons, List.not_mem_nil, or_false]

theorem readOpenRegular_ok {ent : Ent} {x : Option Int} {m : Option Nat} {b : Bytes}
    (h : readOpenRegular ent x m = .ok b) :
    ent = .reg b ∧ (∀ s, x = some s → s = b.length) ∧ (∀ k, m = some k → b.length ≤ k) := by
  unfold readOpenRegular at h
  split at h
  · split at h
    · cases h
    · split at h
      · cases h
      · rename_i h1 h2
        cases h
        refine ⟨rfl, ?_, ?_⟩
        · rintro s rfl
          simpa using h1
        · rintro k rfl
          simpa using h2
  · cases h

theorem readRegularAt_safe {fd : Ino} {e : Name} {x : Option Int} {m : Option Nat} {h : Bool}
    {fs : FS W.G} {P : FS W.G → Prop} {o : List (Name × Ent)} (hrefl : ∀ fs, Gd fs fs)
    (hst : h = false → ∀ fs fs', Gd fs fs' → P fs → P fs') (hP : P fs)
    (hsub : ∀ fs, P fs → Sub (fs.ents fd) o) :
    Safe W.key F Gd K (readRegularAt W fd e x m) h fs fun h' r fs' => h' = h ∧ P fs' ∧
      ∀ b, r = .ok b → o.lookup e = some (.reg b) ∧ (∀ s, x = some s → s = b.length) ∧
        (∀ k, m = some k → b.length ≤ k) := by
  unfold readRegularAt
  refine Safe.bind (Safe.tryExcept (Safe.callPure (P := P) (by simp) (by simp) rfl hrefl hst hP ?_))
  intro fs1 h1 r hs
  cases r with
  | error y =>
    simp only
    split <;> exact ⟨rfl, h1, by simp⟩
  | ok ent =>
    simp only
    refine Safe.ofExcept ⟨rfl, h1, ?_⟩
    intro b hb
    obtain ⟨h2, h3, h4⟩ := readOpenRegular_ok hb
    refine ⟨?_, h3, h4⟩
    rcases hs with hs | hs | hs
    · obtain ⟨hs, -⟩ := hs
      apply hsub fs1 h1
      unfold FS.readEnt at hs
      split at hs
      · cases hs
      · cases hs
      · rename_i h5 h6
        cases hs
        rw [h6, h2]
    · simp [Fault] at hs
    · simp at hs

theorem checkManifest_some {j : Option Json} {files : List (Str × Json)}
    (h : checkManifest W j = some files) :
    ∃ m, j = some (.obj m) ∧ ManifestOk W m ∧ m.lookup "files".toList = some (.obj files) ∧
      (∀ k, k ∈ files.map Prod.fst ↔
        k = "tagger.fst".toList ∨ k = "verbalizer.fst".toList) := by
  unfold checkManifest at h
  split at h
  · rename_i m
    split at h
    · rename_i hid
      split at h
      · rename_i files' hf
        split at h
        · rename_i hn
          cases h
          refine ⟨m, rfl, ?_, ?_, ?_⟩
          · simp only [World.identity, List.all_cons, List.all_nil, Bool.and_true,
              Bool.and_eq_true] at hid
            obtain ⟨h1, h2, h3, h4, h5, h6, h7, h8⟩ := hid
            exact ⟨h1, h2, h3, h4, h5, h6, h7, h8⟩
          · unfold get at hf
            cases hl : m.lookup "files".toList with
            | none => rw [hl] at hf; simp at hf
            | some y => rw [hl] at hf; simpa using hf
          · intro k
            constructor
            · intro hk
              exact (mem_fstNames k).1 (hn.1 hk)
            · intro hk
              exact hn.2 ((mem_fstNames k).2 hk)
        · cases h
      · cases h
    · cases h
  · cases h

theorem expectedSize_some {j : Json} {s : Int} (h : expectedSize j = some s) :
    ∃ m, j = .obj m ∧ m.lookup "size".toList = some (.int s) := by
  unfold expectedSize at h
  split at h
  · rename_i m
    split at h
    · rename_i hg
      split at h
      · cases h
      · cases h
        refine ⟨m, rfl, ?_⟩
        unfold get at hg
        cases hl : m.lookup "size".toList with
        | none => rw [hl] at hg; simp at hg
        | some y => rw [hl] at hg; simpa using hg
    · cases h
  · cases h

theorem checkGraph_some {m : List (Str × Json)} {b : Bytes} {g : W.G}
    (h : checkGraph W (.obj m) b = some g) :
    m.lookup "sha256".toList = some (.str (W.sha b)) ∧ ∃ x, W.parse b = some x ∧ g = W.opt x := by
  unfold checkGraph at h
  simp only at h
  split at h
  · rename_i s hg
    split at h
    · rename_i hs
      subst hs
      constructor
      · unfold get at hg
        cases hl : m.lookup "sha256".toList with
        | none => rw [hl] at hg; simp at hg
        | some y => rw [hl] at hg; simpa using hg
      · obtain ⟨x, hx, rfl⟩ := Option.map_eq_some_iff.1 h
        exact ⟨x, hx, rfl⟩
    · cases h
  · cases h

theorem get_obj {files : List (Str × Json)} {e : Str} {m : List (Str × Json)}
    (h : get files e = .obj m) : files.lookup e = some (.obj m) := by
  unfold get at h
  cases hl : files.lookup e with
  | none => rw [hl] at h; simp at h
  | some y => rw [hl] at h; simpa using h

theorem loadGraph_safe {fd : Ino} {files : List (Str × Json)} {e : Name} {h : Bool}
    {fs : FS W.G} {P : FS W.G → Prop} {o : List (Name × Ent)} (hrefl : ∀ fs, Gd fs fs)
    (hst : h = false → ∀ fs fs', Gd fs fs' → P fs → P fs') (hP : P fs)
    (hsub : ∀ fs, P fs → Sub (fs.ents fd) o) :
    Safe W.key F Gd K (loadGraph W fd files e) h fs fun h' r fs' => h' = h ∧ P fs' ∧
      ∀ g, r = .ok (some g) → FileOk W o files e g := by
  unfold loadGraph
  split
  · exact ⟨rfl, hP, by simp⟩
  · rename_i s hs
    refine Safe.tryExcept (Safe.bind (Safe.mono
      (readRegularAt_safe (P := P) (o := o) hrefl hst hP hsub) ?_))
    intro h' r fs' ⟨h1, h2, h3⟩
    subst h1
    cases r with
    | error y =>
      simp only
      split <;> exact ⟨rfl, h2, by simp⟩
    | ok b =>
      simp only
      refine ⟨rfl, h2, ?_⟩
      intro g hg
      simp only [Except.ok.injEq] at hg
      obtain ⟨h4, h5, h6⟩ := h3 b rfl
      obtain ⟨m, hm, hsize⟩ := expectedSize_some hs
      rw [hm] at hg
      obtain ⟨h7, x, h8, h9⟩ := checkGraph_some hg
      refine ⟨b, m, x, h4, get_obj hm, ?_, ?_, h7, h8, h9⟩
      · rw [hsize, h5 s rfl]
      · exact h6 fstMax rfl

theorem readManifest_safe {fd : Ino} {h : Bool} {fs : FS W.G} {P : FS W.G → Prop}
    {o : List (Name × Ent)} (hrefl : ∀ fs, Gd fs fs)
    (hst : h = false → ∀ fs fs', Gd fs fs' → P fs → P fs') (hP : P fs)
    (hsub : ∀ fs, P fs → Sub (fs.ents fd) o) :
    Safe W.key F Gd K (readManifest W fd) h fs fun h' r fs' => h' = h ∧ P fs' ∧
      ∀ j, r = .ok (some j) → ∃ b, o.lookup manifestName = some (.reg b) ∧
        b.length ≤ 1048576 ∧ W.loads b = some j := by
  unfold readManifest
  refine Safe.tryExcept (Safe.bind (Safe.mono
    (readRegularAt_safe (P := P) (o := o) hrefl hst hP hsub) ?_))
  intro h' r fs' ⟨h1, h2, h3⟩
  subst h1
  cases r with
  | error y =>
    simp only
    split <;> exact ⟨rfl, h2, by simp⟩
  | ok b =>
    simp only
    refine ⟨rfl, h2, ?_⟩
    intro j hj
    simp only [Except.ok.injEq] at hj
    obtain ⟨h4, h5, h6⟩ := h3 b rfl
    exact ⟨b, h4, h6 manifestMax rfl, hj⟩

/-- A load from an open directory returns only what the content `o` holds, if the directory has
nothing else than `o` all the time. -/
theorem loadOpen_safe {fd : Ino} {h : Bool} {fs : FS W.G} {P : FS W.G → Prop}
    {o : List (Name × Ent)} (hrefl : ∀ fs, Gd fs fs)
    (hst : h = false → ∀ fs fs', Gd fs fs' → P fs → P fs') (hP : P fs)
    (hsub : ∀ fs, P fs → Sub (fs.ents fd) o) :
    Safe W.key F Gd K (loadOpen W fd) h fs fun h' r fs' => h' = h ∧ P fs' ∧
      ∀ g, r = .ok (some g) → Holds W o g ∧ ∃ fs1, P fs1 ∧ NamesOk (fs1.ents fd) := by
  unfold loadOpen
  refine Safe.bind (Safe.callPure (P := P) (by simp) (by simp) rfl hrefl hst hP ?_)
  intro fs1 h1 r hs
  cases r with
  | error y => exact ⟨rfl, h1, by simp⟩
  | ok entries =>
    simp only
    split
    · exact ⟨rfl, h1, by simp⟩
    · rename_i hn
      rw [not_not] at hn
      have hnames : NamesOk (fs1.ents fd) := by
        have he : entries = (fs1.ents fd).map Prod.fst := by
          rcases hs with hs | hs | hs
          · simpa using hs.1
          · simp [Fault] at hs
          · simp at hs
        intro n
        rw [← he]
        constructor
        · intro hm
          exact (mem_bundleNames n).1 (hn.1 hm)
        · intro hm
          exact hn.2 ((mem_bundleNames n).2 hm)
      refine Safe.bind (Safe.mono (readManifest_safe (P := P) (o := o) hrefl hst h1 hsub) ?_)
      intro h' r fs' ⟨h2, h3, h4⟩
      subst h2
      cases r with
      | error y => exact ⟨rfl, h3, by simp⟩
      | ok manifest =>
        simp only
        split
        · exact ⟨rfl, h3, by simp⟩
        · rename_i files hf
          obtain ⟨m, h5, h6, h7, h8⟩ := checkManifest_some hf
          subst h5
          obtain ⟨b, h9, h10, h11⟩ := h4 _ rfl
          refine Safe.bind (Safe.mono (loadGraph_safe (P := P) (o := o) hrefl hst h3 hsub) ?_)
          intro h' r fs' ⟨h12, h13, h14⟩
          subst h12
          cases r with
          | error y => exact ⟨rfl, h13, by simp⟩
          | ok tagger =>
            cases tagger with
            | none => exact ⟨rfl, h13, by simp⟩
            | some t =>
              simp only
              refine Safe.bind (Safe.mono
                (loadGraph_safe (P := P) (o := o) hrefl hst h13 hsub) ?_)
              intro h' r fs' ⟨h15, h16, h17⟩
              subst h15
              cases r with
              | error y => exact ⟨rfl, h16, by simp⟩
              | ok verbalizer =>
                refine ⟨rfl, h16, ?_⟩
                intro g hg
                simp only [Except.ok.injEq] at hg
                obtain ⟨v, hv, rfl⟩ := Option.map_eq_some_iff.1 hg
                refine ⟨⟨b, m, files, h9, h10, h11, h6, h7, h8, h14 t rfl, h17 v ?_⟩,
                  fs1, h1, hnames⟩
                rw [hv]

theorem openDir_ok {fs : FS W.G} {n : Name} {i : Ino} (h : fs.openDir n = .ok i) :
    fs.entry n = some i ∧ ∃ es, fs.node i = .dir es := by
  unfold FS.openDir at h
  split at h
  · cases h
  · rename_i j hj
    split at h
    · rename_i es hn
      cases h
      exact ⟨hj, es, hn⟩
    · cases h

theorem openChain_safe {n : Name} {h : Bool} {fs : FS W.G} {P : FS W.G → Prop}
    (hrefl : ∀ fs, Gd fs fs) (hst : h = false → ∀ fs fs', Gd fs fs' → P fs → P fs') (hP : P fs) :
    Safe W.key F Gd K (openChain W n) h fs fun h' r fs' => h' = h ∧ P fs' ∧
      ∀ i, r = .ok i → fs'.entry n = some i ∧ ∃ es, fs'.node i = .dir es := by
  unfold openChain
  refine Safe.tryExcept (Safe.callPure (P := P) (by simp) (by simp) rfl hrefl hst hP ?_)
  intro fs1 h1 r hs
  cases r with
  | error y =>
    simp only
    split <;> exact ⟨rfl, h1, by simp⟩
  | ok i =>
    refine ⟨rfl, h1, ?_⟩
    intro j hj
    cases hj
    rcases hs with hs | hs | hs
    · exact openDir_ok hs.1.symm
    · simp [Fault] at hs
    · simp at hs

/-- A load while the lock is held. -/
theorem loadPath_held {n : Name} {fs : FS W.G} (hrefl : ∀ fs, Gd fs fs) :
    Safe W.key F Gd K (loadPath W n) true fs fun h' r fs' => h' = true ∧ fs' = fs ∧
      ∀ g, r = .ok (some g) → ∃ i es, fs.entry n = some i ∧ fs.node i = .dir es ∧
        NamesOk es ∧ Holds W es g := by
  unfold loadPath
  refine Safe.tryExcept (Safe.bind (Safe.mono
    (openChain_safe (P := fun x => x = fs) hrefl (by simp) rfl) ?_))
  intro h' r fs' ⟨h1, h2, h3⟩
  subst h1 h2
  cases r with
  | error y =>
    simp only
    split <;> exact ⟨rfl, rfl, by simp⟩
  | ok i =>
    obtain ⟨h4, es, h5⟩ := h3 i rfl
    have he : fs'.ents i = es := by simp [FS.ents, h5]
    refine Safe.mono (loadOpen_safe (P := fun x => x = fs') (o := es) hrefl (by simp) rfl ?_) ?_
    · rintro _ rfl
      rw [he]
      exact Sub.refl es
    · intro h' r fs'' ⟨h6, h7, h8⟩
      subst h6 h7
      cases r with
      | error y =>
        simp only
        split <;> exact ⟨rfl, rfl, by simp⟩
      | ok gs =>
        refine ⟨rfl, rfl, ?_⟩
        intro g hg
        obtain ⟨h9, fs1, rfl, h10⟩ := h8 g hg
        rw [he] at h10
        exact ⟨i, es, h4, h5, h10, h9⟩

/-- The operations `_load_path` consists of work. -/
def ReadsWork (F : Faults) : Prop :=
  (∀ n, ¬ F.fail (.openDir n) ∧ ¬ F.late (.openDir n)) ∧
  (∀ n, ¬ F.fail (.listFd n) ∧ ¬ F.late (.listFd n)) ∧
  (∀ n e, ¬ F.fail (.readFd n e) ∧ ¬ F.late (.readFd n e))

theorem readRegularAt_reads {fd : Ino} {e : Name} {x : Option Int} {m : Option Nat}
    {fs : FS W.G} {b : Bytes} (hw : ReadsWork F) (hrefl : ∀ fs, Gd fs fs)
    (hb : (fs.ents fd).lookup e = some (.reg b)) (hx : ∀ s, x = some s → s = b.length)
    (hm : ∀ k, m = some k → b.length ≤ k) :
    Safe W.key F Gd K (readRegularAt W fd e x m) true fs fun h' r fs' =>
      h' = true ∧ fs' = fs ∧ r = .ok b := by
  unfold readRegularAt
  refine Safe.bind (Safe.tryExcept (Safe.callPure (P := fun y => y = fs) (by simp) (by simp) rfl
    hrefl (by simp) rfl ?_))
  rintro _ rfl r hs
  rcases hs with hs | hs | hs
  · obtain ⟨hs, -⟩ := hs
    subst hs
    simp only [FS.readEnt, hb]
    refine Safe.ofExcept ⟨rfl, rfl, ?_⟩
    unfold readOpenRegular
    simp only
    rw [if_neg, if_neg]
    · cases m with
      | none => simp
      | some k => have := hm k rfl; simp; omega
    · cases x with
      | none => simp
      | some s => have := hx s rfl; simp [this]
  · exact ((hw.2.2 _ _).1 hs.1).elim
  · exact ((hw.2.2 _ _).2 hs.1).elim

theorem get_of_lookup {m : List (Str × Json)} {k : Str} {j : Json} (h : m.lookup k = some j) :
    get m k = j := by simp [get, h]

theorem checkManifest_ok {m files : List (Str × Json)} (h1 : ManifestOk W m)
    (h2 : m.lookup "files".toList = some (.obj files))
    (h3 : ∀ k, k ∈ files.map Prod.fst ↔
      k = "tagger.fst".toList ∨ k = "verbalizer.fst".toList) :
    checkManifest W (some (.obj m)) = some files := by
  unfold checkManifest
  simp only
  rw [if_pos]
  · rw [get_of_lookup h2]
    simp only
    rw [if_pos]
    constructor
    · intro k hk
      exact (mem_fstNames k).2 ((h3 k).1 hk)
    · intro k hk
      exact (h3 k).2 ((mem_fstNames k).1 hk)
  · obtain ⟨a1, a2, a3, a4, a5, a6, a7, a8⟩ := h1
    simp only [World.identity, List.all_cons, List.all_nil, Bool.and_true, Bool.and_eq_true]
    exact ⟨a1, a2, a3, a4, a5, a6, a7, a8⟩

theorem loadGraph_reads {fd : Ino} {files : List (Str × Json)} {e : Name} {fs : FS W.G} {g : W.G}
    (hw : ReadsWork F) (hrefl : ∀ fs, Gd fs fs) (hf : FileOk W (fs.ents fd) files e g) :
    Safe W.key F Gd K (loadGraph W fd files e) true fs fun h' r fs' =>
      h' = true ∧ fs' = fs ∧ r = .ok (some g) := by
  obtain ⟨b, md, x, h1, h2, h3, h4, h5, h6, h7⟩ := hf
  have hsize : expectedSize (get files e) = some (b.length : Int) := by
    rw [get_of_lookup h2]
    unfold expectedSize
    simp only [get_of_lookup h3]
    rw [if_neg]
    simp only [maxsize, not_or]
    omega
  unfold loadGraph
  rw [hsize]
  refine Safe.tryExcept (Safe.bind (Safe.mono (readRegularAt_reads hw hrefl h1 ?_ ?_) ?_))
  · intro s hs
    cases hs
    rfl
  · intro k hk
    cases hk
    exact h4
  · rintro h' r fs' ⟨rfl, rfl, rfl⟩
    refine ⟨rfl, rfl, ?_⟩
    rw [get_of_lookup h2]
    unfold checkGraph
    simp only [get_of_lookup h5, if_true, h6, h7, Option.map_some]

/-- A load of a complete bundle succeeds while the lock is held and reading works. -/
theorem loadPath_reads {n : Name} {fs : FS W.G} {i : Ino} {es : List (Name × Ent)}
    {g : W.G × W.G} (hw : ReadsWork F) (hrefl : ∀ fs, Gd fs fs) (hi : fs.entry n = some i)
    (hes : fs.node i = .dir es) (hn : NamesOk es) (hg : Holds W es g) :
    Safe W.key F Gd K (loadPath W n) true fs fun h' r fs' =>
      h' = true ∧ fs' = fs ∧ r = .ok (some g) := by
  have he : fs.ents i = es := by simp [FS.ents, hes]
  obtain ⟨b, m, files, h1, h2, h3, h4, h5, h6, h7, h8⟩ := hg
  unfold loadPath openChain
  refine Safe.tryExcept (Safe.bind (Safe.tryExcept (Safe.callPure (P := fun y => y = fs)
    (by simp) (by simp) rfl hrefl (by simp) rfl ?_)))
  rintro _ rfl r hs
  rcases hs with hs | hs | hs
  · obtain ⟨hs, -⟩ := hs
    subst hs
    simp only [FS.openDir, hi, hes]
    unfold loadOpen
    refine Safe.bind (Safe.callPure (P := fun y => y = _)
      (by simp) (by simp) rfl hrefl (by simp) rfl ?_)
    rintro _ rfl r hs
    rcases hs with hs | hs | hs
    · obtain ⟨hs, -⟩ := hs
      subst hs
      simp only [he]
      rw [if_neg]
      · unfold readManifest
        refine Safe.bind (Safe.tryExcept (Safe.bind (Safe.mono
          (readRegularAt_reads hw hrefl (he.symm ▸ h1) (by simp) ?_) ?_)))
        · intro k hk
          cases hk
          exact h2
        · rintro h' r fs' ⟨rfl, rfl, rfl⟩
          simp only [Safe]
          rw [h3, checkManifest_ok h4 h5 h6]
          simp only
          refine Safe.bind (Safe.mono (loadGraph_reads hw hrefl (g := g.1) ?_) ?_)
          · rw [he]; exact h7
          · rintro h' r fs' ⟨rfl, rfl, rfl⟩
            simp only
            refine Safe.bind (Safe.mono (loadGraph_reads hw hrefl (g := g.2) ?_) ?_)
            · rw [he]; exact h8
            · rintro h' r fs' ⟨rfl, rfl, rfl⟩
              exact ⟨rfl, rfl, rfl⟩
      · rw [not_not]
        constructor
        · intro x hx
          exact (mem_bundleNames x).2 ((hn x).1 hx)
        · intro x hx
          exact (hn x).2 ((mem_bundleNames x).1 hx)
    · exact ((hw.2.1 _).1 hs.1).elim
    · exact ((hw.2.1 _).2 hs.1).elim
  · exact ((hw.1 _).1 hs.1).elim
  · exact ((hw.1 _).2 hs.1).elim

end Verif.Cache
