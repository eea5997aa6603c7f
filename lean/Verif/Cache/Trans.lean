import Verif.Cache.Names
import Verif.Cache.Load

/-
The transitions of the parent directory that a lock holder makes, with what it knows when it makes
them, and what they preserve.
-/

namespace Verif.Cache

/-- What `_remove_flat_bundle` may remove: links and the three regular files. -/
def Removable (e : Name) (ent : Ent) : Prop :=
  ent = .link ∨ ∃ b, ent = .reg b ∧
    (e = "tagger.fst".toList ∨ e = "verbalizer.fst".toList ∨ e = "manifest.json".toList)

/-- `es'` is `es` without some removable entries. -/
def Trimmed (es es' : List (Name × Ent)) : Prop :=
  (Sub es' es ∧ es'.Sublist es) ∧ ∀ e ent, es.lookup e = some ent → es'.lookup e = some ent ∨ Removable e ent

section
variable {G : Type}

/-- Only the directory called `n` changes: it loses removable entries, and then perhaps its name. -/
structure Cut (n : Name) (fs fs' : FS G) : Prop where
  other : ∀ m, m ≠ n → fs'.entry m = fs.entry m
  self : fs'.entry n = fs.entry n ∨ fs'.entry n = none ∧
    ∀ i, fs.entry n = some i → ∃ es, fs.node i = .dir es ∧
      ∀ e ent, es.lookup e = some ent → Removable e ent
  node : ∀ j, fs'.node j = fs.node j ∨ fs.entry n = some j ∧
    ∃ es es', fs.node j = .dir es ∧ fs'.node j = .dir es' ∧ Trimmed es es'
  next : fs'.next = fs.next
  built : fs'.built = fs.built
  moves : fs'.moves = fs.moves

/-- The name `a` of a node became `b`; what was called `b` before was nothing or could be replaced. -/
def Moved (a b : Name) (fs fs' : FS G) : Prop :=
  ∃ i, fs.entry a = some i ∧ fs' = fs.move a b i ∧
    (fs.entry b = none ∨ ∃ j, fs.entry b = some j ∧
      FS.mayReplace (fs.node i) (fs.node j) = true)

theorem Moved.built {a b : Name} {fs fs' : FS G} (h : Moved a b fs fs') :
    fs'.built = fs.built := by
  obtain ⟨i, -, rfl, -⟩ := h
  rfl

end

theorem Trimmed.refl (es : List (Name × Ent)) : Trimmed es es := ⟨⟨Sub.refl es, .refl _⟩, fun _ _ h => .inl h⟩

theorem Trimmed.trans {a b c : List (Name × Ent)} (h : Trimmed a b) (h' : Trimmed b c) :
    Trimmed a c := by
  refine ⟨⟨h'.1.1.trans h.1.1, h'.1.2.trans h.1.2⟩, ?_⟩
  intro e ent he
  rcases h.2 e ent he with h1 | h1
  · exact h'.2 e ent h1
  · exact .inr h1

theorem Cut.refl {G : Type} (n : Name) (fs : FS G) : Cut n fs fs :=
  ⟨fun _ _ => rfl, .inl rfl, fun _ => .inl rfl, rfl, rfl, rfl⟩

theorem Cut.trans {G : Type} {n : Name} {a b c : FS G} (h : Cut n a b) (h' : Cut n b c) :
    Cut n a c := by
  refine ⟨fun m hm => (h'.other m hm).trans (h.other m hm), ?_, ?_, h'.next.trans h.next,
    h'.built.trans h.built, h'.moves.trans h.moves⟩
  · rcases h'.self with h1 | ⟨h1, h2⟩
    · rw [h1]
      exact h.self
    · refine .inr ⟨h1, ?_⟩
      intro i hi
      rcases h.self with h3 | ⟨h3, h4⟩
      · obtain ⟨es, h5, h6⟩ := h2 i (h3.trans hi)
        rcases h.node i with h7 | ⟨-, es0, es1, h7, h8, h9⟩
        · exact ⟨es, h7 ▸ h5, h6⟩
        · rw [h5] at h8
          cases h8
          refine ⟨es0, h7, ?_⟩
          intro e ent he
          rcases h9.2 e ent he with h10 | h10
          · exact h6 e ent h10
          · exact h10
      · exact h4 i hi
  · intro j
    rcases h'.node j with h1 | ⟨h1, es, es', h2, h3, h4⟩
    · rw [h1]
      exact h.node j
    · have hj : a.entry n = some j := by
        rcases h.self with h5 | ⟨h5, -⟩
        · rw [← h5, h1]
        · rw [h5] at h1; cases h1
      refine .inr ⟨hj, ?_⟩
      rcases h.node j with h5 | ⟨-, es0, es1, h5, h6, h7⟩
      · exact ⟨es, es', h5 ▸ h2, h3, h4⟩
      · rw [h2] at h6
        cases h6
        exact ⟨es0, es', h5, h3, h7.trans h4⟩

variable (W : World)

/-- The files `publish` writes for two graphs. -/
def bundleOf (t v : W.G) : List (Name × Ent) :=
  [(manifestName, .reg (W.dumps (manifestOf W (metadataOf W (W.ser (W.opt t)))
      (metadataOf W (W.ser (W.opt v)))))),
   (verbalizerName, .reg (W.ser (W.opt v))),
   (taggerName, .reg (W.ser (W.opt t)))]

/-- What is assumed of `json` and of the sizes: a written manifest is read back with the same items,
and graphs and manifests are within the limits of `_load_path`. -/
structure Lawful : Prop where
  json : ∀ x y : W.G, ∃ m,
    W.loads (W.dumps (manifestOf W (metadataOf W (W.ser x)) (metadataOf W (W.ser y)))) =
      some (.obj m) ∧
    ∀ k, m.lookup k = (("files".toList, Json.obj [(taggerName, metadataOf W (W.ser x)),
      (verbalizerName, metadataOf W (W.ser y))]) :: W.identity).lookup k
  manifestSmall : ∀ x y : W.G, (W.dumps (manifestOf W (metadataOf W (W.ser x))
    (metadataOf W (W.ser y)))).length ≤ manifestMax
  graphSmall : ∀ g : W.G, (W.ser g).length ≤ fstMax

/-- The last rename from or to the final name. -/
def lastMove (fs : FS W.G) : Option Move :=
  fs.moves.find? fun m => m.src = W.key.digest ∨ m.dst = W.key.digest

/-- A complete bundle is under the final name, or the last thing that happened to the final name is
that a complete bundle was moved to a `.previous-` name and is still there unchanged. -/
def Kept (fs : FS W.G) : Prop :=
  CompleteAt W fs W.key.digest ∨ fs.entry W.key.digest = none ∧ ∃ mv es,
    lastMove W fs = some mv ∧ mv.src = W.key.digest ∧ W.key.IsPrevious mv.dst ∧
    fs.entry mv.dst = some mv.ino ∧ mv.node = .dir es ∧ fs.node mv.ino = .dir es ∧
    Complete W es

/-- What was last moved from the final name to a `.previous-` name has only lost entries. -/
def LogInv (fs : FS W.G) : Prop :=
  ∀ mv es es', lastMove W fs = some mv → mv.src = W.key.digest → W.key.IsPrevious mv.dst →
    fs.entry mv.dst = some mv.ino → mv.node = .dir es → fs.node mv.ino = .dir es' →
    es'.Sublist es

/-- Reading works and the assumptions on `json` and sizes hold. -/
def Reliable (F : Faults) : Prop := ReadsWork F ∧ Lawful W

/-- The transitions of a lock holder. -/
inductive Trans (F : Faults) : FS W.G → FS W.G → Prop
  | stay (fs) : Trans F fs fs
  | recover (fs fs' n) : W.key.IsPrevious n → CompleteAt W fs n → Moved n W.key.digest fs fs' →
      Trans F fs fs'
  | clean (fs fs' n) : W.key.residual n = true →
      (Reliable W F → Kept W fs → CompleteAt W fs W.key.digest) → Cut n fs fs' → Trans F fs fs'
  | cutTmp (fs fs' n) : W.key.IsTmp n → Cut n fs fs' → Trans F fs fs'
  | cutCorrupt (fs fs' n) : W.key.IsCorrupt n → Cut n fs fs' → Trans F fs fs'
  | quarantine (fs fs' n) : W.key.IsCorrupt n → (Reliable W F → ¬ Kept W fs) →
      Moved W.key.digest n fs fs' → Trans F fs fs'
  | build (fs : FS W.G) (p) : Trans F fs { fs with built := p :: fs.built }
  | mkdtemp (fs : FS W.G) (n) : W.key.IsTmp n → fs.entry n = none → Trans F fs (fs.mkdir n)
  | write (fs : FS W.G) (n e b) : W.key.IsTmp n → Trans F fs (fs.write n e b).2
  | moveAway (fs fs' n) : W.key.IsPrevious n → fs.built ≠ [] →
      (Reliable W F → Kept W fs → CompleteAt W fs W.key.digest) →
      Moved W.key.digest n fs fs' → Trans F fs fs'
  | putNew (fs fs' : FS W.G) (n) (p : W.G × W.G) (i : Ino) : W.key.IsTmp n → p ∈ fs.built →
      fs.entry n = some i → fs.node i = .dir (bundleOf W (W.opt p.1) (W.opt p.2)) →
      (∃ g, Reloads W p g) → Moved n W.key.digest fs fs' → Trans F fs fs'
  | putBack (fs fs' n) (mv : Move) : W.key.IsPrevious n → lastMove W fs = some mv →
      mv.src = W.key.digest → mv.dst = n → Moved n W.key.digest fs fs' → Trans F fs fs'

variable {W} {F : Faults}

/-- Names point to different used inodes. -/
structure Wf {G : Type} (fs : FS G) : Prop where
  inj : ∀ n m i, fs.entry n = some i → fs.entry m = some i → n = m
  lt : ∀ n i, fs.entry n = some i → i < fs.next

section
variable {G : Type}

theorem Cut.entry_of {n : Name} {fs fs' : FS G} (h : Cut n fs fs') {m : Name} {i : Ino}
    (hm : fs'.entry m = some i) : fs.entry m = some i := by
  by_cases hmn : m = n
  · subst hmn
    rcases h.self with h1 | ⟨h1, -⟩
    · rw [← h1, hm]
    · rw [h1] at hm; cases hm
  · rw [← h.other m hmn, hm]

theorem Wf.cut {n : Name} {fs fs' : FS G} (hw : Wf fs) (h : Cut n fs fs') : Wf fs' := by
  refine ⟨fun a b i ha hb => hw.inj a b i (h.entry_of ha) (h.entry_of hb), ?_⟩
  intro a i ha
  rw [h.next]
  exact hw.lt a i (h.entry_of ha)

theorem move_entry {fs : FS G} {a b m : Name} {i : Ino} :
    (fs.move a b i).entry m = if m = a then none else if m = b then some i else fs.entry m := rfl

theorem move_of {fs : FS G} {a b m : Name} {i j : Ino} (ha : fs.entry a = some i)
    (hm : (fs.move a b i).entry m = some j) :
    m ≠ a ∧ (m = b ∧ j = i ∧ fs.entry a = some j ∨ m ≠ b ∧ fs.entry m = some j) := by
  rw [move_entry] at hm
  split at hm
  · cases hm
  · rename_i h1
    split at hm
    · rename_i h2
      cases hm
      exact ⟨h1, .inl ⟨h2, rfl, ha⟩⟩
    · rename_i h2
      exact ⟨h1, .inr ⟨h2, hm⟩⟩

theorem Wf.moved {a b : Name} {fs fs' : FS G} (hw : Wf fs) (h : Moved a b fs fs') : Wf fs' := by
  obtain ⟨i, h1, rfl, -⟩ := h
  refine ⟨?_, ?_⟩
  · intro n m j hn hm
    obtain ⟨hn1, hn2⟩ := move_of h1 hn
    obtain ⟨hm1, hm2⟩ := move_of h1 hm
    rcases hn2 with ⟨rfl, rfl, hn3⟩ | ⟨hn3, hn4⟩ <;> rcases hm2 with ⟨rfl, hm3, hm4⟩ | ⟨hm3, hm4⟩
    · rfl
    · exact (hm1 (hw.inj _ _ _ hm4 hn3)).elim
    · subst hm3
      exact (hn1 (hw.inj _ _ _ hn4 hm4)).elim
    · exact hw.inj _ _ _ hn4 hm4
  · intro n j hn
    obtain ⟨-, ⟨-, -, h3⟩ | ⟨-, h3⟩⟩ := move_of h1 hn
    · exact hw.lt _ _ h3
    · exact hw.lt _ _ h3

theorem Wf.mkdir {fs : FS G} (hw : Wf fs) (n : Name) : Wf (fs.mkdir n) := by
  have key : ∀ m j, (fs.mkdir n).entry m = some j →
      m = n ∧ j = fs.next ∨ fs.entry m = some j := by
    intro m j h
    simp only [FS.mkdir] at h
    split at h
    · rename_i h1
      cases h
      exact .inl ⟨h1, rfl⟩
    · exact .inr h
  refine ⟨?_, ?_⟩
  · intro a b i ha hb
    rcases key a i ha with ⟨rfl, h1⟩ | h1 <;> rcases key b i hb with ⟨rfl, h2⟩ | h2
    · rfl
    · have := hw.lt _ _ h2; omega
    · have := hw.lt _ _ h1; omega
    · exact hw.inj _ _ _ h1 h2
  · intro a i ha
    show i < fs.next + 1
    rcases key a i ha with ⟨rfl, h1⟩ | h1
    · omega
    · have := hw.lt _ _ h1; omega

/-- What a write does. -/
theorem write_cases (fs : FS G) (n e : Name) (b : Bytes) :
    (fs.write n e b).2 = fs ∨ ∃ i es, fs.entry n = some i ∧ fs.node i = .dir es ∧
      (fs.write n e b).2 =
        fs.setNode i (.dir ((e, .reg b) :: es.filter fun p => p.1 ≠ e)) := by
  unfold FS.write
  split
  · exact .inl rfl
  · rename_i i hi
    split
    · rename_i es hes
      exact .inr ⟨i, es, hi, hes, rfl⟩
    · exact .inl rfl

theorem write_entry (fs : FS G) (n e : Name) (b : Bytes) (m : Name) :
    (fs.write n e b).2.entry m = fs.entry m := by
  rcases write_cases fs n e b with h | ⟨i, es, -, -, h⟩ <;> rw [h]
  rfl

theorem write_next (fs : FS G) (n e : Name) (b : Bytes) :
    (fs.write n e b).2.next = fs.next := by
  rcases write_cases fs n e b with h | ⟨i, es, -, -, h⟩ <;> rw [h]
  rfl

theorem write_built (fs : FS G) (n e : Name) (b : Bytes) :
    (fs.write n e b).2.built = fs.built := by
  rcases write_cases fs n e b with h | ⟨i, es, -, -, h⟩ <;> rw [h]
  rfl

theorem write_moves (fs : FS G) (n e : Name) (b : Bytes) :
    (fs.write n e b).2.moves = fs.moves := by
  rcases write_cases fs n e b with h | ⟨i, es, -, -, h⟩ <;> rw [h]
  rfl

theorem write_node (fs : FS G) (n e : Name) (b : Bytes) (j : Ino) (hj : fs.entry n ≠ some j) :
    (fs.write n e b).2.node j = fs.node j := by
  rcases write_cases fs n e b with h | ⟨i, es, h1, -, h⟩ <;> rw [h]
  have : j ≠ i := fun hji => hj (hji ▸ h1)
  simp [FS.setNode, this]

theorem Wf.write {fs : FS G} (hw : Wf fs) (n e : Name) (b : Bytes) : Wf (fs.write n e b).2 := by
  refine ⟨?_, ?_⟩
  · intro a c i ha hc
    rw [write_entry] at ha hc
    exact hw.inj _ _ _ ha hc
  · intro a i ha
    rw [write_entry] at ha
    rw [write_next]
    exact hw.lt _ _ ha

end

theorem Wf.trans {fs fs' : FS W.G} (hw : Wf fs) (h : Trans W F fs fs') : Wf fs' := by
  cases h with
  | stay => exact hw
  | recover _ _ _ _ h => exact hw.moved h
  | clean _ _ _ _ h => exact hw.cut h
  | cutTmp _ _ _ h => exact hw.cut h
  | cutCorrupt _ _ _ h => exact hw.cut h
  | quarantine _ _ _ _ h => exact hw.moved h
  | build => exact ⟨hw.inj, hw.lt⟩
  | mkdtemp => exact hw.mkdir _
  | write => exact hw.write _ _ _
  | moveAway _ _ _ _ _ h => exact hw.moved h
  | putNew _ _ _ _ _ _ _ _ _ h => exact hw.moved h
  | putBack _ _ _ _ _ _ _ h => exact hw.moved h

/-- The key's names that `_load_path` is called with. -/
def Readable (W : World) (n : Name) : Prop := n = W.key.digest ∨ W.key.IsPrevious n

/-- Contents that were there at the start or were written for a built pair. -/
def Origin (W : World) (init : List (Name × Ent) → Prop) (fs : FS W.G)
    (o : List (Name × Ent)) : Prop :=
  init o ∨ ∃ p ∈ fs.built, o = bundleOf W (W.opt p.1) (W.opt p.2)

/-- The state invariant of C31. -/
structure Inv (W : World) (init : List (Name × Ent) → Prop) (fs : FS W.G) : Prop where
  wf : Wf fs
  origin : ∀ n i es, Readable W n → fs.entry n = some i → fs.node i = .dir es →
    ∃ o, Origin W init fs o ∧ Sub es o

/-- A used inode that has no temporary name: nobody writes into it. -/
def Quiet (W : World) (fs : FS W.G) (i : Ino) : Prop :=
  i < fs.next ∧ ∀ n, W.key.IsTmp n → fs.entry n ≠ some i

/-- Quiet directories stay quiet and only lose entries. -/
def Shrinks (W : World) (fs fs' : FS W.G) : Prop :=
  ∀ i, Quiet W fs i → Quiet W fs' i ∧ Sub (fs'.ents i) (fs.ents i)

theorem Readable.not_tmp {n : Name} (hk : W.key.Valid) (h : Readable W n) (h' : W.key.IsTmp n) :
    False := by
  rcases h with rfl | h
  · exact Key.final_not_tmp hk h'
  · exact Key.tmp_not_previous h' h

theorem Trans.built_sub {fs fs' : FS W.G} (h : Trans W F fs fs') : ∀ p ∈ fs.built, p ∈ fs'.built := by
  intro p hp
  have moved : ∀ {a b}, Moved a b fs fs' → p ∈ fs'.built := by
    rintro a b ⟨i, -, rfl, -⟩
    exact hp
  have cut : ∀ {n}, Cut n fs fs' → p ∈ fs'.built := by
    intro n h
    rw [h.built]
    exact hp
  cases h with
  | stay => exact hp
  | recover _ _ _ _ h => exact moved h
  | clean _ _ _ _ h => exact cut h
  | cutTmp _ _ _ h => exact cut h
  | cutCorrupt _ _ _ h => exact cut h
  | quarantine _ _ _ _ h => exact moved h
  | build => exact List.mem_cons_of_mem _ hp
  | mkdtemp => exact hp
  | write => rw [write_built]; exact hp
  | moveAway _ _ _ _ _ h => exact moved h
  | putNew _ _ _ _ _ _ _ _ _ h => exact moved h
  | putBack _ _ _ _ _ _ _ h => exact moved h

theorem Origin.mono {init : List (Name × Ent) → Prop} {fs fs' : FS W.G}
    (h : ∀ p ∈ fs.built, p ∈ fs'.built) {o : List (Name × Ent)} (ho : Origin W init fs o) :
    Origin W init fs' o := by
  rcases ho with ho | ⟨p, hp, ho⟩
  · exact .inl ho
  · exact .inr ⟨p, h p hp, ho⟩

theorem Cut.ents {G : Type} {n : Name} {fs fs' : FS G} (h : Cut n fs fs') (i : Ino) :
    Sub (fs'.ents i) (fs.ents i) := by
  rcases h.node i with h1 | ⟨-, es, es', h1, h2, h3⟩
  · unfold FS.ents
    rw [h1]
    exact Sub.refl _
  · simp only [FS.ents, h1, h2]
    exact h3.1.1

theorem Trans.shrinks (hk : W.key.Valid) {fs fs' : FS W.G} (hw : Wf fs) (h : Trans W F fs fs') :
    Shrinks W fs fs' := by
  intro i hi
  have moved : ∀ {a b}, (W.key.IsTmp b → False) → Moved a b fs fs' →
      Quiet W fs' i ∧ Sub (fs'.ents i) (fs.ents i) := by
    rintro a b hb ⟨j, h1, rfl, -⟩
    refine ⟨⟨hi.1, ?_⟩, Sub.refl _⟩
    intro n hn he
    obtain ⟨-, ⟨rfl, -⟩ | ⟨-, h2⟩⟩ := move_of h1 he
    · exact hb hn
    · exact hi.2 n hn h2
  have cut : ∀ {n}, Cut n fs fs' → Quiet W fs' i ∧ Sub (fs'.ents i) (fs.ents i) := by
    intro n h
    refine ⟨⟨by rw [h.next]; exact hi.1, ?_⟩, h.ents i⟩
    intro m hm he
    exact hi.2 m hm (h.entry_of he)
  cases h with
  | stay => exact ⟨hi, Sub.refl _⟩
  | recover _ _ _ _ h => exact moved (Key.final_not_tmp hk) h
  | clean _ _ _ _ h => exact cut h
  | cutTmp _ _ _ h => exact cut h
  | cutCorrupt _ _ _ h => exact cut h
  | quarantine _ _ hc _ h => exact moved (fun h => Key.tmp_not_corrupt h hc) h
  | build => exact ⟨hi, Sub.refl _⟩
  | mkdtemp n hn hfree =>
    refine ⟨⟨Nat.lt_succ_of_lt hi.1, ?_⟩, ?_⟩
    · intro m hm he
      simp only [FS.mkdir] at he
      split at he
      · cases he
        exact (Nat.lt_irrefl _ hi.1)
      · exact hi.2 m hm he
    · have : i ≠ fs.next := fun h => by have := hi.1; omega
      simp only [FS.ents, FS.mkdir, this, if_false]
      exact Sub.refl _
  | write n e b hn =>
    refine ⟨⟨by rw [write_next]; exact hi.1, ?_⟩, ?_⟩
    · intro m hm he
      rw [write_entry] at he
      exact hi.2 m hm he
    · simp only [FS.ents, write_node fs n e b i (hi.2 n hn)]
      exact Sub.refl _
  | moveAway _ _ hp _ _ h => exact moved (fun h => Key.tmp_not_previous h hp) h
  | putNew _ _ _ _ _ _ _ _ _ h => exact moved (Key.final_not_tmp hk) h
  | putBack _ _ _ _ _ _ _ h => exact moved (Key.final_not_tmp hk) h

theorem Inv.trans (hk : W.key.Valid) {init : List (Name × Ent) → Prop} {fs fs' : FS W.G}
    (hi : Inv W init fs) (h : Trans W F fs fs') : Inv W init fs' := by
  refine ⟨hi.wf.trans h, ?_⟩
  have hb := h.built_sub
  have lift : ∀ {o}, Origin W init fs o → Origin W init fs' o := fun ho => ho.mono hb
  have old : ∀ {n i es}, Readable W n → fs.entry n = some i → fs.node i = .dir es →
      ∃ o, Origin W init fs' o ∧ Sub es o := by
    intro n i es h1 h2 h3
    obtain ⟨o, h4, h5⟩ := hi.origin n i es h1 h2 h3
    exact ⟨o, lift h4, h5⟩
  have moved : ∀ {a b}, Readable W a → Moved a b fs fs' → ∀ n i es, Readable W n →
      fs'.entry n = some i → fs'.node i = .dir es → ∃ o, Origin W init fs' o ∧ Sub es o := by
    rintro a b ha ⟨j, h1, rfl, -⟩ n i es hn he hd
    obtain ⟨-, ⟨-, -, h2⟩ | ⟨-, h2⟩⟩ := move_of h1 he
    · exact old ha h2 hd
    · exact old hn h2 hd
  have cut : ∀ {m}, Cut m fs fs' → ∀ n i es, Readable W n →
      fs'.entry n = some i → fs'.node i = .dir es → ∃ o, Origin W init fs' o ∧ Sub es o := by
    intro m h n i es hn he hd
    have he' := h.entry_of he
    rcases h.node i with h1 | ⟨-, es0, es1, h1, h2, h3⟩
    · exact old hn he' (h1 ▸ hd)
    · rw [hd] at h2
      cases h2
      obtain ⟨o, h4, h5⟩ := old hn he' h1
      exact ⟨o, h4, h3.1.1.trans h5⟩
  cases h with
  | stay => exact fun n i es h1 h2 h3 => old h1 h2 h3
  | recover _ _ hp _ h => exact moved (.inr hp) h
  | clean _ _ _ _ h => exact cut h
  | cutTmp _ _ _ h => exact cut h
  | cutCorrupt _ _ _ h => exact cut h
  | quarantine _ _ _ _ h => exact moved (.inl rfl) h
  | build => exact fun n i es h1 h2 h3 => old h1 h2 h3
  | mkdtemp m hm hfree =>
    intro n i es hn he hd
    have hne : n ≠ m := fun h => hn.not_tmp hk (h ▸ hm)
    simp only [FS.mkdir, hne, if_false] at he
    have := hi.wf.lt _ _ he
    have hin : i ≠ fs.next := by omega
    simp only [FS.mkdir, hin, if_false] at hd
    exact old hn he hd
  | write m e b hm =>
    intro n i es hn he hd
    rw [write_entry] at he
    have hne : fs.entry m ≠ some i := fun h => hn.not_tmp hk (hi.wf.inj _ _ _ he h ▸ hm)
    rw [write_node fs m e b i hne] at hd
    exact old hn he hd
  | moveAway _ _ _ _ _ h => exact moved (.inl rfl) h
  | putNew _ m p t hm hp ht hd _ h =>
    obtain ⟨j, h1, rfl, -⟩ := h
    intro n i es hn he hes
    obtain ⟨-, ⟨-, h3, -⟩ | ⟨-, h2⟩⟩ := move_of h1 he
    · rw [h1] at ht
      cases ht
      subst h3
      have hes' : fs.node i = .dir es := hes
      rw [hd] at hes'
      cases hes'
      exact ⟨_, .inr ⟨p, hp, rfl⟩, Sub.refl _⟩
    · exact old hn h2 hes
  | putBack _ _ _ hp _ _ _ h => exact moved (.inr hp) h

/-! Complete bundles are not lost. -/

theorem not_complete_nil : ¬ Complete W [] := by
  rintro ⟨h, -⟩
  have := (h "tagger.fst".toList).2 (.inl rfl)
  simp at this

theorem CompleteAt.same {fs fs' : FS W.G} {n : Name} (h : CompleteAt W fs n)
    (he : fs'.entry n = fs.entry n)
    (hn : ∀ i, fs.entry n = some i → fs'.node i = fs.node i) : CompleteAt W fs' n := by
  obtain ⟨i, es, h1, h2, h3⟩ := h
  exact ⟨i, es, he.trans h1, (hn i h1).trans h2, h3⟩

theorem Moved.not_complete {a b : Name} {fs fs' : FS W.G} (h : Moved a b fs fs') :
    ¬ CompleteAt W fs b := by
  rintro ⟨j, es, h1, h2, h3⟩
  obtain ⟨i, -, -, h4 | ⟨k, h4, h5⟩⟩ := h
  · rw [h1] at h4; cases h4
  · rw [h1] at h4
    cases h4
    rw [h2] at h5
    unfold FS.mayReplace at h5
    split at h5
    · rename_i h6
      cases h6
      exact not_complete_nil h3
    · cases h5
    · cases h5
    · rename_i h6 _
      exact h6 _ rfl

theorem Moved.complete {a b : Name} {fs fs' : FS W.G} (hab : a ≠ b) (h : Moved a b fs fs')
    (hc : CompleteAt W fs a) : CompleteAt W fs' b := by
  obtain ⟨i, es, h1, h2, h3⟩ := hc
  obtain ⟨j, h4, rfl, -⟩ := h
  rw [h1] at h4
  cases h4
  refine ⟨i, es, ?_, h2, h3⟩
  simp [move_entry, hab.symm]

theorem lookup_bundleOf_manifest (t v : W.G) :
    (bundleOf W t v).lookup "manifest.json".toList = some (.reg (W.dumps (manifestOf W
      (metadataOf W (W.ser (W.opt t))) (metadataOf W (W.ser (W.opt v)))))) := by
  rfl

theorem lookup_bundleOf_verbalizer (t v : W.G) :
    (bundleOf W t v).lookup "verbalizer.fst".toList = some (.reg (W.ser (W.opt v))) := by
  rfl

theorem lookup_bundleOf_tagger (t v : W.G) :
    (bundleOf W t v).lookup "tagger.fst".toList = some (.reg (W.ser (W.opt t))) := by
  rfl

/-- What is loaded from a written bundle is what was written. -/
theorem Holds.bundleOf {p g : W.G × W.G}
    (h : Holds W (bundleOf W (W.opt p.1) (W.opt p.2)) g) : Reloads W p g := by
  obtain ⟨-, -, -, -, -, -, -, -, -, ⟨b, -, x, h1, -, -, -, -, h2, h3⟩,
    ⟨c, -, y, h4, -, -, -, -, h5, h6⟩⟩ := h
  rw [lookup_bundleOf_tagger] at h1
  rw [lookup_bundleOf_verbalizer] at h4
  cases h1
  cases h4
  exact ⟨x, y, h2, h5, by rw [← h3, ← h6]⟩

/-- A written bundle whose graphs can be read is complete. -/
theorem bundleOf_holds (hl : Lawful W) {p g : W.G × W.G} (h : Reloads W p g) :
    Holds W (bundleOf W (W.opt p.1) (W.opt p.2)) g := by
  obtain ⟨x, y, hx, hy, rfl⟩ := h
  obtain ⟨m, h1, h2⟩ := hl.json (W.opt (W.opt p.1)) (W.opt (W.opt p.2))
  have hget : ∀ k j, (("files".toList, Json.obj
      [(taggerName, metadataOf W (W.ser (W.opt (W.opt p.1)))),
       (verbalizerName, metadataOf W (W.ser (W.opt (W.opt p.2))))]) :: W.identity).lookup k =
        some j → get m k = j := by
    intro k j h
    exact get_of_lookup ((h2 k).trans h)
  refine ⟨_, m, _, lookup_bundleOf_manifest _ _, hl.manifestSmall _ _, h1, ?_, h2 _ |>.trans rfl,
    ?_, ?_, ?_⟩
  · constructor
    · rw [hget _ _ rfl]; exact pyEq_refl _
    · rw [hget _ _ rfl]; exact pyEq_refl _
    · rw [hget _ _ rfl]; exact pyEq_refl _
    · rw [hget _ _ rfl]; exact pyEq_refl _
    · rw [hget _ _ rfl]; exact pyEq_refl _
    · rw [hget _ _ rfl]; exact pyEq_refl _
    · rw [hget _ _ rfl]; exact pyEq_refl _
    · rw [hget _ _ rfl]; exact pyEq_refl _
  · intro k
    unfold taggerName verbalizerName
    simp only [List.map_cons, List.map_nil, List.mem_cons, List.not_mem_nil, or_false]
  · exact ⟨_, [("sha256".toList, .str (W.sha (W.ser (W.opt (W.opt p.1))))),
      ("size".toList, .int (W.ser (W.opt (W.opt p.1))).length)], x, lookup_bundleOf_tagger _ _,
      rfl, rfl, hl.graphSmall _, rfl, hx, rfl⟩
  · exact ⟨_, [("sha256".toList, .str (W.sha (W.ser (W.opt (W.opt p.2))))),
      ("size".toList, .int (W.ser (W.opt (W.opt p.2))).length)], y,
      lookup_bundleOf_verbalizer _ _, rfl, rfl, hl.graphSmall _, rfl, hy, rfl⟩

theorem bundleOf_names (t v : W.G) : NamesOk (bundleOf W t v) := by
  intro n
  unfold bundleOf taggerName verbalizerName manifestName
  simp only [List.map_cons, List.map_nil, List.mem_cons, List.not_mem_nil, or_false]
  tauto

/-- The names that are read are as before, and so are their nodes. -/
structure Same (W : World) (fs fs' : FS W.G) : Prop where
  entry : ∀ n, Readable W n → fs'.entry n = fs.entry n
  node : ∀ n i, Readable W n → fs.entry n = some i → fs'.node i = fs.node i
  moves : fs'.moves = fs.moves

theorem Same.symm {fs fs' : FS W.G} (h : Same W fs fs') : Same W fs' fs :=
  ⟨fun n hn => (h.entry n hn).symm, fun n i hn hi => (h.node n i hn (h.entry n hn ▸ hi)).symm,
    h.moves.symm⟩

theorem Same.complete {fs fs' : FS W.G} (h : Same W fs fs') {n : Name} (hn : Readable W n)
    (hc : CompleteAt W fs n) : CompleteAt W fs' n :=
  hc.same (h.entry n hn) fun i hi => h.node n i hn hi

theorem Same.kept {fs fs' : FS W.G} (h : Same W fs fs') (hk : Kept W fs) : Kept W fs' := by
  rcases hk with h1 | ⟨h1, mv, es, h2, h3, h4, h5, h6, h7, h8⟩
  · exact .inl (h.complete (.inl rfl) h1)
  · refine .inr ⟨(h.entry _ (.inl rfl)).trans h1, mv, es, ?_, h3, h4,
      (h.entry _ (.inr h4)).trans h5, h6, (h.node _ _ (.inr h4) h5).trans h7, h8⟩
    simp only [lastMove, h.moves]
    exact h2

theorem Same.log {fs fs' : FS W.G} (h : Same W fs fs') (hl : LogInv W fs) : LogInv W fs' := by
  intro mv es es' h1 h2 h3 h4 h5 h6
  have h4' := (h.entry _ (.inr h3)).symm.trans h4
  refine hl mv es es' ?_ h2 h3 h4' h5 ((h.node _ _ (.inr h3) h4').symm.trans h6)
  simp only [lastMove, h.moves] at h1
  exact h1

theorem same_cut {n : Name} {fs fs' : FS W.G} (hw : Wf fs) (hn : ¬ Readable W n)
    (h : Cut n fs fs') : Same W fs fs' := by
  refine ⟨?_, ?_, h.moves⟩
  · intro m hm
    exact h.other m fun he => hn (he ▸ hm)
  · intro m i hm hi
    rcases h.node i with h1 | ⟨h1, -⟩
    · exact h1
    · exact (hn (hw.inj _ _ _ hi h1 ▸ hm)).elim

theorem same_mkdir (hk : W.key.Valid) {n : Name} {fs : FS W.G} (hw : Wf fs)
    (hn : W.key.IsTmp n) : Same W fs (fs.mkdir n) := by
  refine ⟨?_, ?_, rfl⟩
  · intro m hm
    have hne : m ≠ n := fun h => hm.not_tmp hk (h ▸ hn)
    simp [FS.mkdir, hne]
  · intro m i hm hi
    have := hw.lt _ _ hi
    have hne : i ≠ fs.next := by omega
    simp [FS.mkdir, hne]

theorem same_write (hk : W.key.Valid) {n : Name} {fs : FS W.G} (hw : Wf fs)
    (hn : W.key.IsTmp n) (e : Name) (b : Bytes) : Same W fs (fs.write n e b).2 := by
  refine ⟨fun m _ => write_entry _ _ _ _ _, ?_, write_moves _ _ _ _⟩
  intro m i hm hi
  exact write_node _ _ _ _ _ fun h => hm.not_tmp hk (hw.inj _ _ _ hi h ▸ hn)

theorem tmp_not_readable (hk : W.key.Valid) {n : Name} (hn : W.key.IsTmp n) : ¬ Readable W n :=
  fun hr => hr.not_tmp hk hn

theorem corrupt_not_readable (hk : W.key.Valid) {n : Name} (hn : W.key.IsCorrupt n) :
    ¬ Readable W n := by
  rintro (rfl | hp)
  · exact Key.final_not_corrupt hk hn
  · exact Key.previous_not_corrupt hp hn

theorem residual_ne_final (hk : W.key.Valid) {n : Name} (hn : W.key.residual n = true) :
    n ≠ W.key.digest := by
  rintro rfl
  rw [Key.final_not_residual hk] at hn
  cases hn

theorem cut_complete_final (hk : W.key.Valid) {n : Name} {fs fs' : FS W.G} (hw : Wf fs)
    (hn : W.key.residual n = true) (h : Cut n fs fs') (hc : CompleteAt W fs W.key.digest) :
    CompleteAt W fs' W.key.digest := by
  have hne := residual_ne_final hk hn
  refine hc.same (h.other _ hne.symm) ?_
  intro i hi
  rcases h.node i with h1 | ⟨h1, -⟩
  · exact h1
  · exact (hne (hw.inj _ _ _ h1 hi)).elim

/-- Trimming a residual does not make a bundle kept that was not kept before. -/
theorem cut_kept (hk : W.key.Valid) {n : Name} {fs fs' : FS W.G} (hw : Wf fs) (hl : LogInv W fs)
    (hn : W.key.residual n = true) (h : Cut n fs fs') (hkept : Kept W fs') : Kept W fs := by
  have hne := residual_ne_final hk hn
  rcases hkept with ⟨i, es, h1, h2, h3⟩ | ⟨h1, mv, es, h2, h3, h4, h5, h6, h7, h8⟩
  · left
    have h1' := h.entry_of h1
    refine ⟨i, es, h1', ?_, h3⟩
    rcases h.node i with h4 | ⟨h4, -⟩
    · rw [← h4, h2]
    · exact (hne (hw.inj _ _ _ h4 h1')).elim
  · right
    rw [h.other _ hne.symm] at h1
    have h5' := h.entry_of h5
    simp only [lastMove, h.moves] at h2
    refine ⟨h1, mv, es, h2, h3, h4, h5', h6, ?_, h8⟩
    rcases h.node mv.ino with h9 | ⟨-, es0, es1, h9, h10, h11⟩
    · rw [← h9, h7]
    · rw [h7] at h10
      cases h10
      have := hl mv es es0 h2 h3 h4 h5' h6 h9
      rw [h9, this.antisymm h11.1.2]

theorem lastMove_move_src {fs : FS W.G} {b : Name} {i : Ino} :
    lastMove W (fs.move W.key.digest b i) = some ⟨W.key.digest, b, i, fs.node i⟩ := by
  simp [lastMove, FS.move]

theorem lastMove_move_dst {fs : FS W.G} {a : Name} {i : Ino} :
    lastMove W (fs.move a W.key.digest i) = some ⟨a, W.key.digest, i, fs.node i⟩ := by
  simp [lastMove, FS.move]

theorem LogInv.to_final {fs fs' : FS W.G} {a : Name} (ha : a ≠ W.key.digest)
    (h : Moved a W.key.digest fs fs') : LogInv W fs' := by
  obtain ⟨i, -, rfl, -⟩ := h
  intro mv es es' h1 h2
  rw [lastMove_move_dst] at h1
  cases h1
  exact (ha h2).elim

theorem LogInv.from_final {fs fs' : FS W.G} {b : Name} (h : Moved W.key.digest b fs fs') :
    LogInv W fs' := by
  obtain ⟨i, -, rfl, -⟩ := h
  intro mv es es' h1 h2 h3 h4 h5 h6
  rw [lastMove_move_src] at h1
  cases h1
  simp only at h5 h6
  have h6' : fs.node i = .dir es' := h6
  rw [h5] at h6'
  cases h6'
  exact .refl _

theorem LogInv.trans (hk : W.key.Valid) {fs fs' : FS W.G} (hw : Wf fs) (hl : LogInv W fs)
    (h : Trans W F fs fs') : LogInv W fs' := by
  have prev : ∀ {n}, W.key.IsPrevious n → n ≠ W.key.digest :=
    fun hn he => Key.final_not_previous hk (he ▸ hn)
  cases h with
  | stay => exact hl
  | recover _ n hp hc h => exact LogInv.to_final (prev hp) h
  | clean _ n hn hf h =>
    intro mv es es' h1 h2 h3 h4 h5 h6
    simp only [lastMove, h.moves] at h1
    have h4' := h.entry_of h4
    rcases h.node mv.ino with h7 | ⟨-, es0, es1, h7, h8, h9⟩
    · exact hl mv es es' h1 h2 h3 h4' h5 (h7 ▸ h6)
    · rw [h6] at h8
      cases h8
      exact h9.1.2.trans (hl mv es es0 h1 h2 h3 h4' h5 h7)
  | cutTmp _ n hn h => exact (same_cut hw (tmp_not_readable hk hn) h).log hl
  | cutCorrupt _ n hn h => exact (same_cut hw (corrupt_not_readable hk hn) h).log hl
  | quarantine _ n _ hnot h => exact LogInv.from_final h
  | build p =>
    have hs : Same W fs { fs with built := p :: fs.built } :=
      ⟨fun _ _ => rfl, fun _ _ _ _ => rfl, rfl⟩
    exact hs.log hl
  | mkdtemp n hn hfree => exact (same_mkdir hk hw hn).log hl
  | write n e b hn => exact (same_write hk hw hn e b).log hl
  | moveAway _ n hn _ hf h => exact LogInv.from_final h
  | putNew _ n p i hn hp hi hd hg h =>
    exact LogInv.to_final (fun he => Key.final_not_tmp hk (he ▸ hn)) h
  | putBack _ n mv hn hm h2 h3 h => exact LogInv.to_final (prev hn) h

theorem Kept.moveAway (hk : W.key.Valid) {fs fs' : FS W.G} {n : Name}
    (hn : W.key.IsPrevious n) (hc : CompleteAt W fs W.key.digest)
    (h : Moved W.key.digest n fs fs') : Kept W fs' := by
  have hne : W.key.digest ≠ n := fun he => Key.final_not_previous hk (he ▸ hn)
  obtain ⟨i, es, h1, h2, h3⟩ := hc
  obtain ⟨j, h4, rfl, -⟩ := h
  rw [h1] at h4
  cases h4
  refine .inr ⟨by simp [move_entry], _, es, lastMove_move_src, rfl, hn, ?_, h2, h2, h3⟩
  simp [move_entry, hne.symm]

theorem Kept.trans (hk : W.key.Valid) (hr : Reliable W F) {fs fs' : FS W.G} (hw : Wf fs)
    (hkept : Kept W fs) (h : Trans W F fs fs') : Kept W fs' := by
  cases h with
  | stay => exact hkept
  | recover _ n hp hc h =>
    exact .inl (h.complete (fun he => Key.final_not_previous hk (he ▸ hp)) hc)
  | clean _ n hn hf h => exact .inl (cut_complete_final hk hw hn h (hf hr hkept))
  | cutTmp _ n hn h => exact (same_cut hw (tmp_not_readable hk hn) h).kept hkept
  | cutCorrupt _ n hn h => exact (same_cut hw (corrupt_not_readable hk hn) h).kept hkept
  | quarantine _ n _ hnot h => exact (hnot hr hkept).elim
  | build p =>
    have hs : Same W fs { fs with built := p :: fs.built } :=
      ⟨fun _ _ => rfl, fun _ _ _ _ => rfl, rfl⟩
    exact hs.kept hkept
  | mkdtemp n hn hfree => exact (same_mkdir hk hw hn).kept hkept
  | write n e b hn => exact (same_write hk hw hn e b).kept hkept
  | moveAway _ n hn _ hf h => exact Kept.moveAway hk hn (hf hr hkept) h
  | putNew _ n p i hn hp hi hd hg h =>
    obtain ⟨g, hg⟩ := hg
    refine .inl (h.complete (fun he => Key.final_not_tmp hk (he ▸ hn)) ?_)
    exact ⟨i, _, hi, hd, bundleOf_names _ _, g, bundleOf_holds hr.2 hg⟩
  | putBack _ n mv hn hm h2 h3 h =>
    refine .inl (h.complete (fun he => Key.final_not_previous hk (he ▸ hn)) ?_)
    rcases hkept with h1 | ⟨-, mv', es, h4, -, -, h5, -, h6, h7⟩
    · exact (h.not_complete h1).elim
    · rw [hm] at h4
      cases h4
      subst h3
      exact ⟨_, es, h5, h6, h7⟩

theorem Kept.recoverable {fs : FS W.G} (h : Kept W fs) : Recoverable W fs := by
  rcases h with h | ⟨h, mv, es, -, -, h1, h2, -, h3, h4⟩
  · exact .inl h
  · obtain ⟨u, hu⟩ := (isPrevious_iff _ _).1 h1
    exact .inr ⟨h, u, mv.ino, es, hu ▸ h2, h3, h4⟩

end Verif.Cache
