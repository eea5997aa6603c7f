import Verif.Cache.Once

/-
Names that are not of the key, and which operations a program performs.
-/

namespace Verif.Cache

/-- The names of a key. -/
def Key.Owns (k : Key) (n : Name) : Prop :=
  n = k.digest ∨ k.IsTmp n ∨ k.IsPrevious n ∨ k.IsCorrupt n

/-- The name `n` stands for the same node with the same content. -/
def Untouched {G : Type} (n : Name) (fs fs' : FS G) : Prop :=
  fs'.entry n = fs.entry n ∧ ∀ i, fs.entry n = some i → fs'.node i = fs.node i

theorem Untouched.refl {G : Type} (n : Name) (fs : FS G) : Untouched n fs fs :=
  ⟨rfl, fun _ _ => rfl⟩

theorem Untouched.trans {G : Type} {n : Name} {a b c : FS G} (h : Untouched n a b)
    (h' : Untouched n b c) : Untouched n a c :=
  ⟨h'.1.trans h.1, fun i hi => (h'.2 i (h.1.trans hi)).trans (h.2 i hi)⟩

variable {W : World} {F : Faults}

theorem Cut.untouched {G : Type} {m n : Name} {fs fs' : FS G} (hw : Wf fs) (h : Cut m fs fs')
    (hne : n ≠ m) : Untouched n fs fs' := by
  refine ⟨h.other n hne, ?_⟩
  intro i hi
  rcases h.node i with h1 | ⟨h1, -⟩
  · exact h1
  · exact (hne (hw.inj _ _ _ hi h1)).elim

theorem Moved.untouched {G : Type} {a b n : Name} {fs fs' : FS G} (h : Moved a b fs fs')
    (ha : n ≠ a) (hb : n ≠ b) : Untouched n fs fs' := by
  obtain ⟨i, -, rfl, -⟩ := h
  exact ⟨by simp [move_entry, ha, hb], fun _ _ => rfl⟩

/-- No transition of a key touches a name the key does not own. -/
theorem Trans.untouched {fs fs' : FS W.G} (hw : Wf fs) (h : Trans W F fs fs') {n : Name}
    (hn : ¬ W.key.Owns n) : Untouched n fs fs' := by
  have hd : n ≠ W.key.digest := fun h => hn (.inl h)
  have ht : ∀ {m}, W.key.IsTmp m → n ≠ m := fun h he => hn (.inr (.inl (he ▸ h)))
  have hp : ∀ {m}, W.key.IsPrevious m → n ≠ m := fun h he => hn (.inr (.inr (.inl (he ▸ h))))
  have hc : ∀ {m}, W.key.IsCorrupt m → n ≠ m := fun h he => hn (.inr (.inr (.inr (he ▸ h))))
  cases h with
  | stay => exact .refl _ _
  | recover _ m h1 _ h2 => exact h2.untouched (hp h1) hd
  | clean _ m h1 _ h2 =>
    refine h2.untouched hw ?_
    rcases (Key.residual_iff _ _).1 h1 with h | h | h
    · exact ht h
    · exact hp h
    · exact hc h
  | cutTmp _ m h1 h2 => exact h2.untouched hw (ht h1)
  | cutCorrupt _ m h1 h2 => exact h2.untouched hw (hc h1)
  | quarantine _ m h1 _ h2 => exact h2.untouched hd (hc h1)
  | build p => exact ⟨rfl, fun _ _ => rfl⟩
  | mkdtemp m h1 _ =>
    refine ⟨by simp [FS.mkdir, ht h1], ?_⟩
    intro i hi
    have := hw.lt _ _ hi
    have hne : i ≠ fs.next := by omega
    simp [FS.mkdir, hne]
  | write m e b h1 =>
    refine ⟨write_entry _ _ _ _ _, ?_⟩
    intro i hi
    exact write_node _ _ _ _ _ fun h2 => ht h1 (hw.inj _ _ _ hi h2)
  | moveAway _ m h1 _ _ h2 => exact h2.untouched hd (hp h1)
  | putNew _ m _ _ h1 _ _ _ _ h2 => exact h2.untouched (ht h1) hd
  | putBack _ m _ h1 _ _ _ h2 => exact h2.untouched (hp h1) hd

/-- Keys with digests of the same length without dots own different names. -/
theorem Key.owns_disjoint {k k' : Key} (hlen : k.digest.length = k'.digest.length)
    (hk : k.Valid) (hk' : k'.Valid) (hne : k.digest ≠ k'.digest) {n : Name} (h : k.Owns n) :
    ¬ k'.Owns n := by
  have dot : ∀ {q : Key}, n ≠ q.digest → q.Owns n → ∃ r, '.' :: q.digest ++ r <+: n := by
    rintro q hq (h | h | h | h)
    · exact (hq h).elim
    · exact ⟨_, h⟩
    · exact ⟨_, h⟩
    · exact ⟨_, h⟩
  intro h'
  by_cases h1 : n = k.digest
  · by_cases h2 : n = k'.digest
    · exact hne (h1.symm.trans h2)
    · obtain ⟨r, hr⟩ := dot h2 h'
      exact hk (h1 ▸ head_of_prefix hr)
  · obtain ⟨r, s, hr⟩ := dot h1 h
    by_cases h2 : n = k'.digest
    · exact hk' (h2 ▸ head_of_prefix ⟨s, hr⟩)
    · obtain ⟨r', s', hr'⟩ := dot h2 h'
      rw [← hr] at hr'
      simp only [List.cons_append, List.append_assoc, List.cons.injEq, true_and] at hr'
      exact hne (List.append_inj hr'.symm hlen).1

section
variable {G α β : Type} {P : Op → Prop}

/-- Every operation of the program satisfies `P`. -/
def Only (P : Op → Prop) : Prog G α → Prop
  | .ret _ => True
  | .raise _ => True
  | .op o k => P o ∧ ∀ r, Only P (k r)

theorem Only.bind {p : Prog G α} {f : α → Prog G β} (hp : Only P p) (hf : ∀ a, Only P (f a)) :
    Only P (p.bind f) := by
  induction p with
  | ret a => exact hf a
  | raise e => trivial
  | op o k ih => exact ⟨hp.1, fun r => ih r (hp.2 r)⟩

theorem Only.tryExcept {p : Prog G α} {f : Err → Prog G α} (hp : Only P p)
    (hf : ∀ e, Only P (f e)) : Only P (p.tryExcept f) := by
  induction p with
  | ret a => trivial
  | raise e => exact hf e
  | op o k ih => exact ⟨hp.1, fun r => ih r (hp.2 r)⟩

theorem Only.call {o : Op} (h : P o) : Only P (Prog.call o : Prog G (Res G o)) := by
  refine ⟨h, ?_⟩
  intro r
  cases r <;> trivial

theorem Only.ofExcept {x : Except Err α} : Only P (Prog.ofExcept x : Prog G α) := by
  cases x <;> trivial

theorem Only.ret {a : α} : Only P (.ret a : Prog G α) := trivial
theorem Only.raise {e : Err} : Only P (.raise e : Prog G α) := trivial

theorem Only.trace {key : Key} {F : Faults} {p : Prog G α} (hp : Only P p) {fs fs' : FS G}
    {tr : List (Σ o : Op, Except Err (Res G o))} {x : Except Err α}
    (h : Run key F p fs tr x fs') : ∀ e ∈ tr, P e.1 := by
  induction h with
  | ret => simp
  | raise => simp
  | op h1 _ ih =>
    intro e he
    rcases List.mem_cons.1 he with rfl | he
    · exact hp.1
    · exact ih (hp.2 _) e he

/-- A run of two programs one after the other. -/
theorem Run.of_bind {key : Key} {F : Faults} {p : Prog G α} {f : α → Prog G β} {fs fs' : FS G}
    {tr : List (Σ o : Op, Except Err (Res G o))} {x : Except Err β}
    (h : Run key F (p.bind f) fs tr x fs') :
    (∃ tr1 tr2 a fs1, Run key F p fs tr1 (.ok a) fs1 ∧ Run key F (f a) fs1 tr2 x fs' ∧
      tr = tr1 ++ tr2) ∨ ∃ e, Run key F p fs tr (.error e) fs' ∧ x = .error e := by
  induction p generalizing fs tr with
  | ret a => exact .inl ⟨[], tr, a, fs, .ret _ _, h, rfl⟩
  | raise e =>
    cases h
    exact .inr ⟨e, .raise _ _, rfl⟩
  | op o k ih =>
    cases h with
    | op h1 h2 =>
      rcases ih _ h2 with ⟨tr1, tr2, a, fs1, h3, h4, rfl⟩ | ⟨e, h3, h4⟩
      · exact .inl ⟨_, tr2, a, fs1, .op h1 h3, h4, rfl⟩
      · exact .inr ⟨e, .op h1 h3, h4⟩

theorem Run.of_call {key : Key} {F : Faults} {o : Op} {fs fs' : FS G}
    {tr : List (Σ o : Op, Except Err (Res G o))} {x : Except Err (Res G o)}
    (h : Run key F (Prog.call o) fs tr x fs') : tr = [⟨o, x⟩] ∧ Sem key F o fs x fs' := by
  cases h with
  | @op _ _ _ _ _ r _ _ h1 h2 =>
    cases r with
    | ok v => cases h2; exact ⟨rfl, h1⟩
    | error e => cases h2; exact ⟨rfl, h1⟩

/-- A run of `try: p finally: f`. -/
theorem Run.of_tryFinally {key : Key} {F : Faults} {p : Prog G α} {f : Prog G Unit} {fs fs' : FS G}
    {tr : List (Σ o : Op, Except Err (Res G o))} {x : Except Err α}
    (h : Run key F (p.tryFinally f) fs tr x fs') :
    ∃ tr1 tr2 y fs1 z, Run key F p fs tr1 y fs1 ∧ Run key F f fs1 tr2 z fs' ∧
      tr = tr1 ++ tr2 ∧ (x = y ∨ ∃ e, x = .error e) := by
  induction p generalizing fs tr with
  | ret a =>
    rcases Run.of_bind h with ⟨tr1, tr2, u, fs1, h1, h2, rfl⟩ | ⟨e, h1, rfl⟩
    · cases h2
      exact ⟨[], tr1, _, _, _, .ret _ _, h1, by simp, .inl rfl⟩
    · exact ⟨[], tr, _, _, _, .ret _ _, h1, rfl, .inr ⟨e, rfl⟩⟩
  | raise e =>
    rcases Run.of_bind h with ⟨tr1, tr2, u, fs1, h1, h2, rfl⟩ | ⟨e, h1, rfl⟩
    · cases h2
      exact ⟨[], tr1, _, _, _, .raise _ _, h1, by simp, .inl rfl⟩
    · exact ⟨[], tr, _, _, _, .raise _ _, h1, rfl, .inr ⟨e, rfl⟩⟩
  | op o k ih =>
    cases h with
    | op h1 h2 =>
      obtain ⟨tr1, tr2, y, fs1, z, h3, h4, rfl, h5⟩ := ih _ h2
      exact ⟨_, tr2, y, fs1, z, .op h1 h3, h4, rfl, h5⟩

end

/-- Operations that put something into the cache or belong to building. -/
def Op.makes : Op → Bool
  | .mkdtemp | .write _ _ _ | .build | .fingerprint => true
  | _ => false

/-- Operations other than these. -/
abbrev Quietly (o : Op) : Prop := o.makes = false

theorem loadPath_quiet (n : Name) : Only Quietly (loadPath W n) := by
  have rr : ∀ fd e x m, Only Quietly (readRegularAt W fd e x m) := by
    intro fd e x m
    refine .bind (.tryExcept (.call rfl) ?_) fun _ => .ofExcept
    intro e
    split <;> trivial
  have lg : ∀ fd files e, Only Quietly (loadGraph W fd files e) := by
    intro fd files e
    unfold loadGraph
    split
    · trivial
    · refine .tryExcept (.bind (rr _ _ _ _) fun _ => .ret) ?_
      intro e
      split <;> trivial
  refine .tryExcept (.bind (.tryExcept (.call rfl) ?_) ?_) ?_
  · intro e
    split <;> trivial
  · intro fd
    refine .bind (.call rfl) ?_
    intro l
    split
    · trivial
    · refine .bind (.tryExcept (.bind (rr _ _ _ _) fun _ => .ret) ?_) ?_
      · intro e
        split <;> trivial
      · intro m
        split
        · trivial
        · refine .bind (lg _ _ _) ?_
          intro t
          split
          · trivial
          · exact .bind (lg _ _ _) fun _ => .ret
  · intro e
    split <;> trivial

theorem lexists_quiet (n : Name) : Only Quietly (lexists W n) := by
  refine .tryExcept (.bind (.call rfl) fun _ => .ret) ?_
  intro e
  split <;> trivial

theorem removeFlat_quiet (n : Name) (be : Bool) : Only Quietly (removeFlat W n be) := by
  have ce : ∀ l, Only Quietly (checkEntries W n l) := by
    intro l
    induction l with
    | nil => trivial
    | cons e l ih =>
      refine .bind (.call rfl) ?_
      intro k
      split
      · exact ih
      · split
        · exact ih
        · trivial
      · trivial
  have ua : ∀ fd l, Only Quietly (unlinkAll W fd l) := by
    intro fd l
    induction l with
    | nil => trivial
    | cons e l ih =>
      refine .bind (.tryExcept (.call rfl) ?_) fun _ => ih
      intro e
      split <;> trivial
  refine .tryExcept (.bind (.tryExcept (.bind (.call rfl) fun _ => .ret) ?_) ?_) ?_
  · intro e
    split <;> trivial
  · intro st
    split
    · trivial
    · split
      · split <;> trivial
      · refine .bind (.call rfl) fun l => .bind (ce l) ?_
        intro fine
        split
        · trivial
        · refine .bind (.call rfl) ?_
          intro fd
          split
          · trivial
          · exact .bind (ua _ _) fun _ => .bind (.call rfl) fun _ => .ret
  · intro e
    split
    · split <;> trivial
    · trivial

theorem replace_quiet (a b : Name) : Only Quietly (replaceWithRetry W a b) := by
  refine .tryExcept (.call rfl) ?_
  intro e
  split <;> trivial

theorem recoverResiduals_quiet : Only Quietly (recoverResiduals W) := by
  have rd : ∀ l, Only Quietly (residualDirs W l) := by
    intro l
    induction l with
    | nil => trivial
    | cons n l ih =>
      unfold residualDirs
      split
      · exact .bind (.call rfl) fun _ => .bind ih fun _ => .ret
      · exact ih
  have wm : ∀ l, Only Quietly (withMtimes W l) := by
    intro l
    induction l with
    | nil => trivial
    | cons n l ih => exact .bind (.call rfl) fun _ => .bind ih fun _ => .ret
  have rf : ∀ l, Only Quietly (recoverFirst W l) := by
    intro l
    induction l with
    | nil => trivial
    | cons n l ih =>
      refine .bind (loadPath_quiet _) ?_
      intro g
      split
      · exact .bind (replace_quiet _ _) fun _ => .ret
      · exact ih
  have ra : ∀ l, Only Quietly (removeAll W l) := by
    intro l
    induction l with
    | nil => trivial
    | cons n l ih => exact .bind (removeFlat_quiet _ _) fun _ => ih
  refine .bind (.call rfl) fun _ => .bind (rd _) fun _ => .bind (lexists_quiet _) ?_
  intro present
  refine .bind ?_ fun _ => ra _
  split
  · trivial
  · exact .bind (wm _) fun _ => rf _

theorem removeInvalid_quiet : Only Quietly (removeInvalid W) := by
  refine .bind (.tryExcept (.bind (.bind (.call rfl) ?_) fun _ => .ret) ?_) ?_
  · intro st
    split <;> trivial
  · intro e
    split <;> trivial
  · intro present
    split
    · trivial
    · exact .bind (.call rfl) fun _ => .bind (replace_quiet _ _) fun _ =>
        .bind (removeFlat_quiet _ _) fun _ => .ret

end Verif.Cache
