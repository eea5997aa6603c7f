import Verif.Cache.Machine

/-
An interpreter for programs without failures, used to show concrete executions next to the theorems,
and how the run of one process becomes an execution of the whole system.
-/

namespace Verif.Cache

variable {G α β : Type}

/-- What comes up by chance: the names that occur in the execution, the next `uuid`, the graphs a
build yields, and what fails. -/
structure Chance (G : Type) where
  names : List Name
  uuid : Name
  pair : G × G
  /-- The operations that fail. -/
  fails : Op → Option Err := fun _ => none
  /-- The fingerprint of changed sources. -/
  changed : Option Str := none

/-- The normal outcome, `none` when a name comes up that `names` does not have. -/
def normal (key : Key) (c : Chance G) (o : Op) (fs : FS G) :
    Option (Except Err (Res G o) × FS G) :=
  match o with
  | .openDir n => some (fs.openDir n, fs)
  | .listFd fd => some (.ok ((fs.ents fd).map Prod.fst), fs)
  | .readFd fd e => some (FS.readEnt (fs.ents fd) e, fs)
  | .lstat n => some (fs.lstat n, fs)
  | .mtime n => some (match fs.entry n with | none => .error .notFound | some _ => .ok 0, fs)
  | .iterdir => some (.ok (c.names.filter fun n => (fs.entry n).isSome), fs)
  | .scandir n => some ((fs.inDir n).map (·.map Prod.fst), fs)
  | .lstatIn n e => some (fs.lstatIn n e, fs)
  | .unlinkFd fd e => some (fs.unlinkFd fd e)
  | .rmdir n => some (fs.rmdir n)
  | .rename a b => if b ∈ c.names then some (fs.rename a b) else none
  | .mkdtemp =>
    if (fs.entry (key.tmp ++ c.uuid)).isNone ∧ key.tmp ++ c.uuid ∈ c.names then
      some (.ok (key.tmp ++ c.uuid), fs.mkdir (key.tmp ++ c.uuid))
    else none
  | .write n e b => some (fs.write n e b)
  | .readPath n e => some ((fs.inDir n).bind (FS.readEnt · e), fs)
  | .uuid => some (.ok c.uuid, fs)
  | .openAnchor => some (.ok (), fs)
  | .acquire => some (.ok (), fs)
  | .writeOwner => some (.ok (), fs)
  | .release => some (.ok (), fs)
  | .build => some (.ok c.pair, { fs with built := c.pair :: fs.built })
  | .fingerprint => some (.ok key.fingerprint, fs)

/-- The outcome of an operation. -/
def outcome (key : Key) (c : Chance G) (o : Op) (fs : FS G) :
    Option (Except Err (Res G o) × FS G) :=
  match c.fails o with
  | some e => some (.error e, fs)
  | none => match o, c.changed with
    | .fingerprint, some s => some (.ok s, fs)
    | o, _ => normal key c o fs

/-- The failures that come up may happen. -/
structure Allowed (c : Chance G) (F : Faults) : Prop where
  fails : ∀ o e, c.fails o = some e → F.fail o ∧ o ≠ .release
  changed : c.changed ≠ none → F.fail .fingerprint

/-- The outcome of a program: its trace, its result and the last state. -/
def exec (key : Key) (c : Chance G) : Prog G α → FS G →
    Option (List (Σ o : Op, Except Err (Res G o)) × Except Err α × FS G)
  | .ret a, fs => some ([], .ok a, fs)
  | .raise e, fs => some ([], .error e, fs)
  | .op o k, fs => do
    let (r, fs1) ← outcome key c o fs
    let (tr, x, fs') ← exec key c (k r) fs1
    some (⟨o, r⟩ :: tr, x, fs')

/-- All taken names are known. -/
def Known (c : Chance G) (fs : FS G) : Prop := ∀ n, fs.entry n ≠ none → n ∈ c.names

theorem normal_norm {key : Key} {c : Chance G} (hc : c.names.Nodup) {o : Op} {fs fs' : FS G}
    {r : Except Err (Res G o)} (hk : Known c fs) (h : normal key c o fs = some (r, fs')) :
    Norm key o fs r fs' ∧ Known c fs' := by
  have same : ∀ {o : Op} {r r' : Except Err (Res G o)}, some (r', fs) = some (r, fs') →
      r = r' ∧ fs' = fs := by
    intro o r r' h
    injection h with h
    injection h with h1 h2
    exact ⟨h1.symm, h2.symm⟩
  cases o with
  | iterdir =>
    obtain ⟨rfl, rfl⟩ := same h
    refine ⟨⟨rfl, _, rfl, hc.filter _, ?_⟩, hk⟩
    intro n _
    simp only [List.mem_filter, Option.isSome_iff_ne_none]
    exact ⟨fun h => h.2, fun h => ⟨hk n h, h⟩⟩
  | mtime n =>
    obtain ⟨rfl, rfl⟩ := same h
    refine ⟨⟨rfl, ?_⟩, hk⟩
    cases h : fs'.entry n with
    | none => rfl
    | some i => exact ⟨0, rfl⟩
  | mkdtemp =>
    simp only [normal] at h
    split at h
    · rename_i h1
      injection h with h
      injection h with h2 h3
      subst h2
      subst h3
      refine ⟨⟨c.uuid, by simpa using h1.1, rfl, rfl⟩, ?_⟩
      intro n hn
      simp only [FS.mkdir] at hn
      split at hn
      · rename_i h4
        rw [h4]
        exact h1.2
      · exact hk n hn
    · cases h
  | uuid =>
    obtain ⟨rfl, rfl⟩ := same h
    exact ⟨⟨rfl, _, rfl⟩, hk⟩
  | build =>
    simp only [normal, Option.some.injEq, Prod.mk.injEq] at h
    obtain ⟨rfl, rfl⟩ := h
    exact ⟨⟨c.pair, rfl, rfl⟩, hk⟩
  | rename a b =>
    simp only [normal] at h
    split at h
    · rename_i hb
      injection h with h
      refine ⟨⟨by rw [h], by rw [h]⟩, ?_⟩
      have h2 : fs' = (fs.rename a b).2 := by rw [h]
      subst h2
      unfold FS.rename
      have mv : ∀ i, Known c (fs.move a b i) := by
        intro i n hn
        simp only [FS.move] at hn
        split at hn
        · exact (hn rfl).elim
        · split at hn
          · rename_i h4
            rw [h4]
            exact hb
          · exact hk n hn
      split
      · exact hk
      · split
        · exact mv _
        · split
          · exact mv _
          · exact hk
    · cases h
  | unlinkFd fd e =>
    simp only [normal, Option.some.injEq] at h
    refine ⟨⟨by rw [h], by rw [h]⟩, ?_⟩
    have h2 : fs' = (fs.unlinkFd fd e).2 := by rw [h]
    subst h2
    unfold FS.unlinkFd
    split <;> exact hk
  | rmdir n =>
    simp only [normal, Option.some.injEq] at h
    refine ⟨⟨by rw [h], by rw [h]⟩, ?_⟩
    have h2 : fs' = (fs.rmdir n).2 := by rw [h]
    subst h2
    unfold FS.rmdir
    split
    · exact hk
    · split
      · intro m hm
        simp only [FS.setEntry] at hm
        split at hm
        · exact (hm rfl).elim
        · exact hk m hm
      · exact hk
      · exact hk
  | write n e b =>
    simp only [normal, Option.some.injEq] at h
    refine ⟨⟨by rw [h], by rw [h]⟩, ?_⟩
    have h2 : fs' = (fs.write n e b).2 := by rw [h]
    subst h2
    unfold FS.write
    split
    · exact hk
    · split <;> exact hk
  | openDir n => cases h; exact ⟨⟨rfl, rfl⟩, hk⟩
  | listFd n => cases h; exact ⟨⟨rfl, rfl⟩, hk⟩
  | readFd n e => cases h; exact ⟨⟨rfl, rfl⟩, hk⟩
  | lstat n => cases h; exact ⟨⟨rfl, rfl⟩, hk⟩
  | scandir n => cases h; exact ⟨⟨rfl, rfl⟩, hk⟩
  | lstatIn n e => cases h; exact ⟨⟨rfl, rfl⟩, hk⟩
  | readPath n e => cases h; exact ⟨⟨rfl, rfl⟩, hk⟩
  | openAnchor => cases h; exact ⟨⟨rfl, rfl⟩, hk⟩
  | acquire => cases h; exact ⟨⟨rfl, rfl⟩, hk⟩
  | writeOwner => cases h; exact ⟨⟨rfl, rfl⟩, hk⟩
  | release => cases h; exact ⟨⟨rfl, rfl⟩, hk⟩
  | fingerprint => cases h; exact ⟨⟨rfl, rfl⟩, hk⟩

theorem outcome_sem {key : Key} {F : Faults} {c : Chance G} (hc : c.names.Nodup)
    (ha : Allowed c F) {o : Op} {fs fs' : FS G} {r : Except Err (Res G o)} (hk : Known c fs)
    (h : outcome key c o fs = some (r, fs')) : Sem key F o fs r fs' ∧ Known c fs' := by
  unfold outcome at h
  split at h
  · rename_i e he
    cases h
    obtain ⟨h1, h2⟩ := ha.fails o e he
    refine ⟨.inr (.inl ⟨h1, ?_⟩), hk⟩
    cases o with
    | release => exact (h2 rfl).elim
    | write n e b => exact ⟨⟨_, rfl⟩, .inl rfl⟩
    | fingerprint => exact ⟨rfl, .inl ⟨_, rfl⟩⟩
    | _ => exact ⟨rfl, _, rfl⟩
  · cases o with
    | fingerprint =>
      cases hs : c.changed with
      | none =>
        simp only [hs] at h
        obtain ⟨h1, h2⟩ := normal_norm hc hk h
        exact ⟨.inl h1, h2⟩
      | some s =>
        simp only [hs] at h
        cases h
        exact ⟨.inr (.inl ⟨ha.changed (by rw [hs]; simp), rfl, .inr ⟨s, rfl⟩⟩), hk⟩
    | _ =>
      obtain ⟨h1, h2⟩ := normal_norm hc hk h
      exact ⟨.inl h1, h2⟩

theorem exec_run {key : Key} {F : Faults} {c : Chance G} (hc : c.names.Nodup)
    (ha : Allowed c F) {p : Prog G α} {fs fs' : FS G} {tr : List (Σ o : Op, Except Err (Res G o))} {x : Except Err α}
    (hk : Known c fs) (h : exec key c p fs = some (tr, x, fs')) : Run key F p fs tr x fs' := by
  induction p generalizing fs tr with
  | ret a =>
    simp only [exec, Option.some.injEq, Prod.mk.injEq] at h
    obtain ⟨rfl, rfl, rfl⟩ := h
    exact .ret _ _
  | raise e =>
    simp only [exec, Option.some.injEq, Prod.mk.injEq] at h
    obtain ⟨rfl, rfl, rfl⟩ := h
    exact .raise _ _
  | op o k ih =>
    simp only [exec] at h
    cases h1 : outcome key c o fs with
    | none => rw [h1] at h; cases h
    | some y =>
      obtain ⟨r, fs1⟩ := y
      rw [h1] at h
      cases h2 : exec key c (k r) fs1 with
      | none => simp only [h2, Option.bind_eq_bind, Option.bind_some, Option.bind_none] at h; cases h
      | some z =>
        obtain ⟨tr1, x1, fs2⟩ := z
        simp only [h2, Option.bind_eq_bind, Option.bind_some, Option.some.injEq,
          Prod.mk.injEq] at h
        obtain ⟨rfl, rfl, rfl⟩ := h
        obtain ⟨h3, h4⟩ := outcome_sem hc ha hk h1
        exact .op h3 (ih r h4 h2)

/-- The lock is acquired only when it is not held. -/
def lockOk : Bool → List (Σ o : Op, Except Err (Res G o)) → Bool
  | _, [] => true
  | h, ⟨o, r⟩ :: tr => (!acquired o r || !h) && lockOk (heldAfter h o r) tr

/-- The lock after a trace. -/
def heldEnd : Bool → List (Σ o : Op, Except Err (Res G o)) → Bool
  | h, [] => h
  | h, ⟨o, r⟩ :: tr => heldEnd (heldAfter h o r) tr

/-- The program that has the outcome `x`. -/
def finished : Except Err α → Prog G α
  | .ok a => .ret a
  | .error e => .raise e

/-- A process running alone. -/
theorem Reach.run {key : Key} {F : Faults} {crashes : Bool} {s₀ s : Sys G α} {i : Nat}
    {p : Prog G α} {fs fs' : FS G} {tr : List (Σ o : Op, Except Err (Res G o))} {x : Except Err α}
    (hr : Run key F p fs tr x fs') (hs : Reach key F crashes s₀ s) (hfs : s.fs = fs)
    (hp : s.proc i = .run p) (ho : ∀ j, j ≠ i → s.held j = false)
    (hl : lockOk (s.held i) tr = true) :
    ∃ s', Reach key F crashes s₀ s' ∧ s'.fs = fs' ∧ s'.proc i = .run (finished x) ∧
      s'.held i = heldEnd (s.held i) tr ∧
      ∀ j, j ≠ i → s'.held j = false ∧ s'.proc j = s.proc j := by
  induction hr generalizing s with
  | ret a fs => exact ⟨s, hs, hfs, hp, rfl, fun j hj => ⟨ho j hj, rfl⟩⟩
  | raise e fs => exact ⟨s, hs, hfs, hp, rfl, fun j hj => ⟨ho j hj, rfl⟩⟩
  | @op o k fs fs1 fs' r tr x h1 _ ih =>
    subst hfs
    simp only [lockOk, Bool.and_eq_true, Bool.or_eq_true, Bool.not_eq_true'] at hl
    have hst := Step.op (crashes := crashes) s i o k r fs1 hp h1 (by
      intro ha j
      by_cases hj : j = i
      · subst hj
        rcases hl.1 with h | h
        · rw [ha] at h; cases h
        · exact h
      · exact ho j hj)
    obtain ⟨s', h2, h3, h4, h5, h6⟩ := ih (.step hs hst) rfl (by simp)
      (by intro j hj; simp [hj, ho j hj]) (by simpa using hl.2)
    refine ⟨s', h2, h3, h4, by simpa [heldEnd] using h5, ?_⟩
    intro j hj
    exact ⟨(h6 j hj).1, by simpa [hj] using (h6 j hj).2⟩

/-- The first `n` operations of a program. -/
def execN (key : Key) (c : Chance G) : Nat → Prog G α → FS G →
    Option (List (Σ o : Op, Except Err (Res G o)) × Prog G α × FS G)
  | 0, p, fs => some ([], p, fs)
  | n + 1, .op o k, fs => do
    let (r, fs1) ← outcome key c o fs
    let (tr, q, fs') ← execN key c n (k r) fs1
    some (⟨o, r⟩ :: tr, q, fs')
  | _ + 1, _, _ => none

theorem Reach.trans {key : Key} {F : Faults} {crashes : Bool} {a b c : Sys G α}
    (h : Reach key F crashes a b) (h' : Reach key F crashes b c) : Reach key F crashes a c := by
  induction h' with
  | start => exact h
  | step _ h1 ih => exact .step ih h1

/-- A process performing some operations alone. -/
theorem Reach.execN {key : Key} {F : Faults} {crashes : Bool} {c : Chance G} (hc : c.names.Nodup)
    (ha : Allowed c F) {n : Nat} {s : Sys G α} {i : Nat} {p q : Prog G α} {fs' : FS G}
    {tr : List (Σ o : Op, Except Err (Res G o))}
    (hr : execN key c n p s.fs = some (tr, q, fs')) (hk : Known c s.fs)
    (hp : s.proc i = .run p) (ho : ∀ j, j ≠ i → s.held j = false)
    (hl : lockOk (s.held i) tr = true) :
    ∃ s', Reach key F crashes s s' ∧ s'.fs = fs' ∧ Known c fs' ∧ s'.proc i = .run q ∧
      s'.held i = heldEnd (s.held i) tr ∧
      ∀ j, j ≠ i → s'.held j = false ∧ s'.proc j = s.proc j := by
  induction n generalizing s p tr with
  | zero =>
    simp only [Verif.Cache.execN, Option.some.injEq, Prod.mk.injEq] at hr
    obtain ⟨rfl, rfl, rfl⟩ := hr
    exact ⟨s, .start, rfl, hk, hp, rfl, fun j hj => ⟨ho j hj, rfl⟩⟩
  | succ n ih =>
    cases p with
    | ret a => simp [Verif.Cache.execN] at hr
    | raise e => simp [Verif.Cache.execN] at hr
    | op o k =>
      simp only [Verif.Cache.execN] at hr
      cases h1 : outcome key c o s.fs with
      | none => rw [h1] at hr; cases hr
      | some y =>
        obtain ⟨r, fs1⟩ := y
        rw [h1] at hr
        cases h2 : Verif.Cache.execN key c n (k r) fs1 with
        | none =>
          simp only [h2, Option.bind_eq_bind, Option.bind_some, Option.bind_none] at hr
          cases hr
        | some z =>
          obtain ⟨tr1, q1, fs2⟩ := z
          simp only [h2, Option.bind_eq_bind, Option.bind_some, Option.some.injEq,
            Prod.mk.injEq] at hr
          obtain ⟨rfl, rfl, rfl⟩ := hr
          obtain ⟨h3, h4⟩ := outcome_sem hc ha hk h1
          simp only [lockOk, Bool.and_eq_true, Bool.or_eq_true, Bool.not_eq_true'] at hl
          have hst := Step.op (crashes := crashes) (F := F) s i o k r fs1 hp h3 (by
            intro hac j
            by_cases hj : j = i
            · subst hj
              rcases hl.1 with h | h
              · rw [hac] at h; cases h
              · exact h
            · exact ho j hj)
          obtain ⟨s', h5, h6, hk', h7, h8, h9⟩ := ih (s := {
            fs := fs1
            held := fun j => if j = i then heldAfter (s.held i) o r else s.held j
            proc := fun j => if j = i then .run (k r) else s.proc j }) h2 h4 (by simp)
            (by intro j hj; simp [hj, ho j hj]) (by simpa using hl.2)
          refine ⟨s', .trans (.step .start hst) h5, h6, hk', h7, by simpa [heldEnd] using h8, ?_⟩
          intro j hj
          exact ⟨(h9 j hj).1, by simpa [hj] using (h9 j hj).2⟩

end Verif.Cache
