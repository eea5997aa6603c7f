import Verif.Cache.Total
import Verif.Cache.Exec

/-
What a program has done so far, whatever its operations answered, and that the history in the state
does not matter.
-/

namespace Verif.Cache

variable {G : Type} {α β : Type}

/-- The operations a process has performed with their outcomes. -/
abbrev Hist (G : Type) := List (Σ o : Op, Except Err (Res G o))

/-- Performing the operations `tr`, with these outcomes, leads from one program to another. -/
inductive Steps : Prog G α → Hist G → Prog G α → Prop
  | refl (p : Prog G α) : Steps p [] p
  | op {o : Op} {k : Except Err (Res G o) → Prog G α} {r : Except Err (Res G o)} {tr : Hist G}
      {q : Prog G α} : Steps (k r) tr q → Steps (.op o k) (⟨o, r⟩ :: tr) q

theorem Steps.snoc {p : Prog G α} {tr : Hist G} {o : Op} {k : Except Err (Res G o) → Prog G α}
    (h : Steps p tr (.op o k)) (r : Except Err (Res G o)) : Steps p (tr ++ [⟨o, r⟩]) (k r) := by
  generalize hq : Prog.op o k = q at h
  induction h with
  | refl p => subst hq; exact .op (.refl _)
  | op _ ih => exact .op (ih hq)

/-- Whatever happens in the system, a process is where its own operations have led it. -/
theorem Reach.steps {key : Key} {F : Faults} {crashes : Bool} {fs : FS G}
    {progs : Nat → Prog G α} {s : Sys G α} (h : Reach key F crashes (Sys.start fs progs) s)
    {i : Nat} {q : Prog G α} (hq : s.proc i = .run q) : ∃ tr, Steps (progs i) tr q := by
  induction h generalizing q with
  | start =>
    simp only [Sys.start, Proc.run.injEq] at hq
    exact ⟨[], hq ▸ .refl _⟩
  | step _ hs ih =>
    cases hs with
    | op s j o k r fs' hp _ _ =>
      simp only at hq
      split at hq
      · rename_i hij
        subst hij
        cases hq
        obtain ⟨tr, htr⟩ := ih hp
        exact ⟨_, htr.snoc r⟩
      · exact ih hq
    | crash s j _ =>
      simp only at hq
      split at hq
      · cases hq
      · exact ih hq

theorem Run.steps {key : Key} {F : Faults} {p : Prog G α} {fs fs' : FS G} {tr : Hist G}
    {x : Except Err α} (h : Run key F p fs tr x fs') : Steps p tr (finished x) := by
  induction h with
  | ret a => exact .refl _
  | raise e => exact .refl _
  | op _ _ ih => exact .op ih

theorem Steps.of_bind {p : Prog G α} {f : α → Prog G β} {tr : Hist G} {q : Prog G β}
    (h : Steps (p.bind f) tr q) :
    (∃ p', Steps p tr p' ∧ q = p'.bind f) ∨
      ∃ tr1 tr2 a, Steps p tr1 (.ret a) ∧ Steps (f a) tr2 q ∧ tr = tr1 ++ tr2 := by
  induction p generalizing tr with
  | ret a => exact .inr ⟨[], tr, a, .refl _, h, rfl⟩
  | raise e =>
    cases h
    exact .inl ⟨_, .refl _, rfl⟩
  | op o k ih =>
    cases h with
    | refl => exact .inl ⟨_, .refl _, rfl⟩
    | op h =>
      rcases ih _ h with ⟨p', h1, h2⟩ | ⟨tr1, tr2, a, h1, h2, rfl⟩
      · exact .inl ⟨p', .op h1, h2⟩
      · exact .inr ⟨_, tr2, a, .op h1, h2, rfl⟩

theorem Steps.of_call {o : Op} {tr : Hist G} {q : Prog G (Res G o)}
    (h : Steps (Prog.call o) tr q) : tr = [] ∨ ∃ r, tr = [⟨o, r⟩] ∧ q = finished r := by
  cases h with
  | refl => exact .inl rfl
  | @op _ _ r _ _ h =>
    cases r with
    | ok v => cases h; exact .inr ⟨_, rfl, rfl⟩
    | error e => cases h; exact .inr ⟨_, rfl, rfl⟩

theorem Steps.of_tryFinally {p : Prog G α} {f : Prog G Unit} {tr : Hist G} {q : Prog G α}
    (h : Steps (p.tryFinally f) tr q) :
    (∃ p', Steps p tr p' ∧ q = p'.tryFinally f) ∨
      ∃ tr1 tr2 x f', Steps p tr1 (finished x) ∧ Steps f tr2 f' ∧ tr = tr1 ++ tr2 ∧
        q = f'.bind fun _ => finished x := by
  induction p generalizing tr with
  | ret a =>
    rcases Steps.of_bind h with ⟨p', h1, rfl⟩ | ⟨tr1, tr2, u, h1, h2, rfl⟩
    · exact .inr ⟨[], tr, .ok a, p', .refl _, h1, rfl, rfl⟩
    · cases h2
      exact .inr ⟨[], tr1, .ok a, .ret u, .refl _, h1, by simp, rfl⟩
  | raise e =>
    rcases Steps.of_bind h with ⟨p', h1, rfl⟩ | ⟨tr1, tr2, u, h1, h2, rfl⟩
    · exact .inr ⟨[], tr, .error e, p', .refl _, h1, rfl, rfl⟩
    · cases h2
      exact .inr ⟨[], tr1, .error e, .ret u, .refl _, h1, by simp, rfl⟩
  | op o k ih =>
    cases h with
    | refl => exact .inl ⟨_, .refl _, rfl⟩
    | op h =>
      rcases ih _ h with ⟨p', h1, h2⟩ | ⟨tr1, tr2, x, f', h1, h2, rfl, h3⟩
      · exact .inl ⟨p', .op h1, h2⟩
      · exact .inr ⟨_, tr2, x, f', .op h1, h2, rfl, h3⟩

theorem Only.steps {P : Op → Prop} {p q : Prog G α} (hp : Only P p) {tr : Hist G}
    (h : Steps p tr q) : ∀ e ∈ tr, P e.1 := by
  induction h with
  | refl => simp
  | op _ ih =>
    intro e he
    rcases List.mem_cons.1 he with rfl | he
    · exact hp.1
    · exact ih (hp.2 _) e he

/-- Two states that differ only in their history. -/
structure Alike (a b : FS G) : Prop where
  entry : b.entry = a.entry
  node : b.node = a.node
  next : b.next = a.next

theorem Alike.eq {a b : FS G} (h : Alike a b) : ∃ x y, b = { a with built := x, moves := y } := by
  obtain ⟨e, n, k, bs, m⟩ := b
  obtain ⟨h1, h2, h3⟩ := h
  simp only at h1 h2 h3
  subst h1 h2 h3
  exact ⟨bs, m, rfl⟩

theorem norm_alike {key : Key} {o : Op} {a a' b : FS G} {r : Except Err (Res G o)}
    (hn : Norm key o a r a') (h : Alike a b) : ∃ b', Norm key o b r b' ∧ Alike a' b' := by
  have self : ∀ {a b : FS G}, a' = a → Alike a b → Alike a' b := by
    rintro a b rfl h; exact h
  obtain ⟨x, y, rfl⟩ := h.eq
  cases o with
  | openDir n => exact ⟨_, ⟨hn.1, rfl⟩, self hn.2 h⟩
  | listFd n => exact ⟨_, ⟨hn.1, rfl⟩, self hn.2 h⟩
  | readFd n e => exact ⟨_, ⟨hn.1, rfl⟩, self hn.2 h⟩
  | lstat n => exact ⟨_, ⟨hn.1, rfl⟩, self hn.2 h⟩
  | mtime n => exact ⟨_, ⟨rfl, hn.2⟩, self hn.1 h⟩
  | iterdir => exact ⟨_, ⟨rfl, hn.2⟩, self hn.1 h⟩
  | scandir n => exact ⟨_, ⟨hn.1, rfl⟩, self hn.2 h⟩
  | lstatIn n e => exact ⟨_, ⟨hn.1, rfl⟩, self hn.2 h⟩
  | unlinkFd fd e =>
    refine ⟨_, ⟨?_, rfl⟩, ?_⟩
    · rw [hn.1]
      simp only [FS.unlinkFd, FS.ents]
      split <;> simp_all
    · rw [hn.2]
      unfold FS.unlinkFd
      simp only [FS.ents]
      split <;> exact ⟨rfl, rfl, rfl⟩
  | rmdir n =>
    refine ⟨_, ⟨?_, rfl⟩, ?_⟩
    · rw [hn.1]
      simp only [FS.rmdir]
      split
      · rfl
      · split <;> rfl
    · rw [hn.2]
      simp only [FS.rmdir]
      split
      · exact ⟨rfl, rfl, rfl⟩
      · split <;> exact ⟨rfl, rfl, rfl⟩
  | rename p q =>
    refine ⟨_, ⟨?_, rfl⟩, ?_⟩
    · rw [hn.1]
      simp only [FS.rename]
      split
      · rfl
      · split
        · rfl
        · split <;> rfl
    · rw [hn.2]
      simp only [FS.rename]
      split
      · exact ⟨rfl, rfl, rfl⟩
      · split
        · exact ⟨rfl, rfl, rfl⟩
        · split <;> exact ⟨rfl, rfl, rfl⟩
  | mkdtemp =>
    obtain ⟨u, h1, rfl, rfl⟩ := hn
    exact ⟨_, ⟨u, h1, rfl, rfl⟩, ⟨rfl, rfl, rfl⟩⟩
  | write n e c =>
    refine ⟨_, ⟨?_, rfl⟩, ?_⟩
    · rw [hn.1]
      simp only [FS.write]
      split
      · rfl
      · split <;> rfl
    · rw [hn.2]
      simp only [FS.write]
      split
      · exact ⟨rfl, rfl, rfl⟩
      · split <;> exact ⟨rfl, rfl, rfl⟩
  | readPath n e => exact ⟨_, ⟨hn.1, rfl⟩, self hn.2 h⟩
  | uuid => exact ⟨_, ⟨rfl, hn.2⟩, self hn.1 h⟩
  | openAnchor => exact ⟨_, ⟨rfl, hn.2⟩, self hn.1 h⟩
  | acquire => exact ⟨_, ⟨rfl, hn.2⟩, self hn.1 h⟩
  | writeOwner => exact ⟨_, ⟨rfl, hn.2⟩, self hn.1 h⟩
  | release => exact ⟨_, ⟨rfl, hn.2⟩, self hn.1 h⟩
  | build =>
    obtain ⟨p, rfl, rfl⟩ := hn
    exact ⟨_, ⟨p, rfl, rfl⟩, ⟨rfl, rfl, rfl⟩⟩
  | fingerprint => exact ⟨_, ⟨rfl, hn.2⟩, self hn.1 h⟩

theorem write_alike {a b : FS G} (h : Alike a b) (n e : Name) (c : Bytes) :
    Alike (a.write n e c).2 (b.write n e c).2 := by
  obtain ⟨b', ⟨-, h1⟩, h2⟩ := norm_alike (key := ⟨[], []⟩) (o := .write n e c) ⟨rfl, rfl⟩ h
  exact h1 ▸ h2

theorem sem_alike {key : Key} {F : Faults} {o : Op} {a a' b : FS G} {r : Except Err (Res G o)}
    (hn : Sem key F o a r a') (h : Alike a b) : ∃ b', Sem key F o b r b' ∧ Alike a' b' := by
  rcases hn with hn | ⟨hf, hn⟩ | ⟨hl, rfl, r', hn⟩
  · obtain ⟨b', h1, h2⟩ := norm_alike hn h
    exact ⟨b', .inl h1, h2⟩
  · have self : ∀ {a b : FS G}, a' = a → Alike a b → Alike a' b := by
      rintro a b rfl h; exact h
    cases o with
    | write n e c =>
      obtain ⟨h1, rfl | ⟨d, h2, rfl⟩⟩ := hn
      · exact ⟨b, .inr (.inl ⟨hf, h1, .inl rfl⟩), h⟩
      · exact ⟨_, .inr (.inl ⟨hf, h1, .inr ⟨d, h2, rfl⟩⟩), write_alike h _ _ _⟩
    | release => exact hn.elim
    | openDir n => exact ⟨b, .inr (.inl ⟨hf, rfl, hn.2⟩), self hn.1 h⟩
    | listFd n => exact ⟨b, .inr (.inl ⟨hf, rfl, hn.2⟩), self hn.1 h⟩
    | readFd n e => exact ⟨b, .inr (.inl ⟨hf, rfl, hn.2⟩), self hn.1 h⟩
    | lstat n => exact ⟨b, .inr (.inl ⟨hf, rfl, hn.2⟩), self hn.1 h⟩
    | mtime n => exact ⟨b, .inr (.inl ⟨hf, rfl, hn.2⟩), self hn.1 h⟩
    | iterdir => exact ⟨b, .inr (.inl ⟨hf, rfl, hn.2⟩), self hn.1 h⟩
    | scandir n => exact ⟨b, .inr (.inl ⟨hf, rfl, hn.2⟩), self hn.1 h⟩
    | lstatIn n e => exact ⟨b, .inr (.inl ⟨hf, rfl, hn.2⟩), self hn.1 h⟩
    | unlinkFd fd e => exact ⟨b, .inr (.inl ⟨hf, rfl, hn.2⟩), self hn.1 h⟩
    | rmdir n => exact ⟨b, .inr (.inl ⟨hf, rfl, hn.2⟩), self hn.1 h⟩
    | rename p q => exact ⟨b, .inr (.inl ⟨hf, rfl, hn.2⟩), self hn.1 h⟩
    | mkdtemp => exact ⟨b, .inr (.inl ⟨hf, rfl, hn.2⟩), self hn.1 h⟩
    | readPath n e => exact ⟨b, .inr (.inl ⟨hf, rfl, hn.2⟩), self hn.1 h⟩
    | uuid => exact ⟨b, .inr (.inl ⟨hf, rfl, hn.2⟩), self hn.1 h⟩
    | openAnchor => exact ⟨b, .inr (.inl ⟨hf, rfl, hn.2⟩), self hn.1 h⟩
    | acquire => exact ⟨b, .inr (.inl ⟨hf, rfl, hn.2⟩), self hn.1 h⟩
    | writeOwner => exact ⟨b, .inr (.inl ⟨hf, rfl, hn.2⟩), self hn.1 h⟩
    | build => exact ⟨b, .inr (.inl ⟨hf, rfl, hn.2⟩), self hn.1 h⟩
    | fingerprint => exact ⟨b, .inr (.inl ⟨hf, rfl, hn.2⟩), self hn.1 h⟩
  · obtain ⟨b', h1, h2⟩ := norm_alike hn h
    exact ⟨b', .inr (.inr ⟨hl, rfl, r', h1⟩), h2⟩

/-- The history has no influence on a run. -/
theorem Run.alike {key : Key} {F : Faults} {p : Prog G α} {a a' b : FS G} {tr : Hist G}
    {x : Except Err α} (h : Run key F p a tr x a') (hab : Alike a b) :
    ∃ b', Run key F p b tr x b' ∧ Alike a' b' := by
  induction h generalizing b with
  | ret v => exact ⟨b, .ret _ _, hab⟩
  | raise e => exact ⟨b, .raise _ _, hab⟩
  | op h1 _ ih =>
    obtain ⟨b1, h2, h3⟩ := sem_alike h1 hab
    obtain ⟨b2, h4, h5⟩ := ih h3
    exact ⟨b2, .op h2 h4, h5⟩

end Verif.Cache
