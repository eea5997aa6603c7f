import Verif.Cache.Prog
import Mathlib.Logic.Relation

/-
A rely-guarantee logic for programs. `Safe` says: whatever the other processes do between the steps
(`Gd`-steps while the lock is not held, nothing while it is held), every step of the program is a
`Gd`-step, steps without the lock change nothing, the lock is given back in a state satisfying `K`,
and the program ends in `Q`.
-/

namespace Verif.Cache

variable {G : Type} {α β : Type}

/-- Has this outcome acquired the lock? -/
def acquired : (o : Op) → Except Err (Res G o) → Bool
  | .acquire, .ok _ => true
  | _, _ => false

/-- Is the lock held after the operation? -/
def heldAfter (h : Bool) (o : Op) (r : Except Err (Res G o)) : Bool :=
  match o with
  | .acquire => h || acquired .acquire r
  | .release => false
  | _ => h

section
variable (key : Key) (F : Faults) (Gd : FS G → FS G → Prop) (K : FS G → Prop)

def Safe : Prog G α → Bool → FS G → (Bool → Except Err α → FS G → Prop) → Prop
  | .ret a, h, fs, Q => Q h (.ok a) fs
  | .raise e, h, fs, Q => Q h (.error e) fs
  | .op o k, h, fs, Q =>
    ∀ fs1, (if h then fs1 = fs else Relation.ReflTransGen Gd fs fs1) →
      ∀ r fs2, Sem key F o fs1 r fs2 → (acquired o r = true → K fs1) →
        (Gd fs1 fs2 ∧ (h = false → fs2 = fs1) ∧ (h = true → heldAfter h o r = false → K fs2)) ∧
        Safe (k r) (heldAfter h o r) fs2 Q

end

variable {key : Key} {F : Faults} {Gd : FS G → FS G → Prop} {K : FS G → Prop}

theorem Safe.mono {p : Prog G α} {h : Bool} {fs : FS G}
    {Q Q' : Bool → Except Err α → FS G → Prop} (hp : Safe key F Gd K p h fs Q)
    (hQ : ∀ h r fs, Q h r fs → Q' h r fs) : Safe key F Gd K p h fs Q' := by
  induction p generalizing h fs with
  | ret a => exact hQ _ _ _ hp
  | raise e => exact hQ _ _ _ hp
  | op o k ih =>
    intro fs1 h1 r fs2 h2 h3
    obtain ⟨h4, h5⟩ := hp fs1 h1 r fs2 h2 h3
    exact ⟨h4, ih r h5⟩

/-- Two postconditions at once. -/
theorem Safe.and {Gd' : FS G → FS G → Prop} {p : Prog G α} {h : Bool} {fs : FS G}
    {Q Q' : Bool → Except Err α → FS G → Prop} (hle : ∀ a b, Gd a b → Gd' a b)
    (hp : Safe key F Gd K p h fs Q) (hp' : Safe key F Gd' K p h fs Q') :
    Safe key F Gd K p h fs fun h r fs => Q h r fs ∧ Q' h r fs := by
  induction p generalizing h fs with
  | ret a => exact ⟨hp, hp'⟩
  | raise e => exact ⟨hp, hp'⟩
  | op o k ih =>
    intro fs1 h1 r fs2 h2 h3
    obtain ⟨h4, h5⟩ := hp fs1 h1 r fs2 h2 h3
    have h1' : if h then fs1 = fs else Relation.ReflTransGen Gd' fs fs1 := by
      cases h with
      | true => exact h1
      | false => exact Relation.ReflTransGen.mono hle _ _ h1
    exact ⟨h4, ih r h5 (hp' fs1 h1' r fs2 h2 h3).2⟩

/-- An invariant of all steps. -/
theorem Safe.inv {I : FS G → Prop} {p : Prog G α} {h : Bool} {fs : FS G}
    {Q : Bool → Except Err α → FS G → Prop} (hI : ∀ a b, Gd a b → I a → I b) (hi : I fs)
    (hp : Safe key F Gd K p h fs Q) :
    Safe key F Gd K p h fs fun h r fs => Q h r fs ∧ I fs := by
  induction p generalizing h fs with
  | ret a => exact ⟨hp, hi⟩
  | raise e => exact ⟨hp, hi⟩
  | op o k ih =>
    intro fs1 h1 r fs2 h2 h3
    obtain ⟨h4, h5⟩ := hp fs1 h1 r fs2 h2 h3
    have hi1 : I fs1 := by
      cases h with
      | true => exact (show fs1 = fs from h1) ▸ hi
      | false =>
        replace h1 : Relation.ReflTransGen Gd fs fs1 := h1
        clear h2 h3 h4 h5
        induction h1 with
        | refl => exact hi
        | tail _ h ih => exact hI _ _ h ih
    exact ⟨h4, ih r (hI _ _ h4.1 hi1) h5⟩

theorem Safe.bind {p : Prog G α} {f : α → Prog G β} {h : Bool} {fs : FS G}
    {Q : Bool → Except Err β → FS G → Prop}
    (hp : Safe key F Gd K p h fs fun h' r fs' => match r with
      | .ok a => Safe key F Gd K (f a) h' fs' Q
      | .error e => Q h' (.error e) fs') :
    Safe key F Gd K (p.bind f) h fs Q := by
  induction p generalizing h fs with
  | ret a => exact hp
  | raise e => exact hp
  | op o k ih =>
    intro fs1 h1 r fs2 h2 h3
    obtain ⟨h4, h5⟩ := hp fs1 h1 r fs2 h2 h3
    exact ⟨h4, ih r h5⟩

theorem Safe.tryExcept {p : Prog G α} {f : Err → Prog G α} {h : Bool} {fs : FS G}
    {Q : Bool → Except Err α → FS G → Prop}
    (hp : Safe key F Gd K p h fs fun h' r fs' => match r with
      | .ok a => Q h' (.ok a) fs'
      | .error e => Safe key F Gd K (f e) h' fs' Q) :
    Safe key F Gd K (p.tryExcept f) h fs Q := by
  induction p generalizing h fs with
  | ret a => exact hp
  | raise e => exact hp
  | op o k ih =>
    intro fs1 h1 r fs2 h2 h3
    obtain ⟨h4, h5⟩ := hp fs1 h1 r fs2 h2 h3
    exact ⟨h4, ih r h5⟩

theorem Safe.tryFinally {p : Prog G α} {f : Prog G Unit} {h : Bool} {fs : FS G}
    {Q : Bool → Except Err α → FS G → Prop}
    (hp : Safe key F Gd K p h fs fun h' r fs' =>
      Safe key F Gd K f h' fs' fun h'' r' fs'' => match r' with
        | .ok _ => Q h'' r fs''
        | .error e => Q h'' (.error e) fs'') :
    Safe key F Gd K (p.tryFinally f) h fs Q := by
  induction p generalizing h fs with
  | ret a =>
    refine Safe.bind (Safe.mono hp ?_)
    intro h r fs' hr
    cases r <;> exact hr
  | raise e =>
    refine Safe.bind (Safe.mono hp ?_)
    intro h r fs' hr
    cases r <;> exact hr
  | op o k ih =>
    intro fs1 h1 r fs2 h2 h3
    obtain ⟨h4, h5⟩ := hp fs1 h1 r fs2 h2 h3
    exact ⟨h4, ih r h5⟩

theorem Safe.ofExcept {x : Except Err α} {h : Bool} {fs : FS G}
    {Q : Bool → Except Err α → FS G → Prop} (hq : Q h x fs) :
    Safe key F Gd K (Prog.ofExcept x) h fs Q := by
  cases x <;> exact hq

/-- An operation while the lock is held that does not give it back. -/
theorem Safe.callHeld {o : Op} {fs : FS G} {Q : Bool → Except Err (Res G o) → FS G → Prop}
    (ho : o ≠ .acquire) (ho' : o ≠ .release)
    (hq : ∀ r fs', Sem key F o fs r fs' → Gd fs fs' ∧ Q true r fs') :
    Safe key F Gd K (Prog.call o) true fs Q := by
  intro fs1 h1 r fs2 h2 h3
  simp only [if_true] at h1
  subst h1
  obtain ⟨h4, h5⟩ := hq r fs2 h2
  have hh : heldAfter true o r = true := by
    cases o <;> simp_all [heldAfter]
  rw [hh]
  refine ⟨⟨h4, (by simp), (by simp)⟩, ?_⟩
  cases r <;> exact h5

/-- Does the operation leave the state alone? -/
def Op.pure : Op → Bool
  | .unlinkFd _ _ | .rmdir _ | .rename _ _ | .mkdtemp | .write _ _ _ | .build => false
  | _ => true

theorem Sem.same {o : Op} {fs fs' : FS G} {r : Except Err (Res G o)} (ho : o.pure = true)
    (h : Sem key F o fs r fs') : fs' = fs := by
  have key1 : ∀ r', Norm key o fs r' fs' → fs' = fs := by
    intro r' h
    cases o <;> simp_all [Norm, Op.pure]
  rcases h with h | ⟨-, h⟩ | ⟨-, -, r', h⟩
  · exact key1 _ h
  · cases o <;> simp_all [Fault, Op.pure]
  · exact key1 _ h

/-- An operation without the lock. -/
theorem Safe.callFree {o : Op} {fs : FS G} {Q : Bool → Except Err (Res G o) → FS G → Prop}
    (ho : o ≠ .acquire) (hpure : o.pure = true) (hrefl : ∀ fs, Gd fs fs)
    (hq : ∀ fs1, Relation.ReflTransGen Gd fs fs1 → ∀ r, Sem key F o fs1 r fs1 → Q false r fs1) :
    Safe key F Gd K (Prog.call o) false fs Q := by
  intro fs1 h1 r fs2 h2 h3
  simp only [Bool.false_eq_true, if_false] at h1
  have h4 := Sem.same hpure h2
  subst h4
  have hh : heldAfter false o r = false := by
    cases o <;> simp_all [heldAfter]
  rw [hh]
  refine ⟨⟨hrefl _, (by simp), (by simp)⟩, ?_⟩
  have := hq _ h1 r h2
  cases r <;> exact this

/-- What the program may assume does not depend on what others did just before. -/
theorem Safe.stable {p : Prog G α} {fs fs' : FS G} {Q : Bool → Except Err α → FS G → Prop}
    (hQ : ∀ r fs fs', Gd fs fs' → Q false r fs → Q false r fs')
    (hg : Relation.ReflTransGen Gd fs fs') (hp : Safe key F Gd K p false fs Q) :
    Safe key F Gd K p false fs' Q := by
  cases p with
  | ret a =>
    simp only [Safe] at hp ⊢
    induction hg with
    | refl => exact hp
    | tail _ h ih => exact hQ _ _ _ h ih
  | raise e =>
    simp only [Safe] at hp ⊢
    induction hg with
    | refl => exact hp
    | tail _ h ih => exact hQ _ _ _ h ih
  | op o k =>
    intro fs1 h1
    simp only [Bool.false_eq_true, if_false] at h1
    exact hp fs1 (by simp only [Bool.false_eq_true, if_false]; exact hg.trans h1)

/-- One process on its own: the operations with their outcomes, the result and the last state. -/
inductive Run (key : Key) (F : Faults) :
    Prog G α → FS G → List (Σ o : Op, Except Err (Res G o)) → Except Err α → FS G → Prop
  | ret (a : α) (fs : FS G) : Run key F (.ret a) fs [] (.ok a) fs
  | raise (e : Err) (fs : FS G) : Run key F (.raise e) fs [] (.error e) fs
  | op {o : Op} {k : Except Err (Res G o) → Prog G α} {fs fs1 fs' : FS G}
      {r : Except Err (Res G o)} {tr : List (Σ o : Op, Except Err (Res G o))}
      {x : Except Err α} :
      Sem key F o fs r fs1 → Run key F (k r) fs1 tr x fs' →
      Run key F (.op o k) fs (⟨o, r⟩ :: tr) x fs'

theorem Safe.run {p : Prog G α} {h : Bool} {fs fs' : FS G}
    {tr : List (Σ o : Op, Except Err (Res G o))} {x : Except Err α}
    {Q : Bool → Except Err α → FS G → Prop} (hK : ∀ fs, K fs)
    (hp : Safe key F Gd K p h fs Q) (hr : Run key F p fs tr x fs') : ∃ h', Q h' x fs' := by
  induction hr generalizing h with
  | ret a fs => exact ⟨h, hp⟩
  | raise e fs => exact ⟨h, hp⟩
  | @op o k fs fs1 fs' r tr x hs _ ih =>
    refine ih (hp fs ?_ r fs1 hs fun _ => hK _).2
    cases h with
    | true => rfl
    | false => exact Relation.ReflTransGen.refl

end Verif.Cache
