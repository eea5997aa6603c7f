import Verif.Cache.Logic

/-
Any number of processes over one parent directory and one lock, in any interleaving of their
operations, with crashes.
-/

namespace Verif.Cache

variable {G : Type} {α : Type}

/-- A process is its remaining program, or dead. -/
inductive Proc (G α : Type) where
  | run (p : Prog G α)
  | dead

/-- The whole system. `held i` tells whether the process `i` holds the lock. -/
structure Sys (G α : Type) where
  fs : FS G
  held : Nat → Bool
  proc : Nat → Proc G α

/-- One step: a process performs its next operation, or dies. The operating system grants the lock
only while nobody holds it, and takes it from a dead process. -/
inductive Step (key : Key) (F : Faults) (crashes : Bool) : Nat → Sys G α → Sys G α → Prop
  | op (s : Sys G α) (i : Nat) (o : Op) (k : Except Err (Res G o) → Prog G α)
      (r : Except Err (Res G o)) (fs' : FS G) :
      s.proc i = .run (.op o k) → Sem key F o s.fs r fs' →
      (acquired o r = true → ∀ j, s.held j = false) →
      Step key F crashes i s
        { fs := fs'
          held := fun j => if j = i then heldAfter (s.held i) o r else s.held j
          proc := fun j => if j = i then .run (k r) else s.proc j }
  | crash (s : Sys G α) (i : Nat) :
      crashes = true →
      Step key F crashes i s
        { fs := s.fs
          held := fun j => if j = i then false else s.held j
          proc := fun j => if j = i then .dead else s.proc j }

/-- The states an execution can reach. -/
inductive Reach (key : Key) (F : Faults) (crashes : Bool) (s₀ : Sys G α) : Sys G α → Prop
  | start : Reach key F crashes s₀ s₀
  | step {s s' : Sys G α} {i : Nat} :
      Reach key F crashes s₀ s → Step key F crashes i s s' → Reach key F crashes s₀ s'

section
variable {key : Key} {F : Faults} {Gd : FS G → FS G → Prop} {K : FS G → Prop} {crashes : Bool}
variable {Q : Nat → Bool → Except Err α → FS G → Prop}

/-- What the logic keeps: one holder at most, all programs are safe, and `K` when the lock is free. -/
structure Good (key : Key) (F : Faults) (Gd : FS G → FS G → Prop) (K : FS G → Prop)
    (Q : Nat → Bool → Except Err α → FS G → Prop) (s : Sys G α) : Prop where
  one : ∀ i j, s.held i = true → s.held j = true → i = j
  dead : ∀ i, s.proc i = .dead → s.held i = false
  safe : ∀ i p, s.proc i = .run p → Safe key F Gd K p (s.held i) s.fs (Q i)
  lock : (∀ i, s.held i = false) → K s.fs

theorem Good.step {s s' : Sys G α} {i : Nat} (hrefl : ∀ fs, Gd fs fs)
    (hQ : ∀ i r fs fs', Gd fs fs' → Q i false r fs → Q i false r fs')
    (hK : crashes = true → ∀ fs, K fs) (hg : Good key F Gd K Q s)
    (hs : Step key F crashes i s s') :
    Good key F Gd K Q s' ∧ Gd s.fs s'.fs ∧ (s.held i = false → s'.fs = s.fs) := by
  cases hs with
  | op _ _ o k r fs' hp hsem hacq =>
    have hsafe := hg.safe i _ hp
    have hrely : (if s.held i = true then s.fs = s.fs else Relation.ReflTransGen Gd s.fs s.fs) := by
      split
      · rfl
      · exact .refl
    obtain ⟨⟨h1, h2, h3⟩, h4⟩ := hsafe s.fs hrely r fs' hsem (fun h => hg.lock (hacq h))
    refine ⟨⟨?_, ?_, ?_, ?_⟩, h1, h2⟩
    · intro a b ha hb
      simp only at ha hb
      have hold : ∀ j, heldAfter (s.held i) o r = true → j ≠ i → s.held j = true → False := by
        intro j hh hj hsj
        by_cases hi : s.held i = true
        · exact hj (hg.one j i hsj hi)
        · have hac : acquired o r = true := by
            cases o <;> simp_all [heldAfter]
          have := hacq hac j
          simp [hsj] at this
      by_cases hai : a = i <;> by_cases hbi : b = i
      · rw [hai, hbi]
      · simp only [hai, if_true] at ha
        simp only [hbi, if_false] at hb
        exact (hold b ha hbi hb).elim
      · simp only [hbi, if_true] at hb
        simp only [hai, if_false] at ha
        exact (hold a hb hai ha).elim
      · simp only [hai, if_false] at ha
        simp only [hbi, if_false] at hb
        exact hg.one a b ha hb
    · intro a ha
      simp only at ha ⊢
      by_cases hai : a = i
      · simp [hai] at ha
      · simp only [hai, if_false] at ha ⊢
        exact hg.dead a ha
    · intro a p ha
      simp only at ha ⊢
      by_cases hai : a = i
      · subst hai
        simp only [if_true] at ha ⊢
        injection ha with ha
        subst ha
        exact h4
      · simp only [hai, if_false] at ha ⊢
        have hsa := hg.safe a p ha
        by_cases hha : s.held a = true
        · have hi : s.held i = false := by
            by_contra hne
            exact hai (hg.one a i hha (by simpa using hne))
          rw [h2 hi]
          exact hsa
        · have hha' : s.held a = false := by simpa using hha
          rw [hha'] at hsa ⊢
          exact Safe.stable (hQ a) (.single h1) hsa
    · intro hall
      by_cases hi : s.held i = true
      · refine h3 hi ?_
        have := hall i
        simpa using this
      · have hi' : s.held i = false := by simpa using hi
        simp only
        rw [h2 hi']
        apply hg.lock
        intro j
        by_cases hj : j = i
        · rw [hj, hi']
        · have := hall j
          simpa [hj] using this
  | crash _ _ hc =>
    refine ⟨⟨?_, ?_, ?_, ?_⟩, hrefl _, fun _ => rfl⟩
    · intro a b ha hb
      simp only at ha hb
      by_cases hai : a = i
      · simp [hai] at ha
      · by_cases hbi : b = i
        · simp [hbi] at hb
        · simp only [hai, hbi, if_false] at ha hb
          exact hg.one a b ha hb
    · intro a ha
      simp only at ha ⊢
      by_cases hai : a = i
      · simp [hai]
      · simp only [hai, if_false] at ha ⊢
        exact hg.dead a ha
    · intro a p ha
      simp only at ha ⊢
      by_cases hai : a = i
      · simp [hai] at ha
      · simp only [hai, if_false] at ha ⊢
        exact hg.safe a p ha
    · intro _
      exact hK hc _

/-- All reachable states are good and every step is a `Gd`-step that changes something only when
its process holds the lock. -/
theorem Good.reach {s₀ s : Sys G α} (hrefl : ∀ fs, Gd fs fs)
    (hQ : ∀ i r fs fs', Gd fs fs' → Q i false r fs → Q i false r fs')
    (hK : crashes = true → ∀ fs, K fs) (hg : Good key F Gd K Q s₀)
    (hs : Reach key F crashes s₀ s) :
    Good key F Gd K Q s ∧ Relation.ReflTransGen Gd s₀.fs s.fs := by
  induction hs with
  | start => exact ⟨hg, .refl⟩
  | step _ h ih =>
    obtain ⟨h1, h2, -⟩ := Good.step hrefl hQ hK ih.1 h
    exact ⟨h1, ih.2.tail h2⟩

end

/-- The start: every process is about to run its program and nobody holds the lock. -/
def Sys.start (fs : FS G) (progs : Nat → Prog G α) : Sys G α where
  fs := fs
  held := fun _ => false
  proc := fun i => .run (progs i)

theorem Good.start {key : Key} {F : Faults} {Gd : FS G → FS G → Prop} {K : FS G → Prop}
    {Q : Nat → Bool → Except Err α → FS G → Prop} {fs : FS G} {progs : Nat → Prog G α}
    (hK : K fs) (hp : ∀ i, Safe key F Gd K (progs i) false fs (Q i)) :
    Good key F Gd K Q (Sys.start fs progs) := by
  refine ⟨?_, ?_, ?_, fun _ => hK⟩
  · intro i j h
    simp [Sys.start] at h
  · intro i h
    simp [Sys.start]
  · intro i p h
    simp only [Sys.start, Proc.run.injEq] at h
    subst h
    exact hp i

end Verif.Cache
