import Verif.Cache.Json
import Mathlib.Algebra.Order.Ring.Rat
import Mathlib.Tactic.Linarith

/-
Waiting for the lock of a key: `_configured_lock_timeout`, `_lock_is_busy` and `CacheBundle.lock`
(tn/cache.py:147-157, 200-205, 661-699).

The clock, the outcomes of the attempts and what may fail are parameters. Times are rational numbers
and their arithmetic is exact. `float(s)` of a text is a parameter. Exceptions that arrive from outside
(`KeyboardInterrupt`) are not modelled.
-/

namespace Verif.Cache.Lock

/-- A Python float. -/
inductive Flt where
  | nan
  | inf (negative : Bool)
  | fin (q : ℚ)
  deriving DecidableEq

/-- `math.isfinite(t)` and not `t < 0`: the number. -/
def Flt.usable : Flt → Option ℚ
  | .fin q => if q < 0 then none else some q
  | _ => none

/-- What `_try_advisory_lock` does: it succeeds, or raises an `OSError`. -/
inductive Errno where
  | eacces
  | eagain
  | edeadlk
  | other
  deriving DecidableEq

inductive Attempt where
  | ok
  | err (blocking : Bool) (errno : Errno)
  deriving DecidableEq

/-- `_lock_is_busy`, cache.py:200-205. -/
def Attempt.busy : Attempt → Bool
  | .ok => false
  | .err blocking errno => blocking || errno == .eacces || errno == .eagain || errno == .edeadlk

inductive Err where
  /-- `ValueError` -/
  | value
  /-- `CacheError` -/
  | cache
  /-- `CacheLockTimeout` -/
  | timeout (seconds : ℚ)
  /-- Any other exception: of `_open_lock_anchor`, `_write_owner_payload` or of the body. -/
  | other
  deriving DecidableEq

/-- What happens, in order. -/
inductive Ev where
  | opened
  | attempt (a : Attempt)
  | diagnose
  | sleep (seconds : ℚ)
  | ownerWritten
  | enter
  | leave
  | unlock
  | close
  deriving DecidableEq

/-- The surroundings of one call. -/
structure Env (α : Type) where
  /-- `float(s)`, `none` for `ValueError`. -/
  parse : Str → Option Flt
  /-- The environment variable. -/
  var : Option Str
  /-- `_open_lock_anchor` works. -/
  opens : Bool
  /-- The attempts. -/
  attempt : Nat → Attempt
  /-- The readings of `time.monotonic()`. -/
  clock : Nat → ℚ
  /-- `_write_owner_payload` works. -/
  writesOwner : Bool
  /-- What the body does. -/
  body : Except Err α

variable {α : Type}

/-- `_configured_lock_timeout`, cache.py:147-157. -/
def configured (E : Env α) : Except Err ℚ :=
  match E.var with
  | none => .ok 600
  | some s => match E.parse s with
    | none => .error .value
    | some t => match t.usable with
      | none => .error .value
      | some q => .ok q

/-- The first lines of `lock`, cache.py:662-664; the argument is `float(timeout)`. -/
def validated (E : Env α) (timeout : Option Flt) : Except Err ℚ :=
  match timeout with
  | none => configured E
  | some t => match t.usable with
    | none => .error .value
    | some q => .ok q

/-- The argument of `time.sleep`, cache.py:679. -/
def pause (deadline now : ℚ) : ℚ := min (1 / 20) (max 0 (deadline - now))

/-- `while not acquired`, cache.py:669-679, from the `k`-th attempt on, at most `fuel` attempts. The
readings of the clock before it are `1 + 2 * k`. -/
def wait (E : Env α) (timeout deadline : ℚ) : Nat → Nat → Option (List Ev × Except Err Unit)
  | 0, _ => none
  | fuel + 1, k =>
    let a := E.attempt k
    if a = .ok then some ([.attempt a], .ok ())
    else if a.busy = false then some ([.attempt a], .error .cache)
    else if deadline ≤ E.clock (1 + 2 * k) then
      some ([.attempt a, .diagnose], .error (.timeout timeout))
    else
      match wait E timeout deadline fuel (k + 1) with
      | none => none
      | some (evs, r) => some (.attempt a :: .sleep (pause deadline (E.clock (2 + 2 * k))) :: evs, r)

/-- What follows when the lock has been obtained, cache.py:681-697. -/
def inside (E : Env α) : List Ev × Except Err α :=
  if E.writesOwner then ([.ownerWritten, .enter, .leave, .unlock], E.body) else ([], .error .other)

/-- `lock` around a body, cache.py:660-699. -/
def lock (E : Env α) (timeout : Option Flt) (fuel : Nat) : Option (List Ev × Except Err α) :=
  match validated E timeout with
  | .error e => some ([], .error e)
  | .ok t =>
    if E.opens then
      match wait E t (E.clock 0 + t) fuel 0 with
      | none => none
      | some (evs, .error e) => some (.opened :: evs ++ [.close], .error e)
      | some (evs, .ok ()) => some (.opened :: evs ++ (inside E).1 ++ [.close], (inside E).2)
    else some ([], .error .other)

/-! ### Specification -/

/-- A clock that does not go backwards and that shows at least the requested time after a sleep. -/
structure Ticks (E : Env α) (deadline : ℚ) : Prop where
  mono : ∀ n, E.clock n ≤ E.clock (n + 1)
  slept : ∀ k, E.clock (2 + 2 * k) + pause deadline (E.clock (2 + 2 * k)) ≤ E.clock (1 + 2 * (k + 1))

/-! ### Lemmas -/

theorem wait_spec (E : Env α) (t d : ℚ) : ∀ fuel k evs r, wait E t d fuel k = some (evs, r) →
    ∃ n, (∀ i, i < n → (E.attempt (k + i)).busy = true ∧ E.clock (1 + 2 * (k + i)) < d) ∧
      n < fuel ∧
      ((r = .ok () ∧ E.attempt (k + n) = .ok) ∨
       (r = .error .cache ∧ E.attempt (k + n) ≠ .ok ∧ (E.attempt (k + n)).busy = false) ∨
       (r = .error (.timeout t) ∧ (E.attempt (k + n)).busy = true ∧ d ≤ E.clock (1 + 2 * (k + n)))) ∧
      ∃ pre post, evs = pre ++ .attempt (E.attempt (k + n)) :: post ∧
        pre = (List.range n).flatMap (fun i => [.attempt (E.attempt (k + i)),
          .sleep (pause d (E.clock (2 + 2 * (k + i))))]) ∧ (post = [] ∨ post = [.diagnose])
  | 0, _, _, _, h => by simp [wait] at h
  | fuel + 1, k, evs, r, h => by
    rw [wait] at h
    split at h
    · rename_i h1
      cases h
      exact ⟨0, by simp, by omega, .inl ⟨rfl, h1⟩, [], [], by simp, by simp, .inl rfl⟩
    · rename_i h1
      split at h
      · rename_i h2
        cases h
        exact ⟨0, by simp, by omega, .inr (.inl ⟨rfl, h1, h2⟩), [], [], by simp, by simp, .inl rfl⟩
      · rename_i h2
        split at h
        · rename_i h3
          cases h
          exact ⟨0, by simp, by omega, .inr (.inr ⟨rfl, by simpa using h2, h3⟩), [], [.diagnose],
            by simp, by simp, .inr rfl⟩
        · rename_i h3
          split at h
          · cases h
          · rename_i evs' r' h4
            cases h
            obtain ⟨n, h5, h6, h7, pre, post, h8, h9, h10⟩ := wait_spec E t d fuel (k + 1) _ _ h4
            have e : ∀ i, k + 1 + i = k + (i + 1) := fun i => by omega
            simp only [e] at h5 h7 h8 h9
            refine ⟨n + 1, ?_, by omega, h7, .attempt (E.attempt k) ::
              .sleep (pause d (E.clock (2 + 2 * k))) :: pre, post, by rw [h8]; rfl, ?_, h10⟩
            · intro i hi
              cases i with
              | zero => exact ⟨by simpa using h2, not_le.1 h3⟩
              | succ i => exact h5 i (by omega)
            · rw [h9, List.range_succ_eq_map, List.flatMap_cons, List.flatMap_map]
              rfl

theorem wait_ends {E : Env α} {t d : ℚ} : ∀ fuel k,
    (∃ i, i ≤ fuel ∧ d ≤ E.clock (1 + 2 * (k + i))) → wait E t d (fuel + 1) k ≠ none
  | 0, k, h => by
    obtain ⟨i, hi, h⟩ := h
    obtain rfl : i = 0 := by omega
    rw [wait]
    split
    · simp
    · split
      · simp
      · rw [if_pos (by simpa using h)]
        simp
  | fuel + 1, k, h => by
    obtain ⟨i, hi, h⟩ := h
    rw [wait]
    split
    · simp
    · split
      · simp
      · split
        · simp
        · rename_i h3
          have h4 : ∃ i, i ≤ fuel ∧ d ≤ E.clock (1 + 2 * (k + 1 + i)) := by
            cases i with
            | zero => exact (h3 h).elim
            | succ i =>
              refine ⟨i, by omega, ?_⟩
              have e : k + 1 + i = k + (i + 1) := by omega
              rwa [e]
          have h5 := wait_ends (t := t) fuel (k + 1) h4
          split
          · rename_i h6
            exact (h5 h6).elim
          · simp

/-- The clock after `k` rounds. -/
theorem clock_after {E : Env α} {d : ℚ} (hT : Ticks E d) (k : Nat) :
    d ≤ E.clock (1 + 2 * k) ∨ E.clock 0 + k / 20 ≤ E.clock (1 + 2 * k) := by
  induction k with
  | zero =>
    right
    have := hT.mono 0
    simpa using this
  | succ k ih =>
    have h1 := hT.mono (1 + 2 * k)
    have e : 1 + 2 * k + 1 = 2 + 2 * k := by omega
    rw [e] at h1
    have h2 := hT.slept k
    have h0 : 0 ≤ pause d (E.clock (2 + 2 * k)) := by
      unfold pause
      exact le_min (by norm_num) (le_max_left _ _)
    rcases ih with ih | ih
    · left
      linarith
    · by_cases h3 : d - E.clock (2 + 2 * k) < 1 / 20
      · left
        have : d - E.clock (2 + 2 * k) ≤ pause d (E.clock (2 + 2 * k)) := by
          unfold pause
          exact le_min h3.le (le_max_right _ _)
        linarith
      · right
        push Not at h3
        have : pause d (E.clock (2 + 2 * k)) = 1 / 20 := by
          unfold pause
          exact min_eq_left (h3.trans (le_max_right _ _))
        rw [this] at h2
        push_cast
        linarith

/-! ### C43: timeouts are validated and bounded -/

/-- C43: a missing variable gives 600 s, a finite number that is not negative is taken, anything else
is refused. -/
theorem configured_spec (E : Env α) :
    (E.var = none → configured E = .ok 600) ∧
    ∀ s, E.var = some s →
      (∀ q : ℚ, E.parse s = some (.fin q) → 0 ≤ q → configured E = .ok q) ∧
      ((∀ q : ℚ, E.parse s = some (.fin q) → q < 0) → configured E = .error .value) := by
  refine ⟨fun h => by rw [configured, h], fun s h => ⟨fun q h1 h2 => ?_, fun h1 => ?_⟩⟩
  · rw [configured, h]
    simp [h1, Flt.usable, not_lt.2 h2]
  · rw [configured, h]
    cases hp : E.parse s with
    | none => simp [hp]
    | some t =>
      cases t with
      | nan => simp [hp, Flt.usable]
      | inf b => simp [hp, Flt.usable]
      | fin q => simp [hp, Flt.usable, h1 q hp]

/-- C43: a timeout that is not usable is refused before the lock file is touched; otherwise the call
goes on with a finite timeout that is not negative. -/
theorem lock_refuses {E : Env α} {timeout : Option Flt} {e : Err} (fuel : Nat)
    (h : validated E timeout = .error e) : e = .value ∧ lock E timeout fuel = some ([], .error .value) := by
  have h1 : e = .value := by
    unfold validated at h
    cases timeout with
    | none =>
      unfold configured at h
      simp only at h
      split at h
      · cases h
      · split at h
        · cases h; rfl
        · split at h
          · cases h; rfl
          · cases h
    | some t =>
      simp only at h
      split at h
      · cases h; rfl
      · cases h
  subst h1
  exact ⟨rfl, by rw [lock, h]⟩

theorem validated_nonneg {E : Env α} {timeout : Option Flt} {t : ℚ}
    (h : validated E timeout = .ok t) : 0 ≤ t := by
  have usable : ∀ f : Flt, f.usable = some t → 0 ≤ t := by
    intro f hf
    cases f with
    | nan => cases hf
    | inf b => cases hf
    | fin q =>
      simp only [Flt.usable] at hf
      split at hf
      · cases hf
      · rename_i hq
        cases hf
        exact not_lt.1 hq
  unfold validated at h
  cases timeout with
  | none =>
    unfold configured at h
    simp only at h
    split at h
    · cases h
      norm_num
    · split at h
      · cases h
      · split at h
        · cases h
        · rename_i q hq
          cases h
          exact usable _ hq
  | some f =>
    simp only at h
    split at h
    · cases h
    · rename_i q hq
      cases h
      exact usable _ hq

/-- C43: the body is entered only after an attempt succeeded, all attempts before having found the
lock busy before the deadline. -/
theorem enter_locked {E : Env α} {timeout : Option Flt} {fuel : Nat} {evs : List Ev}
    {r : Except Err α} (h : lock E timeout fuel = some (evs, r)) (he : Ev.enter ∈ evs) :
    r = E.body ∧ ∃ n, E.attempt n = .ok ∧ ∀ i, i < n → (E.attempt i).busy = true := by
  unfold lock at h
  split at h
  · cases h
    simp at he
  · rename_i t ht
    split at h
    · split at h
      · cases h
      · rename_i evs' e h1
        cases h
        obtain ⟨n, h2, h3, h4, pre, post, h5, h6, h7⟩ := wait_spec E _ _ _ _ _ _ h1
        exfalso
        rw [h5, h6] at he
        rcases h7 with rfl | rfl <;> simp at he
      · rename_i evs' h1
        cases h
        obtain ⟨n, h2, h3, h4, pre, post, h5, h6, h7⟩ := wait_spec E _ _ _ _ _ _ h1
        simp only [Nat.zero_add] at h2 h4
        have hw : E.writesOwner = true := by
          by_contra hw
          simp only [Bool.not_eq_true] at hw
          rw [inside, hw, h5, h6] at he
          rcases h7 with rfl | rfl <;> simp at he
        refine ⟨by simp [inside, hw], n, ?_, fun i hi => (h2 i hi).1⟩
        rcases h4 with h4 | ⟨h4, -⟩ | ⟨h4, -⟩
        · exact h4.2
        · cases h4
        · cases h4
    · cases h
      simp at he

/-- C43: a call that gives up did so after its deadline, found the lock busy every time and did not
enter the body. -/
theorem timeout_spec {E : Env α} {timeout : Option Flt} {fuel : Nat} {evs : List Ev} {s : ℚ}
    (hb : ∀ x, E.body ≠ .error (.timeout x))
    (h : lock E timeout fuel = some (evs, .error (.timeout s))) :
    validated E timeout = .ok s ∧ Ev.enter ∉ evs ∧
    ∃ n, E.clock 0 + s ≤ E.clock (1 + 2 * n) ∧ ∀ i, i ≤ n → (E.attempt i).busy = true := by
  unfold lock at h
  split at h
  · rename_i e he
    obtain ⟨rfl, -⟩ := lock_refuses fuel he
    cases h
  · rename_i t ht
    split at h
    · split at h
      · cases h
      · rename_i evs' e h1
        cases h
        obtain ⟨n, h2, h3, h4, pre, post, h5, h6, h7⟩ := wait_spec E _ _ _ _ _ _ h1
        simp only [Nat.zero_add] at h2 h4
        rcases h4 with ⟨h4, -⟩ | ⟨h4, -⟩ | ⟨h4, h8, h9⟩
        · cases h4
        · cases h4
        · cases h4
          refine ⟨ht, ?_, n, h9, fun i hi => ?_⟩
          · rw [h5, h6]
            rcases h7 with rfl | rfl <;> simp
          · rcases Nat.lt_or_ge i n with hi' | hi'
            · exact (h2 i hi').1
            · obtain rfl : i = n := by omega
              exact h8
      · rename_i evs' h1
        simp only [Option.some.injEq, Prod.mk.injEq] at h
        obtain ⟨-, h⟩ := h
        unfold inside at h
        split at h
        · exact (hb s h).elim
        · cases h
    · cases h

/-- C43: the wait is bounded: with a clock that does not go backwards and sleeps that last, a call
ends after at most `20 * timeout + 1` attempts, rounded up. -/
theorem wait_bounded {E : Env α} {timeout : Option Flt} {t : ℚ} (ht : validated E timeout = .ok t)
    (hT : Ticks E (E.clock 0 + t)) {n : Nat} (hn : t ≤ n / 20) : lock E timeout (n + 1) ≠ none := by
  have h1 : E.clock 0 + t ≤ E.clock (1 + 2 * n) := by
    rcases clock_after hT n with h | h
    · exact h
    · linarith
  have h2 := wait_ends (E := E) (t := t) (d := E.clock 0 + t) n 0 ⟨n, le_refl _, by simpa using h1⟩
  unfold lock
  rw [ht]
  simp only
  split
  · split
    · rename_i h3
      exact (h2 h3).elim
    · simp
    · simp
  · simp

/-- C43: an error that does not mean "busy" is not waited for. -/
theorem other_errors {E : Env α} {timeout : Option Flt} {t : ℚ} {fuel : Nat}
    (ht : validated E timeout = .ok t) (ho : E.opens = true) (h : E.attempt 0 ≠ .ok)
    (hb : (E.attempt 0).busy = false) :
    lock E timeout (fuel + 1) = some ([.opened, .attempt (E.attempt 0), .close], .error .cache) := by
  unfold lock
  rw [ht]
  simp [ho, wait, h, hb]

/-- C43: whatever happens, the lock file is closed as the last thing once it was opened, and the body
is followed by the release of the lock. -/
theorem lock_closes {E : Env α} {timeout : Option Flt} {fuel : Nat} {evs : List Ev}
    {r : Except Err α} (h : lock E timeout fuel = some (evs, r)) :
    evs = [] ∨ ∃ mid, evs = .opened :: mid ++ [.close] ∧ Ev.close ∉ mid ∧
      (Ev.enter ∈ mid → ∃ pre, mid = pre ++ [.enter, .leave, .unlock]) := by
  unfold lock at h
  split at h
  · cases h
    exact .inl rfl
  · split at h
    · split at h
      · cases h
      · rename_i evs' e h1
        cases h
        obtain ⟨n, h2, h3, h4, pre, post, h5, h6, h7⟩ := wait_spec E _ _ _ _ _ _ h1
        refine .inr ⟨evs', rfl, ?_, ?_⟩
        · rw [h5, h6]
          rcases h7 with rfl | rfl <;> simp
        · intro h8
          rw [h5, h6] at h8
          rcases h7 with rfl | rfl <;> simp at h8
      · rename_i evs' h1
        cases h
        obtain ⟨n, h2, h3, h4, pre, post, h5, h6, h7⟩ := wait_spec E _ _ _ _ _ _ h1
        refine .inr ⟨evs' ++ (inside E).1, by simp, ?_, ?_⟩
        · rw [h5, h6]
          unfold inside
          rcases h7 with rfl | rfl <;> split <;> simp
        · intro h8
          unfold inside at h8 ⊢
          split
          · exact ⟨evs' ++ [.ownerWritten], by simp⟩
          · rename_i hw
            rw [if_neg hw, h5, h6] at h8
            rcases h7 with rfl | rfl <;> simp at h8
    · cases h
      exact .inl rfl

/-! Examples -/

namespace Demo

/-- Busy twice, then free; the clock goes in steps of 1/25. -/
def env : Env Nat where
  parse s := if s = "1".toList then some (.fin 1) else if s = "-1".toList then some (.fin (-1)) else
    if s = "nan".toList then some .nan else if s = "inf".toList then some (.inf false) else none
  var := some "1".toList
  opens := true
  attempt k := if k < 2 then .err true .eagain else .ok
  clock n := n / 25
  writesOwner := true
  body := .ok 7

/-- Always busy. -/
def stuck : Env Nat := { env with attempt := fun _ => .err false .edeadlk }

example : lock env none 3 = some ([.opened, .attempt (.err true .eagain), .sleep (1 / 20),
    .attempt (.err true .eagain), .sleep (1 / 20), .attempt .ok, .ownerWritten, .enter, .leave,
    .unlock, .close], .ok 7) := by
  decide +kernel

example : configured { env with var := none } = .ok 600 ∧ configured env = .ok 1 ∧
    configured { env with var := some "-1".toList } = .error .value ∧
    configured { env with var := some "nan".toList } = .error .value ∧
    configured { env with var := some "inf".toList } = .error .value ∧
    configured { env with var := some "x".toList } = .error .value := by
  decide +kernel

/-- The timeout comes after the deadline. -/
example : (lock stuck (some (.fin (1 / 10))) 3).map Prod.snd = some (.error (.timeout (1 / 10))) := by
  decide +kernel

/-- A clock that shows the time slept. -/
example : Ticks { env with clock := fun n => n / 20 } (0 / 20 + 1) where
  mono n := by push_cast; linarith
  slept k := by
    have : pause (0 / 20 + 1) (((2 + 2 * k : Nat) : ℚ) / 20) ≤ 1 / 20 := min_le_left _ _
    push_cast at this ⊢
    linarith

end Demo

end Verif.Cache.Lock
