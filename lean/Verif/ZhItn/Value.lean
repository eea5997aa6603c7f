import Verif.ZhItn.Model
import Verif.ZhItn.Spec
import Verif.Wfst.Lemmas

/-
The numbers the Chinese inverse grammar writes denote what the numerals it reads denote.
-/

namespace Verif.ZhItn

open Verif.Wfst Spec

theorem run_append (s : St) (u v : Str) : s.run (u ++ v) = (s.run u).bind fun s => s.run v := by
  induction u generalizing s with
  | nil => rfl
  | cons c u ih =>
    simp only [List.cons_append, St.run]
    cases s.step c with
    | none => rfl
    | some s' => exact ih s'

theorem wr_append (s : Wr) (u v : Str) : s.run (u ++ v) = (s.run u).bind fun s => s.run v := by
  induction u generalizing s with
  | nil => rfl
  | cons c u ih =>
    simp only [List.cons_append, Wr.run]
    cases s.step c with
    | none => rfl
    | some s' => exact ih s'

/-- `y` is written with `k` digits worth `n`. -/
def Num (k : Nat) (y : Str) (n : Nat) : Prop :=
  ∀ s : Wr, s.run y = some { s with cur := s.cur * 10 ^ k + n }

theorem Num.append {k l y z n m} (h : Num k y n) (h' : Num l z m) : Num (k + l) (y ++ z) (n * 10 ^ l + m) := by
  intro s
  rw [wr_append, h s, Option.bind_some, h' _]
  congr 2
  simp only [Nat.pow_add]
  rw [Nat.add_mul, Nat.mul_assoc, Nat.add_assoc]

theorem Num.cast {k l y n m} (h : Num k y n) (e : k = l) (e' : n = m) : Num l y m := by subst e e'; exact h

theorem num_nil : Num 0 [] 0 := by intro s; simp [Wr.run]

theorem num_zero : Num 1 ['0'] 0 := by
  intro s
  show (Wr.step s '0').bind _ = _
  simp [Wr.step, asciiVal, Wr.run, Nat.mul_comm]

/-- `x` says `n` if the last unit leaves the place `p` to a digit without unit. -/
def SayAt (p : Nat) (x : Str) (n : Nat) : Prop :=
  ∀ s : St, s.pend = none → s.place = p → ∃ s', s.run x = some s' ∧ s'.hi = s.hi ∧ s'.wan = s.wan ∧
    s'.sec + s'.pend.getD 0 * s'.place = s.sec + n

/-- `x` says `n` behind any unit. -/
def Say (x : Str) (n : Nat) : Prop := ∀ p, SayAt p x n

theorem sayAt_nil (p : Nat) : SayAt p [] 0 := by
  intro s hp _; exact ⟨s, rfl, rfl, rfl, by simp [hp]⟩

theorem step_digit {c : Char} {d : Nat} (h : digitVal c = some d) {s : St} (hp : s.pend = none) :
    s.step c = some { s with pend := some d } := by
  simp [St.step, h, hp]

theorem sayAt_digit {c : Char} {d : Nat} (h : digitVal c = some d) (p : Nat) : SayAt p [c] (d * p) := by
  intro s hp he
  exact ⟨{ s with pend := some d }, by simp [St.run, step_digit h hp], rfl, rfl, by simp [he]⟩

/-! ### Digits -/

theorem den_digit {x y w} (h : digitG.den x y w) :
    ∃ c d, x = [c] ∧ digitVal c = some d ∧ d ≠ 0 ∧ Num 1 y d ∧ d < 10 := by
  have key : ∀ e ∈ digit, ∃ p ∈ digitTable, e.1 = [p.1] ∧ digitVal p.1 = some p.2 ∧ p.2 ≠ 0 ∧
      (∃ c ∈ e.2.head?, e.2 = [c] ∧ asciiVal c = some p.2) ∧ p.2 < 10 := by decide +kernel
  obtain ⟨p, _, h1, h2, h3, ⟨c, _, h4, h5⟩, h6⟩ := key _ (den_tab.1 h).1
  dsimp only at h1 h4
  subst h1 h4
  exact ⟨_, _, rfl, h2, h3, fun s => by simp [Wr.run, Wr.step, h5, Nat.mul_comm], h6⟩

theorem den_zero {x y w} (h : zeroG.den x y w) : (x = ['零'] ∨ x = ['洞']) ∧ y = ['0'] := by
  have key : ∀ e ∈ zero, (e.1 = ['零'] ∨ e.1 = ['洞']) ∧ e.2 = ['0'] := by decide +kernel
  exact key _ (den_tab.1 h).1

theorem step_zero {z : Str} (h : z = ['零'] ∨ z = ['洞']) (s : St) (hp : s.pend = none) :
    s.run z = some { s with place := 1 } := by
  rcases h with rfl | rfl <;> simp [St.run, St.step, digitVal, digitTable, List.lookup, hp]

theorem sayAt_zero {z : Str} (h : z = ['零'] ∨ z = ['洞']) {x n} (hx : SayAt 1 x n) : Say (z ++ x) n := by
  intro p s hp _
  rw [run_append, step_zero h s hp]
  exact hx { s with place := 1 } hp rfl

theorem step_shi (s : St) : s.step '十' =
    some { s with sec := s.sec + s.pend.getD 1 * 10, pend := none, place := 1 } := rfl
theorem step_bai (s : St) : s.step '百' =
    s.pend.map fun d => { s with sec := s.sec + d * 100, pend := none, place := 10 } := rfl
theorem step_qian (s : St) : s.step '千' =
    s.pend.map fun d => { s with sec := s.sec + d * 1000, pend := none, place := 100 } := rfl
theorem step_wan (s : St) : s.step '万' = some { hi := s.hi, wan := s.low * 10000, place := 1000 } := rfl
theorem step_yi (s : St) : s.step '亿' = some { hi := s.hi + s.low * 100000000 } := rfl
theorem step_zhao (s : St) : s.step '兆' = some { hi := s.hi + s.low * 1000000000000 } := rfl

/-- A digit and a unit below 万, then something said behind that unit. -/
theorem say_unit {c u : Char} {d v p : Nat} (hc : digitVal c = some d)
    (hu : ∀ s : St, s.step u = s.pend.map fun d => { s with sec := s.sec + d * v, pend := none, place := p })
    {x n} (hx : SayAt p x n) : Say (c :: u :: x) (d * v + n) := by
  intro q s hp _
  obtain ⟨s', h1, h2, h3, h4⟩ := hx { s with sec := s.sec + d * v, pend := none, place := p } rfl rfl
  refine ⟨s', ?_, h2, h3, by rw [h4]; simp [Nat.add_assoc]⟩
  simp only [St.run, step_digit hc hp, Option.bind_some, hu, Option.map_some]
  exact h1

theorem say_tens {c : Char} {d : Nat} (hc : digitVal c = some d) {x n} (hx : SayAt 1 x n) :
    Say (c :: '十' :: x) (d * 10 + n) := by
  intro q s hp _
  obtain ⟨s', h1, h2, h3, h4⟩ := hx { s with sec := s.sec + d * 10, pend := none, place := 1 } rfl rfl
  refine ⟨s', ?_, h2, h3, by rw [h4]; simp [Nat.add_assoc]⟩
  simp only [St.run, step_digit hc hp, Option.bind_some, step_shi]
  exact h1

theorem say_teen {x n} (hx : SayAt 1 x n) : Say ('十' :: x) (10 + n) := by
  intro q s hp _
  obtain ⟨s', h1, h2, h3, h4⟩ := hx { s with sec := s.sec + 10, pend := none, place := 1 } rfl rfl
  refine ⟨s', ?_, h2, h3, by rw [h4]; simp [Nat.add_assoc]⟩
  simp only [St.run, Option.bind_some, step_shi, hp]
  exact h1

/-! ### Below 10000 -/

/-- `g` writes `k` digits worth what is said. -/
def Says (g : G) (k : Nat) (p : Nat) : Prop :=
  ∀ x y w, g.den x y w → ∃ n, Num k y n ∧ SayAt p x n

/-- The same behind any unit. -/
def SaysAny (g : G) (k : Nat) : Prop := ∀ x y w, g.den x y w → ∃ n, Num k y n ∧ Say x n

theorem SaysAny.says {g k} (h : SaysAny g k) (p : Nat) : Says g k p := fun x y w hd => by
  obtain ⟨n, h1, h2⟩ := h x y w hd; exact ⟨n, h1, h2 p⟩

theorem Says.or {a b k p} (h : Says a k p) (h' : Says b k p) : Says (a ||| b) k p := fun x y w hd =>
  hd.elim (h x y w) (h' x y w)

theorem SaysAny.or {a b k} (h : SaysAny a k) (h' : SaysAny b k) : SaysAny (a ||| b) k := fun x y w hd =>
  hd.elim (h x y w) (h' x y w)

theorem Says.wt {a k p v} (h : Says a k p) : Says (G.wt a v) k p := fun x y w hd => by
  obtain ⟨w₀, hd, _⟩ := hd; exact h x y w₀ hd

/-- Zeros in front. -/
theorem Says.addzero {a k p} (h : Says a k p) : Says (addzero + a) (1 + k) p := by
  rintro x y w hd
  obtain ⟨y', rfl, hd'⟩ := den_insert_add.1 hd
  obtain ⟨n, h1, h2⟩ := h _ _ _ hd'
  exact ⟨n, (num_zero.append h1).cast rfl (by simp), h2⟩

theorem SaysAny.addzero {a k} (h : SaysAny a k) : SaysAny (ZhItn.addzero + a) (1 + k) := by
  rintro x y w hd
  obtain ⟨y', rfl, hd'⟩ := den_insert_add.1 hd
  obtain ⟨n, h1, h2⟩ := h _ _ _ hd'
  exact ⟨n, (num_zero.append h1).cast rfl (by simp), h2⟩

theorem add_assoc_den {a b c : G} {x y w} : (a + b + c).den x y w ↔ (a + (b + c)).den x y w := by
  simp only [den_add]
  constructor
  · rintro ⟨_, _, _, x₃, y₃, w₃, ⟨x₁, y₁, w₁, x₂, y₂, w₂, h1, h2, rfl, rfl, rfl⟩, h3, rfl, rfl, rfl⟩
    exact ⟨x₁, y₁, w₁, x₂ ++ x₃, y₂ ++ y₃, w₂ + w₃, h1, ⟨x₂, y₂, w₂, x₃, y₃, w₃, h2, h3, rfl, rfl, rfl⟩,
      by simp, by simp, Int.add_assoc _ _ _⟩
  · rintro ⟨x₁, y₁, w₁, _, _, _, h1, ⟨x₂, y₂, w₂, x₃, y₃, w₃, h2, h3, rfl, rfl, rfl⟩, rfl, rfl, rfl⟩
    exact ⟨x₁ ++ x₂, y₁ ++ y₂, w₁ + w₂, x₃, y₃, w₃, ⟨x₁, y₁, w₁, x₂, y₂, w₂, h1, h2, rfl, rfl, rfl⟩, h3,
      by simp, by simp, (Int.add_assoc _ _ _).symm⟩

theorem Says.assoc {a b c k p} (h : Says (a + (b + c)) k p) : Says (a + b + c) k p := fun x y w hd =>
  h x y w (add_assoc_den.1 hd)

theorem says_zeros (p : Nat) : ∀ k, Says (addzero.pow k) k p
  | 0 => by
    rintro x y w ⟨rfl, rfl, _⟩
    exact ⟨0, num_nil, sayAt_nil p⟩
  | k + 1 => by
    have := (says_zeros p k).addzero
    rw [Nat.add_comm] at this
    exact this

theorem says_addzero (p : Nat) : Says addzero 1 p := by
  rintro x y w hd
  obtain ⟨rfl, rfl, _⟩ := den_insert.1 hd
  exact ⟨0, num_zero, sayAt_nil p⟩

theorem says_digit : Says digitG 1 1 := by
  intro x y w hd
  obtain ⟨c, d, rfl, hc, _, hn, _⟩ := den_digit hd
  exact ⟨d, hn, by simpa using sayAt_digit hc 1⟩

/-- A digit whose unit is left out, and its zeros. -/
theorem says_short (k : Nat) : Says (digitG + addzero.pow k) (1 + k) (10 ^ k) := by
  rintro x y w ⟨x₁, y₁, w₁, x₂, y₂, w₂, h1, h2, rfl, rfl, rfl⟩
  obtain ⟨c, d, rfl, hc, _, hn, _⟩ := den_digit h1
  have hz : ∀ (k : Nat) (x y : Str) (w : W), (addzero.pow k).den x y w → x = [] ∧ Num k y 0 := by
    intro k
    induction k with
    | zero => rintro x y w ⟨rfl, rfl, _⟩; exact ⟨rfl, num_nil⟩
    | succ k ih =>
      intro x y w h
      obtain ⟨y', rfl, h'⟩ := den_insert_add.1 h
      obtain ⟨rfl, hk⟩ := ih _ _ _ h'
      exact ⟨rfl, (num_zero.append hk).cast (by omega) (by simp)⟩
  obtain ⟨rfl, hz⟩ := hz _ _ _ _ h2
  exact ⟨d * 10 ^ k, (hn.append hz).cast rfl (by simp), by simpa using sayAt_digit hc _⟩

theorem says_short1 : Says (digitG + addzero) 2 10 := by
  intro x y w hd
  refine says_short 1 x y w ?_
  obtain ⟨x₁, y₁, w₁, x₂, y₂, w₂, h1, h2, rfl, rfl, rfl⟩ := hd
  refine ⟨_, _, _, _, _, _, h1, ⟨_, _, _, _, _, _, h2, ⟨rfl, rfl, rfl⟩, rfl, rfl, rfl⟩, ?_, ?_, ?_⟩ <;> simp

/-- 零 and something said in the ones. -/
theorem says_zeroG {a k} (h : Says a k 1) : SaysAny (zeroG + a) (1 + k) := by
  rintro x y w ⟨x₁, y₁, w₁, x₂, y₂, w₂, h1, h2, rfl, rfl, rfl⟩
  obtain ⟨hz, rfl⟩ := den_zero h1
  obtain ⟨n, hn, hs⟩ := h _ _ _ h2
  exact ⟨n, (num_zero.append hn).cast rfl (by simp), sayAt_zero hz hs⟩

theorem says_ones (v : W) : Says (digitG ||| G.wt addzero v) 1 1 := says_digit.or (says_addzero 1).wt

theorem says_teen : SaysAny teen 2 := by
  rintro x y w ⟨x₁, y₁, w₁, x₂, y₂, w₂, h1, h2, rfl, rfl, rfl⟩
  obtain ⟨rfl, rfl, rfl⟩ := den_crossS.1 h1
  obtain ⟨n, hn, hs⟩ := says_ones _ _ _ _ h2
  have h1 : Num 1 ['1'] 1 := by
    intro s
    show (Wr.step s '1').bind _ = _
    simp [Wr.step, asciiVal, Wr.run, Nat.mul_comm]
  exact ⟨10 + n, (h1.append hn).cast rfl (by simp), say_teen hs⟩

/-- A digit, a unit and the rest. -/
theorem says_unit {u : Char} {k p : Nat} {r : G}
    (hu : ∀ s : St, s.step u = s.pend.map fun d => { s with sec := s.sec + d * 10 ^ k, pend := none, place := p })
    (h : Says r k p) : SaysAny (digitG + del [u] + r) (1 + k) := by
  rintro x y w hd
  obtain ⟨x₁, y₁, w₁, x₂, y₂, w₂, h1, h2, rfl, rfl, rfl⟩ := hd
  obtain ⟨x', rfl, h1'⟩ := den_add_del.1 h1
  obtain ⟨c, d, rfl, hc, _, hn, _⟩ := den_digit h1'
  obtain ⟨n, hm, hs⟩ := h _ _ _ h2
  exact ⟨d * 10 ^ k + n, hn.append hm, by simpa using say_unit hc hu hs⟩

theorem says_tens : SaysAny tens 2 := by
  rintro x y w hd
  obtain ⟨x₁, y₁, w₁, x₂, y₂, w₂, h1, h2, rfl, rfl, rfl⟩ := hd
  obtain ⟨x', rfl, h1'⟩ := den_add_del.1 h1
  obtain ⟨c, d, rfl, hc, _, hn, _⟩ := den_digit h1'
  obtain ⟨n, hm, hs⟩ := says_ones _ _ _ _ h2
  exact ⟨d * 10 + n, hn.append hm, by simpa using say_tens hc hs⟩

theorem says_hundred : SaysAny hundred 3 :=
  says_unit (k := 2) step_bai (((((says_tens.says 10).or (says_teen.says 10)).or
    ((says_zeroG says_digit).says 10).wt).or says_short1.wt).or (says_zeros 10 2).wt)

theorem says_thousand : SaysAny thousand 4 :=
  says_unit (k := 3) step_qian (((((says_hundred.says 100).or
    ((says_zeroG ((says_tens.says 1).or (says_teen.says 1))).says 100).wt).or
    (((says_zeroG says_digit).addzero).says 100).assoc.wt).or (says_short 2).wt).or (says_zeros 100 3).wt)

theorem says_afterWan : Says afterWan 4 1000 := by
  refine (((((says_thousand.says 1000).or ((says_zeroG (says_hundred.says 1)).says 1000).wt).or
    (Says.wt ?_)).or (Says.wt ?_)).or (says_short 3).wt).or (says_zeros 1000 4).wt
  · exact (((says_zeroG ((says_tens.says 1).or (says_teen.says 1))).addzero).says 1000).assoc
  · intro x y w hd
    refine (says_zeroG says_digit).addzero.addzero.says 1000 x y w ?_
    have h1 := add_assoc_den.1 hd
    exact add_assoc_den.1 h1

/-! ### Below 10^8 -/

/-- `x` says and `y` writes the same number below 亿. -/
def Small (x y : Str) (n : Nat) : Prop :=
  (∀ hi, ∃ s : St, St.run { hi } x = some s ∧ s.hi = hi ∧ s.low = n) ∧
  (∀ hi, ∃ t : Wr, Wr.run { hi } y = some t ∧ t.hi = hi ∧ t.wan + t.cur = n)

theorem small_of {k : Nat} {x y n} (hn : Num k y n) (hs : SayAt 1 x n) : Small x y n := by
  constructor
  · intro hi
    obtain ⟨s, h1, h2, h3, h4⟩ := hs { hi } rfl rfl
    exact ⟨s, h1, h2, by simpa [St.low, h3, Nat.add_assoc] using h4⟩
  · intro hi
    exact ⟨_, hn _, rfl, by simp⟩

/-- What stands before a deleted 万. -/
theorem small_wan {k : Nat} {x y n x' y' n'} (hn : Num k y n) (hs : SayAt 1 x n) (hn' : Num 4 y' n')
    (hs' : SayAt 1000 x' n') : Small (x ++ '万' :: x') (y ++ y') (n * 10000 + n') := by
  constructor
  · intro hi
    obtain ⟨s, h1, h2, h3⟩ := (small_of hn hs).1 hi
    obtain ⟨t, g1, g2, g3, g4⟩ := hs' { hi := s.hi, wan := s.low * 10000, place := 1000 } rfl rfl
    refine ⟨t, ?_, g2.trans h2, ?_⟩
    · rw [run_append, h1, Option.bind_some, St.run, step_wan]; exact g1
    · have e : t.low = s.low * 10000 + (t.sec + t.pend.getD 0 * t.place) := by simp [St.low, g3, Nat.add_assoc]
      rw [e, g4, h3]; simp
  · intro hi
    exact ⟨_, (hn.append hn') _, rfl, by simp⟩

/-- What stands before a kept 万. -/
theorem small_keep {k l : Nat} {x y n x' y' n'} (hn : Num k y n) (hs : SayAt 1 x n) (hn' : Num l y' n')
    (hs' : SayAt 1000 x' n') : Small (x ++ '万' :: x') (y ++ '万' :: y') (n * 10000 + n') := by
  constructor
  · intro hi
    obtain ⟨s, h1, h2, h3⟩ := (small_of hn hs).1 hi
    obtain ⟨t, g1, g2, g3, g4⟩ := hs' { hi := s.hi, wan := s.low * 10000, place := 1000 } rfl rfl
    refine ⟨t, ?_, g2.trans h2, ?_⟩
    · rw [run_append, h1, Option.bind_some, St.run, step_wan]; exact g1
    · have e : t.low = s.low * 10000 + (t.sec + t.pend.getD 0 * t.place) := by simp [St.low, g3, Nat.add_assoc]
      rw [e, g4, h3]; simp
  · intro hi
    refine ⟨{ hi, wan := n * 10000, cur := n' }, ?_, rfl, rfl⟩
    rw [wr_append, hn _, Option.bind_some, Wr.run, show ∀ s : Wr, s.step '万' =
      some { hi := s.hi, wan := (s.wan + s.cur) * 10000 } from fun _ => rfl, Option.bind_some, hn' _]
    simp

theorem den_wan {h t : G} {x y w} (hd : (h + del t!"万" + t).den x y w) :
    ∃ x₁ y₁ w₁ x₂ y₂ w₂, h.den x₁ y₁ w₁ ∧ t.den x₂ y₂ w₂ ∧ x = x₁ ++ '万' :: x₂ ∧ y = y₁ ++ y₂ := by
  obtain ⟨x₁, y₁, w₁, x₂, y₂, w₂, h1, h2, rfl, rfl, rfl⟩ := hd
  obtain ⟨x', rfl, h1'⟩ := den_add_del.1 h1
  exact ⟨_, _, _, _, _, _, h1', h2, by simp, rfl⟩

/-- What can be said before 万. -/
theorem says_before {x y w} (h : (thousand ||| hundred ||| teen ||| tens ||| digitG).den x y w) :
    ∃ k n, Num k y n ∧ SayAt 1 x n := by
  rcases h with (((h | h) | h) | h) | h
  · obtain ⟨n, h1, h2⟩ := says_thousand _ _ _ h; exact ⟨_, n, h1, h2 1⟩
  · obtain ⟨n, h1, h2⟩ := says_hundred _ _ _ h; exact ⟨_, n, h1, h2 1⟩
  · obtain ⟨n, h1, h2⟩ := says_teen _ _ _ h; exact ⟨_, n, h1, h2 1⟩
  · obtain ⟨n, h1, h2⟩ := says_tens _ _ _ h; exact ⟨_, n, h1, h2 1⟩
  · obtain ⟨n, h1, h2⟩ := says_digit _ _ _ h; exact ⟨_, n, h1, h2⟩

/-- The short form that is not understood when 万 is kept. -/
def Short (x : Str) : Prop := ∃ a d, x = a ++ ['万', d] ∧ (digitVal d).isSome

theorem small_tenThousand {m x y w} (h : (tenThousand m).den x y w) :
    (∃ n, Small x y n) ∨ m = false ∧ Short x := by
  cases m with
  | true =>
    obtain ⟨x₁, y₁, w₁, x₂, y₂, w₂, h1, h2, rfl, rfl⟩ := den_wan h
    obtain ⟨k, n, hn, hs⟩ := says_before h1
    obtain ⟨n', hn', hs'⟩ := says_afterWan _ _ _ h2
    exact Or.inl ⟨_, small_wan hn hs hn' hs'⟩
  | false =>
    rcases h with h | h
    · obtain ⟨x₁, y₁, w₁, x₂, y₂, w₂, h1, h2, rfl, rfl⟩ := den_wan h
      obtain ⟨k, n, hn, hs⟩ := says_before (x := x₁) (y := y₁) (w := w₁) (by
        rcases h1 with (h1 | h1) | h1
        · exact Or.inl (Or.inl (Or.inr h1))
        · exact Or.inl (Or.inr h1)
        · exact Or.inr h1)
      obtain ⟨n', hn', hs'⟩ := says_afterWan _ _ _ h2
      exact Or.inl ⟨_, small_wan hn hs hn' hs'⟩
    · obtain ⟨_, _, _, x₄, y₄, w₄, ⟨_, _, _, x₃, y₃, w₃, ⟨x₁, y₁, w₁, x₂, y₂, w₂, h1, ⟨rfl, rfl, rfl⟩, rfl, rfl, rfl⟩,
        h3, rfl, rfl, rfl⟩, h4, rfl, rfl, rfl⟩ := h
      obtain ⟨k, n, hn, hs⟩ := says_before (x := x₁) (y := y₁) (w := w₁) (Or.inl (Or.inl (Or.inl h1)))
      -- what follows 万 and an optional 零
      have key : (∃ l n', Num l y₄ n' ∧ Say x₄ n') ∨ ∃ c d, x₄ = [c] ∧ digitVal c = some d ∧ Num 1 y₄ d := by
        rcases h4 with ⟨rfl, rfl, _⟩ | (((h | h) | h) | h) | h
        · exact Or.inl ⟨0, 0, num_nil, fun p => sayAt_nil p⟩
        · obtain ⟨n, h1, h2⟩ := says_thousand _ _ _ h; exact Or.inl ⟨_, n, h1, h2⟩
        · obtain ⟨n, h1, h2⟩ := says_hundred _ _ _ h; exact Or.inl ⟨_, n, h1, h2⟩
        · obtain ⟨n, h1, h2⟩ := says_tens _ _ _ h; exact Or.inl ⟨_, n, h1, h2⟩
        · obtain ⟨n, h1, h2⟩ := says_teen _ _ _ h; exact Or.inl ⟨_, n, h1, h2⟩
        · rcases h with h | h
          · obtain ⟨hz, rfl⟩ := den_zero h
            have := sayAt_zero hz (sayAt_nil 1)
            rw [List.append_nil] at this
            exact Or.inl ⟨1, 0, num_zero, this⟩
          · obtain ⟨c, d, rfl, hc, _, hn, _⟩ := den_digit h
            exact Or.inr ⟨c, d, rfl, hc, hn⟩
      rcases h3 with ⟨rfl, rfl, rfl⟩ | h3
      · rcases key with ⟨l, n', hn', hs'⟩ | ⟨c, d, rfl, hc, hn'⟩
        · exact Or.inl ⟨n * 10000 + n', by simpa using small_keep hn hs hn' (hs' 1000)⟩
        · exact Or.inr ⟨rfl, x₁, c, by simp, by simp [hc]⟩
      · obtain ⟨rfl, rfl, rfl⟩ := den_del.1 h3
        rcases key with ⟨l, n', hn', hs'⟩ | ⟨c, d, rfl, hc, hn'⟩
        · exact Or.inl ⟨n * 10000 + n', by
            simpa using small_keep hn hs hn' (sayAt_zero (Or.inl rfl) (hs' 1) 1000)⟩
        · have h1 : SayAt 1 [c] d := by simpa using sayAt_digit hc 1
          exact Or.inl ⟨n * 10000 + d, by
            simpa using small_keep hn hs hn' (sayAt_zero (Or.inl rfl) h1 1000)⟩

theorem small_small {m x y w} (h : (small m).den x y w) : (∃ n, Small x y n) ∨ m = false ∧ Short x := by
  rcases h with ((((h | h) | h) | h) | h) | h
  · rcases h with h | h
    · obtain ⟨hz, rfl⟩ := den_zero h
      have := sayAt_zero hz (sayAt_nil 1)
      rw [List.append_nil] at this
      exact Or.inl ⟨0, small_of num_zero (this 1)⟩
    · obtain ⟨n, h1, h2⟩ := says_digit _ _ _ h; exact Or.inl ⟨n, small_of h1 h2⟩
  · obtain ⟨n, h1, h2⟩ := says_teen _ _ _ h; exact Or.inl ⟨n, small_of h1 (h2 1)⟩
  · obtain ⟨n, h1, h2⟩ := says_tens _ _ _ h; exact Or.inl ⟨n, small_of h1 (h2 1)⟩
  · obtain ⟨n, h1, h2⟩ := says_hundred _ _ _ h; exact Or.inl ⟨n, small_of h1 (h2 1)⟩
  · obtain ⟨n, h1, h2⟩ := says_thousand _ _ _ h; exact Or.inl ⟨n, small_of h1 (h2 1)⟩
  · exact small_tenThousand h

/-! ### All integers -/

/-- `x` says and `y` writes the same number, whatever is closed before. -/
def Whole (x y : Str) (n : Nat) : Prop :=
  ∀ hi, (∃ s : St, St.run { hi } x = some s ∧ s.hi + s.low = hi + n) ∧
    (∃ t : Wr, Wr.run { hi } y = some t ∧ t.hi + t.wan + t.cur = hi + n)

theorem Small.whole {x y n} (h : Small x y n) : Whole x y n := fun hi => by
  obtain ⟨s, h1, h2, h3⟩ := h.1 hi
  obtain ⟨t, g1, g2, g3⟩ := h.2 hi
  exact ⟨⟨s, h1, by omega⟩, ⟨t, g1, by omega⟩⟩

theorem Small.unit {x y n} (h : Small x y n) {u : Char} {v : Nat}
    (hu : ∀ s : St, s.step u = some { hi := s.hi + s.low * v })
    (hw : ∀ s : Wr, s.step u = some { hi := s.hi + (s.wan + s.cur) * v })
    {z : Str} (hz : z = [] ∨ z = ['零']) {x' y' n'} (h' : Whole x' y' n') :
    Whole (x ++ u :: (z ++ x')) (y ++ u :: y') (n * v + n') := fun hi => by
  obtain ⟨s, h1, h2, h3⟩ := h.1 hi
  obtain ⟨t, g1, g2, g3⟩ := h.2 hi
  obtain ⟨⟨s', h1', h2'⟩, _⟩ := h' (s.hi + s.low * v)
  obtain ⟨_, ⟨t', g1', g2'⟩⟩ := h' (t.hi + (t.wan + t.cur) * v)
  have hz' : ∀ hi : Nat, St.run { hi } z = some { hi } := by
    intro hi
    rcases hz with rfl | rfl
    · rfl
    · exact step_zero (Or.inl rfl) _ rfl
  refine ⟨⟨s', ?_, ?_⟩, ⟨t', ?_, ?_⟩⟩
  · rw [run_append, h1, Option.bind_some, St.run, hu, Option.bind_some, run_append, hz']
    exact h1'
  · rw [h2', h2, h3, Nat.add_assoc]
  · rw [wr_append, g1, Option.bind_some, Wr.run, hw]
    exact g1'
  · rw [g2', g2, g3, Nat.add_assoc]

theorem Short.after {x : Str} (h : Short x) {t : Str} (ht : ∀ u ∈ t.head?, u ∉ ['十', '百', '千']) :
    ShortAfterWan (x ++ t) := by
  obtain ⟨a, d, rfl, hd⟩ := h
  exact ⟨a, d, t, by simp, hd, ht⟩

theorem short_prepend {x : Str} (h : ShortAfterWan x) (u : Str) : ShortAfterWan (u ++ x) := by
  obtain ⟨a, d, t, rfl, hd, ht⟩ := h
  exact ⟨u ++ a, d, t, by simp, hd, ht⟩

theorem whole_part {m : Bool} {u : Char} {v : Nat}
    (hu : ∀ s : St, s.step u = some { hi := s.hi + s.low * v })
    (hw : ∀ s : Wr, s.step u = some { hi := s.hi + (s.wan + s.cur) * v }) (hu' : u ∉ ['十', '百', '千'])
    {r : G} (hr : ∀ x y w, r.den x y w → (∃ n, Whole x y n) ∨ m = false ∧ ShortAfterWan x)
    {x y w} (h : ((small m + .lit [u] + rmzero).ques + r).den x y w) :
    (∃ n, Whole x y n) ∨ m = false ∧ ShortAfterWan x := by
  obtain ⟨x₁, y₁, w₁, x₂, y₂, w₂, h1, h2, rfl, rfl, rfl⟩ := h
  rcases h1 with ⟨rfl, rfl, rfl⟩ | h1
  · exact hr _ _ _ h2
  · obtain ⟨_, _, _, x₄, y₄, w₄, ⟨x₃, y₃, w₃, _, _, _, h3, ⟨rfl, rfl, rfl⟩, rfl, rfl, rfl⟩, h4, rfl, rfl, rfl⟩ := h1
    have hz : (x₄ = [] ∨ x₄ = ['零']) ∧ y₄ = [] := by
      rcases h4 with ⟨rfl, rfl, _⟩ | h4
      · exact ⟨Or.inl rfl, rfl⟩
      · obtain ⟨rfl, rfl, _⟩ := den_del.1 h4; exact ⟨Or.inr rfl, rfl⟩
    obtain ⟨hz, rfl⟩ := hz
    rcases small_small h3 with ⟨n, hn⟩ | ⟨hm, hs⟩
    · rcases hr _ _ _ h2 with ⟨n', hn'⟩ | ⟨hm, hs⟩
      · exact Or.inl ⟨n * v + n', by simpa using hn.unit hu hw hz hn'⟩
      · exact Or.inr ⟨hm, short_prepend hs _⟩
    · refine Or.inr ⟨hm, ?_⟩
      have := hs.after (t := u :: (x₄ ++ x₂)) (by simpa using hu')
      simpa using this

theorem whole_integer {m x y w} (h : (integer m).den x y w) :
    (∃ n, Whole x y n) ∨ m = false ∧ ShortAfterWan x := by
  refine whole_part (u := '兆') step_zhao (fun _ => rfl) (by decide)
    (r := (small m + .lit t!"亿" + rmzero).ques + small m) ?_ (add_assoc_den.1 h)
  intro x y w h
  refine whole_part (u := '亿') step_yi (fun _ => rfl) (by decide) (r := small m) ?_ h
  intro x y w h
  rcases small_small h with ⟨n, hn⟩ | ⟨hm, hs⟩
  · exact Or.inl ⟨n, hn.whole⟩
  · exact Or.inr ⟨hm, by simpa using hs.after (t := []) (by simp)⟩

theorem Whole.values {x y n} (h : Whole x y n) : spoken x = some n ∧ written y = some n := by
  obtain ⟨⟨s, h1, h2⟩, ⟨t, g1, g2⟩⟩ := h 0
  rw [spoken, written, h1, g1]
  simp [h2, g2]

end Verif.ZhItn
