import Verif.ZhTn.Signed

/-
Written and spoken decimals determine the number, and the grammar relates them.
-/

namespace Verif.ZhTn

open Verif.Wfst Spec

/-! ### Characters of numerals -/

/-- The characters a numeral is made of. -/
def numeralChars : List Char :=
  ['零', '十', '百', '千', '万', '亿', '一', '二', '两', '三', '四', '五', '六', '七', '八', '九']

theorem step_char {s s' : St} {c : Char} (h : s.step c = some s') : c ∈ numeralChars := by
  have key : (spokenVal c).isSome → c ∈ numeralChars := by
    intro h
    obtain ⟨d, hd⟩ := Option.isSome_iff_exists.1 h
    obtain ⟨l₁, l₂, he, _⟩ := List.lookup_eq_some_iff.1 hd
    have : ∀ e ∈ spokenTable, e.1 ∈ numeralChars := by decide
    exact this (c, d) (by rw [he]; simp)
  unfold St.step at h
  split at h
  · rename_i e; subst e; decide
  split at h
  · rename_i e; subst e; decide
  split at h
  · rename_i e; subst e; decide
  split at h
  · rename_i e; subst e; decide
  split at h
  · rename_i e; subst e; decide
  split at h
  · rename_i e; subst e; decide
  · apply key
    cases hv : spokenVal c with
    | none => rw [hv] at h; cases h
    | some d => rfl

theorem run_chars {s s' : St} {y : Str} (h : s.run y = some s') : ∀ c ∈ y, c ∈ numeralChars := by
  induction y generalizing s with
  | nil => simp
  | cons c y ih =>
    rw [St.run] at h
    cases hs : s.step c with
    | none => rw [hs] at h; cases h
    | some t =>
      rw [hs] at h
      intro d hd
      rcases List.mem_cons.1 hd with rfl | hd
      · exact step_char hs
      · exact ih h d hd

theorem value_chars {y : Str} {n : Nat} (h : value y = some n) : y ≠ [] ∧ ∀ c ∈ y, c ∈ numeralChars := by
  unfold value at h
  split at h
  · rename_i e; subst e; decide
  · cases hr : St.run {} y with
    | none => rw [hr] at h; cases h
    | some t =>
      refine ⟨?_, run_chars hr⟩
      rintro rfl
      cases hr; cases h

/-! ### What is written determines the number -/

theorem vals_frac_unique {z z' : Str} {f f' : List Nat} (h : z.map digitVal = f.map some)
    (h' : z'.map digitVal = f'.map some)
    (e : (if f = [] then [] else '.' :: z) = (if f' = [] then [] else '.' :: z')) : f = f' := by
  by_cases hf : f = [] <;> by_cases hf' : f' = []
  · rw [hf, hf']
  · simp [hf, hf'] at e
  · simp [hf, hf'] at e
  · simp only [hf, hf', if_false, List.cons.injEq, true_and] at e
    subst e
    exact Vals.unique h h'

theorem written_head (s : Sign) : ∀ c ∈ s.written, digitVal c = none := by
  cases s <;> decide

theorem mem_sign (s : Sign) : (s.written, s.spoken) ∈ (([], []) :: sign : List (Str × Str)) := by
  cases s <;> decide

theorem of_mem_sign {s s' : Str} (h : (s, s') ∈ (([], []) :: sign : List (Str × Str))) :
    ∃ t : Sign, s = t.written ∧ s' = t.spoken := by
  simp only [sign, List.mem_cons, Prod.mk.injEq, List.not_mem_nil, or_false] at h
  rcases h with ⟨rfl, rfl⟩ | ⟨rfl, rfl⟩ | ⟨rfl, rfl⟩ | ⟨rfl, rfl⟩
  · exact ⟨.none, rfl, rfl⟩
  · exact ⟨.plus, rfl, rfl⟩
  · exact ⟨.plusMinus, rfl, rfl⟩
  · exact ⟨.minus, rfl, rfl⟩

theorem dot_head (f : List Nat) (z : Str) : ∀ c ∈ (if f = [] then [] else '.' :: z : Str).head?, digitVal c = none := by
  intro c hc
  by_cases hf : f = []
  · simp [hf] at hc
  · simp only [hf, if_false, List.head?_cons, Option.mem_def, Option.some.injEq] at hc
    subst hc; decide

/-- A text writes at most one number. -/
theorem _root_.Verif.ZhTn.Spec.Writes.unique {x : Str} {n m : Dec} (h : Writes x n) (h' : Writes x m) : n = m := by
  obtain ⟨i, z, hi0, hi, hn, hz, rfl⟩ := h
  obtain ⟨j, z', hj0, hj, hm, hz', e⟩ := h'
  have d1 := digits_head (t := if n.frac = [] then [] else '.' :: z) hi hi0
  have d2 := digits_head (t := if m.frac = [] then [] else '.' :: z') hj hj0
  obtain ⟨hs, _, hr⟩ := sign_unique (mem_sign n.sign) (mem_sign m.sign) d1.1 d1.2 d2.1 d2.2 e
  have hs : n.sign = m.sign := by
    revert hs
    cases n.sign <;> cases m.sign <;> simp [Sign.written]
  have hij : i = j := by
    rw [← takeWhile_digits hi (dot_head n.frac z), hr, takeWhile_digits hj (dot_head m.frac z')]
  subst hij
  have hf := vals_frac_unique hz hz' (List.append_cancel_left hr)
  cases n; cases m
  simp only at hs hn hm hf
  rw [hs, ← hn, ← hm, hf]

/-! ### What is spoken determines the number -/

theorem takeWhile_numeral {r t : Str} (hr : ∀ c ∈ r, c ∈ numeralChars) (ht : ∀ c ∈ t.head?, c ∉ numeralChars) :
    (r ++ t).takeWhile (fun c => decide (c ∈ numeralChars)) = r := by
  induction r with
  | nil =>
    cases t with
    | nil => rfl
    | cons c t => simp [List.takeWhile, ht c (by simp)]
  | cons c x ih =>
    rw [List.cons_append, List.takeWhile_cons_of_pos (p := fun c => decide (c ∈ numeralChars))
      (decide_eq_true (hr c (by simp))), ih fun d hd => hr d (by simp [hd])]

theorem spoken_unique {s t : Sign} {u v : Str} (hu : ∀ c ∈ u.head?, c ∈ numeralChars) (hu0 : u ≠ [])
    (hv : ∀ c ∈ v.head?, c ∈ numeralChars) (hv0 : v ≠ []) (e : s.spoken ++ u = t.spoken ++ v) :
    s = t ∧ u = v := by
  match u, v, hu, hv, hu0, hv0, e with
  | c :: u, d :: v, hu, hv, _, _, e =>
    have hc := hu c (by simp)
    have hd := hv d (by simp)
    have key : ∀ c ∈ numeralChars, c ≠ '正' ∧ c ≠ '负' ∧ '正' ≠ c ∧ '负' ≠ c := by decide
    have hc := key c hc
    have hd := key d hd
    cases s <;> cases t <;> simp only [Sign.spoken, List.nil_append, List.cons_append, List.cons.injEq] at e <;>
      simp_all

theorem dian_head (f : List Nat) (z : Str) :
    ∀ c ∈ (if f = [] then [] else '点' :: z : Str).head?, c ∉ numeralChars := by
  intro c hc
  by_cases hf : f = []
  · simp [hf] at hc
  · simp only [hf, if_false, List.head?_cons, Option.mem_def, Option.some.injEq] at hc
    subst hc; decide

theorem map_some_unique {z : Str} {f f' : List Nat} {g : Char → Option Nat} (h : z.map g = f.map some)
    (h' : z.map g = f'.map some) : f = f' :=
  List.map_injective_iff.2 (fun _ _ h => Option.some.inj h) (h.symm.trans h')

/-- A text is a spoken form of at most one number. -/
theorem _root_.Verif.ZhTn.Spec.Says.unique {y : Str} {n m : Dec} (h : Says y n) (h' : Says y m) : n = m := by
  obtain ⟨r, z, hn, hz, rfl⟩ := h
  obtain ⟨r', z', hm, hz', e⟩ := h'
  obtain ⟨hr0, hr⟩ := value_chars hn
  obtain ⟨hr0', hr'⟩ := value_chars hm
  have hd : ∀ {r t : Str}, r ≠ [] → (∀ c ∈ r, c ∈ numeralChars) →
      (∀ c ∈ (r ++ t).head?, c ∈ numeralChars) ∧ r ++ t ≠ [] := by
    intro r t h0 h
    cases r with
    | nil => exact absurd rfl h0
    | cons c r =>
      refine ⟨?_, by simp⟩
      simp only [List.cons_append, List.head?_cons, Option.mem_def, Option.some.injEq]
      rintro d rfl; exact h _ (by simp)
  have d1 := hd (t := if n.frac = [] then [] else '点' :: z) hr0 hr
  have d2 := hd (t := if m.frac = [] then [] else '点' :: z') hr0' hr'
  obtain ⟨hs, hrest⟩ := spoken_unique d1.1 d1.2 d2.1 d2.2 e
  have hrr : r = r' := by
    rw [← takeWhile_numeral hr (dian_head n.frac z), hrest, takeWhile_numeral hr' (dian_head m.frac z')]
  subst hrr
  have e := List.append_cancel_left hrest
  have hf : n.frac = m.frac := by
    by_cases hf : n.frac = [] <;> by_cases hf' : m.frac = []
    · rw [hf, hf']
    · simp [hf, hf'] at e
    · simp [hf, hf'] at e
    · simp only [hf, hf', if_false, List.cons.injEq, true_and] at e
      subst e
      exact map_some_unique hz hz'
  have hi : n.int = m.int := Option.some.inj (hn.symm.trans hm)
  cases n; cases m
  simp only at hs hi hf
  rw [hs, hi, hf]

/-! ### The reading -/

theorem syllable_num {d : Nat} (h : d < 10) : syllableVal (num d) = some d := by
  interval_cases d <;> rfl

theorem syllables {f : List Nat} (h : ∀ d ∈ f, d < 10) : (f.map num).map syllableVal = f.map some := by
  rw [List.map_map]
  exact List.map_congr_left fun d hd => syllable_num (h d hd)

theorem liangF_ne {y : Str} (h : y ≠ []) : liangF y ≠ [] := by
  unfold liangF; split
  · simp
  · exact h

theorem value_liangF (y : Str) : value (liangF y) = value y := by
  unfold liangF
  split
  · rename_i c t _
    split
    · unfold value
      rw [if_neg (by simp), if_neg (by simp)]
      rfl
    · rfl
  · rfl

/-- Only the first two characters matter. -/
theorem liangF_append {y t : Str} (h : y ≠ []) (ht : ∀ c ∈ t.head?, c ∉ numeralChars) :
    liangF (y ++ t) = liangF y ++ t := by
  match y, h with
  | [a], _ =>
    cases t with
    | nil => rw [List.append_nil, List.append_nil]
    | cons c t =>
      have hc : c ∉ ['百', '千', '万', '亿'] := by
        intro hc
        have := ht c (by simp)
        revert hc this; unfold numeralChars; simp; tauto
      by_cases ha : a = '二'
      · subst ha
        show liangF ('二' :: c :: t) = _
        simp only [liangF, if_neg hc, List.cons_append, List.nil_append]
      · have h1 : ∀ t, liangF (a :: t) = a :: t := by
          intro t; unfold liangF; split
          · rename_i h; exact absurd (List.cons.inj h).1 ha
          · rfl
        rw [List.cons_append, h1, h1]; rfl
  | a :: b :: y, _ =>
    by_cases ha : a = '二'
    · subst ha; rfl
    · have h1 : ∀ t, liangF (a :: t) = a :: t := by
        intro t; unfold liangF; split
        · rename_i h; exact absurd (List.cons.inj h).1 ha
        · rfl
      rw [List.cons_append, h1, h1]; rfl

theorem liangF_spoken {s : Sign} (h : s ≠ .none) (t : Str) : liangF (s.spoken ++ t) = s.spoken ++ t := by
  cases s
  · exact absurd rfl h
  all_goals (unfold liangF; rfl)

theorem SayInt.numeral {ds : List Nat} {y : Str} (h : SayInt ds y) (hd : ∀ d ∈ ds, d < 10) :
    y ≠ [] ∧ ∀ c ∈ y, c ∈ numeralChars := value_chars (h.value hd)

/-- The spoken form of a number with its digits. -/
theorem SayNum.says {x m : Str} (n : SayNum x m) : ∃ d : Dec, Writes x d ∧ Says (liangF m) d := by
  obtain ⟨t, hs, hs'⟩ := of_mem_sign n.sign
  have hi := n.int
  have hv := hi.value n.vals.lt
  have hnum := hi.numeral n.vals.lt
  have hm : ∀ {yf : Str}, n.yf = yf → (∀ c ∈ yf.head?, c ∉ numeralChars) →
      ∃ r, value r = some (natOf n.xi) ∧ liangF m = t.spoken ++ (r ++ yf) := by
    intro yf e hyf
    have hm := n.hy
    rw [hs', e] at hm
    rw [n.vals.natOf]
    by_cases ht : t = .none
    · subst ht
      refine ⟨liangF n.yi, (value_liangF _).trans hv, ?_⟩
      have : liangF m = liangF (n.yi ++ yf) := congrArg liangF hm
      rw [this, liangF_append hnum.1 hyf]; rfl
    · refine ⟨n.yi, hv, ?_⟩
      have : liangF m = _ := congrArg liangF hm
      rw [this, liangF_spoken ht]
  rcases n.frac with ⟨hxf, hyf⟩ | ⟨z, es, hes, hz, hxf, hyf⟩
  · obtain ⟨r, hr, hl⟩ := hm hyf (by simp)
    exact ⟨⟨t, natOf n.xi, []⟩, ⟨n.xi, [], n.xi_ne, n.vals.digits, rfl, rfl, n.hx.trans (by rw [hs, hxf]; rfl)⟩,
      ⟨r, [], hr, rfl, hl.trans rfl⟩⟩
  · obtain ⟨r, hr, hl⟩ := hm hyf (by
      simp only [List.head?_cons, Option.mem_def, Option.some.injEq]
      rintro c rfl; decide)
    exact ⟨⟨t, natOf n.xi, es⟩,
      ⟨n.xi, z, n.xi_ne, n.vals.digits, rfl, hz, n.hx.trans (by rw [hs, hxf, if_neg hes])⟩,
      ⟨r, es.map num, hr, syllables hz.lt, hl.trans (by rw [if_neg hes])⟩⟩

theorem VText.append {u v : Str} (h : VText u) (h' : VText v) : VText (u ++ v) := by
  intro c hc
  rcases List.mem_append.1 hc with hc | hc
  · exact h c hc
  · exact h' c hc

theorem vtext_num (f : List Nat) : VText (f.map num) := by
  intro c hc
  obtain ⟨d, _, rfl⟩ := List.mem_map.1 hc
  unfold num; split <;> decide

theorem SayNum.vtext {x m : Str} (n : SayNum x m) : VText m := by
  obtain ⟨t, hs, hs'⟩ := of_mem_sign n.sign
  have hm := n.hy
  rw [hm]
  refine VText.append ?_ (VText.append ?_ ?_)
  · rw [hs']; cases t <;> decide
  · have : ∀ c ∈ numeralChars, vchar c = true := by decide
    exact fun c hc => this c ((n.int.numeral n.vals.lt).2 c hc)
  · rcases n.frac with ⟨_, hyf⟩ | ⟨z, es, _, _, _, hyf⟩
    · rw [hyf]; simp [VText]
    · rw [hyf]
      exact VText.append (u := ['点']) (by decide) (vtext_num es)

/-- The digits of a text. -/
theorem readable_int {x : Str} (h : Digits x) (h1 : 1 ≤ x.length) (h12 : x.length ≤ 12)
    (h0 : x.length = 1 ∨ digitVal (x.headD '0') ≠ some 0) : ∃ ds y, Vals x ds ∧ SayInt ds y := by
  obtain ⟨ds, hv⟩ := ZhTn.Digits.vals h
  have hl := hv.length
  obtain ⟨y, hy⟩ := sayInt_exists (ds := ds) ⟨hl ▸ h1, hl ▸ h12, by
    rcases h0 with h0 | h0
    · exact Or.inl (hl ▸ h0)
    · refine Or.inr fun e => h0 ?_
      cases x with
      | nil => simp at h1
      | cons c x =>
        cases ds with
        | nil => simp at hl
        | cons d ds =>
          have : digitVal c = some d := (List.cons.inj hv).1
          simp only [List.headD_cons] at e ⊢
          rw [this, e]⟩
  exact ⟨ds, y, hv, hy⟩

theorem SayNum.readable {x m : Str} (n : SayNum x m) : 1 ≤ n.xi.length ∧ n.xi.length ≤ 12 ∧
    (n.xi.length = 1 ∨ digitVal (n.xi.headD '0') ≠ some 0) := by
  obtain ⟨h1, h12, h0⟩ := n.int.digits
  have hl := n.vals.length
  refine ⟨hl ▸ h1, hl ▸ h12, ?_⟩
  rcases h0 with h0 | h0
  · exact Or.inl (hl ▸ h0)
  · refine Or.inr fun e => h0 ?_
    have hv := n.vals
    revert hv e h1 hl
    generalize n.xi = x
    generalize n.ds = ds
    intro h1 hl e hv
    cases ds with
    | nil => simp at h1
    | cons d ds =>
      cases x with
      | nil => simp at hl
      | cons c x =>
        have : digitVal c = some d := (List.cons.inj hv).1
        simp only [List.headD_cons] at e ⊢
        rw [this] at e; exact Option.some.inj e

/-! ### Percentages and prefixes -/

theorem den_percent {x y w} : percent.den x y w ↔
    ∃ x₀ y₀, plainNumber.den x₀ y₀ w ∧ x = x₀ ++ ['%'] ∧ y = t!"百分之" ++ y₀ := by
  unfold percent
  constructor
  · rintro ⟨x₁, y₁, w₁, x₂, y₂, w₂, h1, h2, rfl, rfl, rfl⟩
    obtain ⟨y₀, rfl, h⟩ := den_insert_add.1 h1
    obtain ⟨rfl, rfl, rfl⟩ := den_del.1 h2
    exact ⟨x₁, y₀, by rwa [add_zero], rfl, by simp⟩
  · rintro ⟨x₀, y₀, h, rfl, rfl⟩
    exact ⟨x₀, _, w, ['%'], [], 0, den_insert_add.2 ⟨y₀, rfl, h⟩, den_del.2 ⟨rfl, rfl, rfl⟩, rfl, by simp, by simp⟩

theorem percent_functional : Functional percent := by
  intro x y w y' w' h h'
  obtain ⟨x₀, y₀, hp, rfl, rfl⟩ := den_percent.1 h
  obtain ⟨x₁, y₁, hp', e, rfl⟩ := den_percent.1 h'
  rw [← List.append_cancel_right e] at hp'
  obtain ⟨rfl, rfl⟩ := plainNumber_functional hp hp'
  exact ⟨rfl, rfl⟩

/-- A number ends in a digit. -/
theorem SayNum.last {x m : Str} (n : SayNum x m) : ∃ c ∈ x.getLast?, (digitVal c).isSome := by
  have key : ∀ {z : Str} {es : List Nat}, Vals z es → z ≠ [] → ∀ u, ∃ c ∈ (u ++ z).getLast?, (digitVal c).isSome := by
    intro z es hz h0 u
    refine ⟨z.getLast h0, ?_, hz.digits _ (List.getLast_mem h0)⟩
    rw [Option.mem_def, List.getLast?_append, List.getLast?_eq_some_getLast h0]; rfl
  have hx := n.hx
  rcases n.frac with ⟨hxf, _⟩ | ⟨z, es, hes, hz, hxf, _⟩
  · rw [hx, hxf, List.append_nil]
    exact key n.vals n.xi_ne _
  · rw [hx, hxf]
    have : n.s ++ (n.xi ++ '.' :: z) = (n.s ++ (n.xi ++ ['.'])) ++ z := by simp
    rw [this]
    refine key hz ?_ _
    rintro rfl
    have := hz.length
    exact hes (List.length_eq_zero_iff.1 this.symm)

theorem plain_percent {x y w y' w'} (h : plainNumber.den x y w) (h' : percent.den x y' w') : False := by
  obtain ⟨⟨m, ⟨n⟩, _, _⟩, _⟩ := den_plainNumber.1 h
  obtain ⟨c, hc, hd⟩ := n.last
  obtain ⟨x₀, _, _, rfl, _⟩ := den_percent.1 h'
  rw [List.getLast?_append] at hc
  simp at hc
  subst hc
  revert hd; decide

/-- A number begins with a sign or a digit. -/
theorem SayNum.first {x m : Str} (n : SayNum x m) :
    ∃ c ∈ x.head?, (digitVal c).isSome ∨ c ∈ ['+', '-', '±'] := by
  obtain ⟨t, hs, _⟩ := of_mem_sign n.sign
  have hx := n.hx
  rw [hs] at hx
  rw [hx]
  have hd := digits_head (t := n.xf) n.vals.digits n.xi_ne
  cases t with
  | none =>
    show ∃ c ∈ (n.xi ++ n.xf).head?, _
    match hl : n.xi ++ n.xf, hd with
    | [], hd => exact absurd rfl hd.2
    | c :: l, hd => exact ⟨c, rfl, Or.inl (hd.1 c rfl)⟩
  | plus => exact ⟨'+', rfl, Or.inr (by decide)⟩
  | minus => exact ⟨'-', rfl, Or.inr (by decide)⟩
  | plusMinus => exact ⟨'±', rfl, Or.inr (by decide)⟩

/-- A number or percentage without prefix. -/
def bare : G := plainNumber ||| percent

theorem bare_functional : Functional bare := by
  rintro x y w y' w' (h | h) (h' | h')
  · exact plainNumber_functional h h'
  · exact (plain_percent h h').elim
  · exact (plain_percent h' h).elim
  · exact percent_functional h h'

theorem bare_first {x y w} (h : bare.den x y w) :
    ∃ c t, x = c :: t ∧ ((digitVal c).isSome ∨ c ∈ ['+', '-', '±']) := by
  have key : ∀ {x y w}, plainNumber.den x y w →
      ∃ c t, x = c :: t ∧ ((digitVal c).isSome ∨ c ∈ ['+', '-', '±']) := by
    intro x y w h
    obtain ⟨⟨m, ⟨n⟩, _, _⟩, _⟩ := den_plainNumber.1 h
    obtain ⟨c, hc, hd⟩ := n.first
    exact ⟨c, x.tail, (List.cons_head?_tail hc).symm, hd⟩
  rcases h with h | h
  · exact key h
  · obtain ⟨x₀, _, hp, rfl, _⟩ := den_percent.1 h
    obtain ⟨c, t, rfl, hc⟩ := key hp
    exact ⟨c, t ++ ['%'], rfl, hc⟩

/-- The prefixes of a number. -/
def prefixes : List Str := [[], t!"约", t!"人均", t!"约人均"]

theorem den_number {x y w} : number.den x y w ↔
    ∃ p ∈ prefixes, ∃ x₀ y₀, bare.den x₀ y₀ w ∧ x = p ++ x₀ ∧ y = p ++ y₀ := by
  unfold number
  constructor
  · rintro ⟨x₁, y₁, w₁, x₂, y₂, w₂, ⟨x₃, y₃, w₃, x₄, y₄, w₄, h1, h2, rfl, rfl, rfl⟩, h3, rfl, rfl, rfl⟩
    have h3 : bare.den x₂ y₂ w₂ := h3
    have z : ∀ w : W, 0 + 0 + w = w := by intro w; simp
    rcases h1 with ⟨rfl, rfl, rfl⟩ | ⟨rfl, rfl, rfl⟩ <;> rcases h2 with ⟨rfl, rfl, rfl⟩ | ⟨rfl, rfl, rfl⟩
    · exact ⟨[], by decide, x₂, y₂, by rw [z]; exact h3, rfl, rfl⟩
    · exact ⟨t!"人均", by decide, x₂, y₂, by rw [z]; exact h3, rfl, rfl⟩
    · exact ⟨t!"约", by decide, x₂, y₂, by rw [z]; exact h3, rfl, rfl⟩
    · exact ⟨t!"约人均", by decide, x₂, y₂, by rw [z]; exact h3, rfl, rfl⟩
  · rintro ⟨p, hp, x₀, y₀, h, rfl, rfl⟩
    have e : ∀ w : W, 0 + 0 + w = w := by intro w; simp
    have h00 : ∀ a b : G, (a.ques + b.ques).den [] [] (0 + 0) := fun a b =>
      G.den.cat (x := []) (y := []) (Or.inl ⟨rfl, rfl, rfl⟩) (Or.inl ⟨rfl, rfl, rfl⟩)
    rw [← e w]
    simp only [prefixes, List.mem_cons, List.not_mem_nil, or_false] at hp
    rcases hp with rfl | rfl | rfl | rfl
    · exact G.den.cat (h00 _ _) h
    · exact G.den.cat (G.den.cat (x := ['约']) (y := ['约']) (x' := []) (y' := [])
        (Or.inr ⟨rfl, rfl, rfl⟩) (Or.inl ⟨rfl, rfl, rfl⟩)) h
    · exact G.den.cat (G.den.cat (x := []) (y := []) (x' := ['人', '均']) (y' := ['人', '均'])
        (Or.inl ⟨rfl, rfl, rfl⟩) (Or.inr ⟨rfl, rfl, rfl⟩)) h
    · exact G.den.cat (G.den.cat (x := ['约']) (y := ['约']) (x' := ['人', '均']) (y' := ['人', '均'])
        (Or.inr ⟨rfl, rfl, rfl⟩) (Or.inr ⟨rfl, rfl, rfl⟩)) h

theorem number_functional : Functional number := by
  intro x y w y' w' h h'
  obtain ⟨p, hp, x₀, y₀, hb, rfl, rfl⟩ := den_number.1 h
  obtain ⟨q, hq, x₁, y₁, hb', e, rfl⟩ := den_number.1 h'
  obtain ⟨c, t, rfl, hc⟩ := bare_first hb
  obtain ⟨d, t', rfl, hd⟩ := bare_first hb'
  have hn : ∀ c, ((digitVal c).isSome ∨ c ∈ ['+', '-', '±']) →
      c ≠ '约' ∧ c ≠ '人' ∧ '约' ≠ c ∧ '人' ≠ c := by
    intro c hc
    refine ⟨?_, ?_, ?_, ?_⟩ <;> (rintro rfl; revert hc; decide)
  have hc := hn c hc
  have hd := hn d hd
  have key : p = q := by
    simp only [prefixes, List.mem_cons, List.not_mem_nil, or_false] at hp hq
    rcases hp with rfl | rfl | rfl | rfl <;> rcases hq with rfl | rfl | rfl | rfl <;> first
      | rfl
      | (exfalso; simp at e <;> simp_all)
  subst key
  rw [← List.append_cancel_left e] at hb'
  obtain ⟨rfl, rfl⟩ := bare_functional hb hb'
  exact ⟨rfl, rfl⟩

end Verif.ZhTn
