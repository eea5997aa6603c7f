import Verif.JaTn.Number

/-
The integers of the Japanese number grammar have the names of the specification.
-/

namespace Verif.JaTn

open Verif.Wfst Spec

/-! ### Where commas may stand -/

def maskOf (marks : List Nat) : Nat → List Bool
  | 0 => []
  | n + 1 => decide (n + 1 ∈ marks) :: maskOf marks n

theorem puts_iff {marks : List Nat} {x : Str} {ds : List Nat} :
    Puts marks x ds ↔ Commas (maskOf marks ds.length) x ds := by
  constructor
  · intro h
    induction h with
    | nil => exact .nil
    | digit hc _ ih => exact .digit hc ih
    | comma hm hc _ ih =>
      rw [List.length_cons, maskOf, decide_eq_true hm]
      exact .comma hc ih
  · induction ds generalizing x with
    | nil => intro h; cases h; exact .nil
    | cons d ds ih =>
      intro h
      simp only [List.length_cons, maskOf] at h
      by_cases hm : ds.length + 1 ∈ marks
      · rw [decide_eq_true hm] at h
        cases h with
        | digit hc h => exact .digit hc (ih h)
        | comma hc h => exact .comma hm hc (ih h)
      · rw [decide_eq_false hm] at h
        cases h with
        | digit hc h => exact .digit hc (ih h)

theorem digitVal_comma : digitVal ',' = none := by decide

theorem commas_first {b : Bool} {m : List Bool} {x : Str} {ds : List Nat} :
    Commas (b :: m) x ds ∧ x.head? ≠ some ',' ↔ Commas (false :: m) x ds := by
  constructor
  · rintro ⟨h, h'⟩
    cases h with
    | digit hc h => exact .digit hc h
    | comma hc h => exact absurd rfl h'
  · intro h
    cases h with
    | digit hc h =>
      refine ⟨.digit hc h, ?_⟩
      intro e
      simp only [List.head?_cons, Option.some.injEq] at e
      rw [e, digitVal_comma] at hc
      cases hc

/-- The places of commas in a number of `k + 1` digits. -/
def mask (k : Nat) : List Bool := false :: maskOf [3, 6, 10] k

theorem writes_iff {x : Str} {ds : List Nat} {k : Nat} (hk : ds.length = k + 1) :
    Writes x ds ↔ Commas (mask k) x ds := by
  unfold Writes
  rw [puts_iff, hk]
  exact commas_first

theorem Commas.small {m : List Bool} {x : Str} {ds : List Nat} (h : Commas m x ds) : ∀ d ∈ ds, d < 10 := by
  have key : ∀ e ∈ digitTable, e.2 < 10 := by decide
  have one : ∀ {c d}, digitVal c = some d → d < 10 := by
    intro c d hc
    obtain ⟨l₁, l₂, h, _⟩ := List.lookup_eq_some_iff.1 hc
    exact key (c, d) (by rw [h]; simp)
  induction h with
  | nil => simp
  | digit hc _ ih => simpa using ⟨one hc, ih⟩
  | comma hc _ ih => simpa using ⟨one hc, ih⟩

/-! ### Names -/

theorem below_say4 {a b c d : Nat} (ha : a < 10) (hb : b < 10) (hc : c < 10) (hd : d < 10) :
    below false (1000 * a + 100 * b + 10 * c + d) = say4 a b c d ∧
    below true (1000 * a + 100 * b + 10 * c + d) = say4' a b c d := by
  have e1 : (1000 * a + 100 * b + 10 * c + d) / 1000 = a := by omega
  have e2 : (1000 * a + 100 * b + 10 * c + d) / 100 % 10 = b := by omega
  have e3 : (1000 * a + 100 * b + 10 * c + d) / 10 % 10 = c := by omega
  have e4 : (1000 * a + 100 * b + 10 * c + d) % 10 = d := by omega
  unfold below
  rw [e1, e2, e3, e4]
  simp [say4, say4', say3, say2]

theorem on4_below {ts : List Nat} (h : ts.length = 4) (hd : ∀ d ∈ ts, d < 10) :
    on4 say4 ts = below false (valOf ts) ∧ valOf ts < 10 ^ 4 := by
  obtain ⟨a, b, c, d, rfl⟩ := len4 h
  simp only [List.mem_cons, List.not_mem_nil, or_false, forall_eq_or_imp, forall_eq] at hd
  have e : valOf [a, b, c, d] = 1000 * a + 100 * b + 10 * c + d := by simp [valOf]; omega
  rw [e, (below_say4 hd.1 hd.2.1 hd.2.2.1 hd.2.2.2).1]
  exact ⟨rfl, by omega⟩

theorem sayHead_below {hs : List Nat} (h : HeadOk hs) (hd : ∀ d ∈ hs, d < 10) :
    sayHead hs = below true (valOf hs) ∧ 0 < valOf hs ∧ valOf hs < 10 ^ 4 := by
  obtain ⟨h1, h4, hz⟩ := h
  match hs, h1, h4, hz, hd with
  | [a], _, _, hz, hd =>
    simp only [List.mem_cons, List.not_mem_nil, or_false, forall_eq, List.headD_cons] at hd hz
    have e : valOf [a] = 1000 * 0 + 100 * 0 + 10 * 0 + a := by simp [valOf]
    rw [e, (below_say4 (by decide) (by decide) (by decide) hd).2]
    refine ⟨by simp [sayHead, say4', say3, say2, place, full, hz], by omega, by omega⟩
  | [a, b], _, _, hz, hd =>
    simp only [List.mem_cons, List.not_mem_nil, or_false, forall_eq_or_imp, forall_eq, List.headD_cons] at hd hz
    have e : valOf [a, b] = 1000 * 0 + 100 * 0 + 10 * a + b := by simp [valOf]
    rw [e, (below_say4 (by decide) (by decide) hd.1 hd.2).2]
    refine ⟨by simp [sayHead, say4', say3, place, full], by omega, by omega⟩
  | [a, b, c], _, _, hz, hd =>
    simp only [List.mem_cons, List.not_mem_nil, or_false, forall_eq_or_imp, forall_eq, List.headD_cons] at hd hz
    have e : valOf [a, b, c] = 1000 * 0 + 100 * a + 10 * b + c := by simp [valOf]; omega
    rw [e, (below_say4 (by decide) hd.1 hd.2.1 hd.2.2).2]
    refine ⟨by simp [sayHead, say4', full], by omega, by omega⟩
  | [a, b, c, d], _, _, hz, hd =>
    simp only [List.mem_cons, List.not_mem_nil, or_false, forall_eq_or_imp, forall_eq, List.headD_cons] at hd hz
    have e : valOf [a, b, c, d] = 1000 * a + 100 * b + 10 * c + d := by simp [valOf]; omega
    rw [e, (below_say4 hd.1 hd.2.1 hd.2.2.1 hd.2.2.2).2]
    refine ⟨by simp [sayHead], by omega, by omega⟩

theorem foldl_val (b : List Nat) (n : Nat) :
    b.foldl (fun n d => 10 * n + d) n = n * 10 ^ b.length + valOf b := by
  induction b generalizing n with
  | nil => simp [valOf]
  | cons d b ih =>
    have e : valOf (d :: b) = d * 10 ^ b.length + valOf b := by
      show List.foldl _ (10 * 0 + d) b = _
      rw [Nat.mul_zero, Nat.zero_add, ih]
    rw [List.foldl_cons, ih, e, List.length_cons, Nat.pow_succ, Nat.add_mul, ← Nat.add_assoc,
      Nat.mul_comm (10 ^ _) 10, ← Nat.mul_assoc, Nat.mul_comm n 10]

theorem valOf_append (a b : List Nat) : valOf (a ++ b) = valOf a * 10 ^ b.length + valOf b := by
  unfold valOf
  rw [List.foldl_append]
  exact foldl_val b _

theorem japanese_wan {h t : Nat} (h0 : 0 < h) (h1 : h < 10 ^ 4) (ht : t < 10 ^ 4) :
    japanese (h * 10 ^ 4 + t) = below true h ++ '万' :: below false t := by
  have e0 : h * 10 ^ 4 + t ≠ 0 := by omega
  have e1 : (h * 10 ^ 4 + t) / 10 ^ 8 = 0 := by omega
  have e2 : (h * 10 ^ 4 + t) / 10 ^ 4 % 10 ^ 4 = h := by omega
  have e3 : (h * 10 ^ 4 + t) % 10 ^ 4 = t := by omega
  unfold japanese
  rw [if_neg e0, e1, e2, e3]
  unfold big
  rw [if_pos rfl, if_neg (by omega)]
  simp

theorem japanese_oku {h t : Nat} (h0 : 0 < h) (h1 : h < 10 ^ 4) (ht : t < 10 ^ 4) :
    japanese (h * 10 ^ 8 + t) = below true h ++ '億' :: below false t ∧
      (h * 10 ^ 8 + t) / 10 ^ 4 % 10 ^ 4 = 0 := by
  have e0 : h * 10 ^ 8 + t ≠ 0 := by omega
  have e1 : (h * 10 ^ 8 + t) / 10 ^ 8 = h := by omega
  have e2 : (h * 10 ^ 8 + t) / 10 ^ 4 % 10 ^ 4 = 0 := by omega
  have e3 : (h * 10 ^ 8 + t) % 10 ^ 4 = t := by omega
  refine ⟨?_, e2⟩
  unfold japanese
  rw [if_neg e0, e1, e2, e3]
  unfold big
  rw [if_pos rfl, if_neg (by omega)]
  simp

theorem japanese_small {n : Nat} (h0 : 0 < n) (h1 : n < 10 ^ 4) : japanese n = below false n := by
  unfold japanese
  rw [if_neg (by omega), Nat.div_eq_of_lt (by omega), Nat.div_eq_of_lt h1, Nat.mod_eq_of_lt h1]
  simp [big]

/-! ### The integers -/

theorem head_mask {hs ts : List Nat} (h : HeadOk hs) (ht : ts.length = 4) {x : Str} :
    (Commas (headMask hs.length ++ [false, true, false, false]) x (hs ++ ts) ↔ Writes x (hs ++ ts)) ∧
    (Commas (headMask hs.length ++ [false, false, true, false, false, true, false, false]) x
        (hs ++ ([0, 0, 0, 0] ++ ts)) ↔ Writes x (hs ++ ([0, 0, 0, 0] ++ ts))) := by
  obtain ⟨h1, h4, _⟩ := h
  have e1 : headMask hs.length ++ [false, true, false, false] = mask (hs.length + 3) ∧
      headMask hs.length ++ [false, false, true, false, false, true, false, false] = mask (hs.length + 7) := by
    generalize hs.length = k at h1 h4
    have : k = 1 ∨ k = 2 ∨ k = 3 ∨ k = 4 := by omega
    rcases this with rfl | rfl | rfl | rfl <;> decide
  rw [e1.1, e1.2]
  constructor
  · rw [writes_iff (k := hs.length + 3)]
    simp [ht]
  · rw [writes_iff (k := hs.length + 7)]
    simp [ht]

theorem integer_reads {x y : Str} {w : W} : integer.den x y w →
    ∃ ds, Writes x ds ∧ Readable ds ∧ y = japanese (valOf ds) ∧ w = 0 := by
  unfold integer
  rw [den_or, den_or, den_or, den_or, den_or, reads_digits x y w, reads_ten x y w, reads_hundred x y w,
    reads_thousand x y w, den_tenThousand, den_hundredMillion]
  rintro (((((⟨ds, v, p, rfl, rfl⟩ | ⟨ds, v, p, rfl, rfl⟩) | ⟨ds, v, p, rfl, rfl⟩) | ⟨ds, v, p, rfl, rfl⟩) |
    ⟨hs, ts, ho, ht, v, rfl, rfl⟩) | ⟨hs, ts, ho, ht, v, rfl, rfl⟩)
  · obtain ⟨a, rfl⟩ := len1 v.length
    refine ⟨[a], (writes_iff (k := 0) rfl).2 v, ⟨by simp, by simp, by simp, by simp⟩, ?_, rfl⟩
    by_cases ha : a = 0
    · subst ha; rfl
    · have hd := v.small a (by simp)
      have := sayHead_below (hs := [a]) ⟨by simp, by simp, by simpa using ha⟩ v.small
      rw [japanese_small this.2.1 this.2.2]
      have e : valOf [a] = 1000 * 0 + 100 * 0 + 10 * 0 + a := by simp [valOf]
      rw [e, (below_say4 (by decide) (by decide) (by decide) hd).1]
      simp [say4, say3, say2, place, full, ha]
  · obtain ⟨a, b, rfl⟩ := len2 v.length
    have ha : a ≠ 0 := by simpa [on2] using p
    have hd := v.small
    simp only [List.mem_cons, List.not_mem_nil, or_false, forall_eq_or_imp, forall_eq] at hd
    refine ⟨[a, b], (writes_iff (k := 1) rfl).2 v, ⟨by simp, by simp, by simpa using ha, by simp⟩, ?_, rfl⟩
    have e : valOf [a, b] = 1000 * 0 + 100 * 0 + 10 * a + b := by simp [valOf]
    rw [japanese_small (by omega) (by omega), e, (below_say4 (by decide) (by decide) hd.1 hd.2).1]
    simp [say4, say3, place, on2]
  · obtain ⟨a, b, c, rfl⟩ := len3 v.length
    have ha : a ≠ 0 := by simpa [on3] using p
    have hd := v.small
    simp only [List.mem_cons, List.not_mem_nil, or_false, forall_eq_or_imp, forall_eq] at hd
    refine ⟨[a, b, c], (writes_iff (k := 2) rfl).2 v, ⟨by simp, by simp, by simpa using ha, by simp⟩, ?_, rfl⟩
    have e : valOf [a, b, c] = 1000 * 0 + 100 * a + 10 * b + c := by simp [valOf]; omega
    rw [japanese_small (by omega) (by omega), e, (below_say4 (by decide) hd.1 hd.2.1 hd.2.2).1]
    simp [say4, place, on3]
  · obtain ⟨a, b, c, d, rfl⟩ := len4 v.length
    have ha : a ≠ 0 := by simpa [on4] using p
    have hd := v.small
    simp only [List.mem_cons, List.not_mem_nil, or_false, forall_eq_or_imp, forall_eq] at hd
    refine ⟨[a, b, c, d], (writes_iff (k := 3) rfl).2 v, ⟨by simp, by simp, by simpa using ha, by simp⟩, ?_, rfl⟩
    have e : valOf [a, b, c, d] = 1000 * a + 100 * b + 10 * c + d := by simp [valOf]; omega
    rw [japanese_small (by omega) (by omega), e, (below_say4 hd.1 hd.2.1 hd.2.2.1 hd.2.2.2).1]
    simp [on4]
  · have hd := v.small
    obtain ⟨g1, g2⟩ := on4_below ht fun d hd' => hd d (by simp [hd'])
    obtain ⟨g3, g4, g5⟩ := sayHead_below ho fun d hd' => hd d (by simp [hd'])
    refine ⟨hs ++ ts, (head_mask ho ht).1.1 v, ?_, ?_, rfl⟩
    · obtain ⟨h1, h4, hz⟩ := ho
      refine ⟨by simp; omega, by simp; omega, .inr ?_, .inl (by simp; omega)⟩
      cases hs with
      | nil => simp at h1
      | cons a hs => simpa using hz
    · rw [valOf_append, ht, japanese_wan g4 g5 g2, g1, g3]
  · have hd := v.small
    obtain ⟨g1, g2⟩ := on4_below ht fun d hd' => hd d (by simp [hd'])
    obtain ⟨g3, g4, g5⟩ := sayHead_below ho fun d hd' => hd d (by simp [hd'])
    have e : valOf (hs ++ ([0, 0, 0, 0] ++ ts)) = valOf hs * 10 ^ 8 + valOf ts := by
      rw [valOf_append, valOf_append, ht]
      simp [valOf, ht]
    obtain ⟨g6, g7⟩ := japanese_oku g4 g5 g2
    refine ⟨hs ++ ([0, 0, 0, 0] ++ ts), (head_mask ho ht).2.1 v, ?_, ?_, rfl⟩
    · obtain ⟨h1, h4, hz⟩ := ho
      refine ⟨by simp; omega, by simp; omega, .inr ?_, .inr (by rw [e]; exact g7)⟩
      cases hs with
      | nil => simp at h1
      | cons a hs => simpa using hz
    · rw [e, g6, g1, g3]

theorem puts_unique {marks : List Nat} {x : Str} {ds ds' : List Nat} (h : Puts marks x ds) (h' : Puts marks x ds') :
    ds = ds' := by
  induction h generalizing ds' with
  | nil => cases h'; rfl
  | digit hc _ ih =>
    cases h' with
    | digit hc' h' =>
      rw [hc] at hc'
      rw [ih h', Option.some.inj hc']
    | comma _ _ _ => rw [digitVal_comma] at hc; cases hc
  | comma _ hc _ ih =>
    cases h' with
    | digit hc' h' => rw [digitVal_comma] at hc'; cases hc'
    | comma _ hc' h' =>
      rw [hc] at hc'
      rw [ih h', Option.some.inj hc']

theorem integer_accepts {x : Str} {ds : List Nat} (hw : Writes x ds) (hr : Readable ds) :
    ∃ y, integer.den x y 0 := by
  obtain ⟨h1, h12, hz, hr⟩ := hr
  have hh : ds.length ≠ 1 → ds.headD 0 ≠ 0 := fun h => hz.resolve_left h
  by_cases k1 : ds.length = 1
  · exact ⟨_, den_or.2 <| .inl <| den_or.2 <| .inl <| den_or.2 <| .inl <| den_or.2 <| .inl <| den_or.2 <| .inl <|
      (reads_digits _ _ _).2 ⟨ds, (writes_iff k1).1 hw, rfl, rfl, rfl⟩⟩
  by_cases k2 : ds.length = 2
  · obtain ⟨a, b, rfl⟩ := len2 k2
    exact ⟨_, den_or.2 <| .inl <| den_or.2 <| .inl <| den_or.2 <| .inl <| den_or.2 <| .inl <| den_or.2 <| .inr <|
      (reads_ten _ _ _).2 ⟨_, (writes_iff k2).1 hw, by simpa [on2] using hh k1, rfl, rfl⟩⟩
  by_cases k3 : ds.length = 3
  · obtain ⟨a, b, c, rfl⟩ := len3 k3
    exact ⟨_, den_or.2 <| .inl <| den_or.2 <| .inl <| den_or.2 <| .inl <| den_or.2 <| .inr <|
      (reads_hundred _ _ _).2 ⟨_, (writes_iff k3).1 hw, by simpa [on3] using hh k1, rfl, rfl⟩⟩
  by_cases k4 : ds.length = 4
  · obtain ⟨a, b, c, d, rfl⟩ := len4 k4
    exact ⟨_, den_or.2 <| .inl <| den_or.2 <| .inl <| den_or.2 <| .inr <|
      (reads_thousand _ _ _).2 ⟨_, (writes_iff k4).1 hw, by simpa [on4] using hh k1, rfl, rfl⟩⟩
  have hd : ∀ d ∈ ds, d < 10 := ((writes_iff (k := ds.length - 1) (by omega)).1 hw).small
  by_cases k8 : ds.length ≤ 8
  · obtain ⟨hs, ts, rfl, ht⟩ : ∃ hs ts, ds = hs ++ ts ∧ ts.length = 4 :=
      ⟨ds.take (ds.length - 4), ds.drop (ds.length - 4), by simp, by simp; omega⟩
    have hl : hs.length + 4 = (hs ++ ts).length := by simp [ht]
    have ho : HeadOk hs := by
      refine ⟨by omega, by omega, ?_⟩
      cases hs with
      | nil => simp at hl k4; omega
      | cons a hs => simpa using hh k1
    exact ⟨_, den_or.2 <| .inl <| den_or.2 <| .inr <|
      den_tenThousand.2 ⟨hs, ts, ho, ht, (head_mask ho ht).1.2 hw, rfl, rfl⟩⟩
  · obtain ⟨hs, ms, ts, rfl, hm, ht⟩ : ∃ hs ms ts, ds = hs ++ (ms ++ ts) ∧ ms.length = 4 ∧ ts.length = 4 :=
      ⟨ds.take (ds.length - 8), (ds.drop (ds.length - 8)).take 4, (ds.drop (ds.length - 8)).drop 4,
        by rw [List.take_append_drop, List.take_append_drop], by simp; omega, by simp; omega⟩
    have hl : hs.length + 8 = (hs ++ (ms ++ ts)).length := by simp [ht, hm]
    have ho : HeadOk hs := by
      refine ⟨by omega, by omega, ?_⟩
      cases hs with
      | nil => simp at hl k8; omega
      | cons a hs => simpa using hh k1
    have g2 := (on4_below ht fun d hd' => hd d (by simp [hd'])).2
    have g3 := (on4_below hm fun d hd' => hd d (by simp [hd'])).2
    have e : ms = [0, 0, 0, 0] := by
      replace hr := hr.resolve_left k8
      rw [valOf_append, valOf_append, List.length_append, hm, ht] at hr
      have : valOf ms = 0 := by omega
      obtain ⟨a, b, c, d, rfl⟩ := len4 hm
      simp [valOf] at this
      simp; omega
    subst e
    exact ⟨_, den_or.2 <| .inr <|
      den_hundredMillion.2 ⟨hs, ts, ho, ht, (head_mask ho ht).2.2 hw, rfl, rfl⟩⟩

theorem den_integer {x y : Str} {w : W} : integer.den x y w ↔
    ∃ ds, Writes x ds ∧ Readable ds ∧ y = japanese (valOf ds) ∧ w = 0 := by
  refine ⟨integer_reads, ?_⟩
  rintro ⟨ds, hw, hr, rfl, rfl⟩
  obtain ⟨y, h⟩ := integer_accepts hw hr
  obtain ⟨ds', hw', _, rfl, _⟩ := integer_reads h
  rw [puts_unique hw.1 hw'.1]
  exact h

/-! ### Names mean their numbers -/

theorem meaning_place {acc sec d : Nat} (hd : d < 10) (y : Str) :
    meaning acc sec none (place '十' d ++ y) = meaning acc (sec + d * 10) none y ∧
    meaning acc sec none (place '百' d ++ y) = meaning acc (sec + d * 100) none y ∧
    meaning acc sec none (place '千' d ++ y) = meaning acc (sec + d * 1000) none y ∧
    meaning acc sec none (full ['千'] d ++ y) = meaning acc (sec + d * 1000) none y ∧
    meaning acc sec none (full [] d ++ y) = meaning acc sec (if d = 0 then none else some d) y := by
  match d, hd with
  | 0, _ | 1, _ | 2, _ | 3, _ | 4, _ | 5, _ | 6, _ | 7, _ | 8, _ | 9, _ =>
    refine ⟨?_, ?_, ?_, ?_, ?_⟩ <;>
      simp [place, full, digitName, meaning, nameVal, smallUnit, bigUnit, List.lookup]

theorem meaning_below {acc n : Nat} (one : Bool) (hn : n < 10 ^ 4) (y : Str) :
    meaning acc 0 none (below one n ++ y) =
      meaning acc (n - n % 10) (if n % 10 = 0 then none else some (n % 10)) y := by
  have e : n - n % 10 = 0 + n / 1000 * 1000 + n / 100 % 10 * 100 + n / 10 % 10 * 10 := by omega
  unfold below
  rw [e, List.append_assoc, List.append_assoc, List.append_assoc]
  cases one
  · rw [if_neg (by decide), (meaning_place (by omega) _).2.2.1, (meaning_place (by omega) _).2.1,
      (meaning_place (by omega) _).1, (meaning_place (by omega) _).2.2.2.2]
  · rw [if_pos rfl, (meaning_place (by omega) _).2.2.2.1, (meaning_place (by omega) _).2.1,
      (meaning_place (by omega) _).1, (meaning_place (by omega) _).2.2.2.2]

theorem meaning_big {acc n u : Nat} {c : Char} (hc : (c = '万' ∧ u = 10 ^ 4) ∨ (c = '億' ∧ u = 10 ^ 8))
    (hn : n < 10 ^ 4) (y : Str) : meaning acc 0 none (big c n ++ y) = meaning (acc + n * u) 0 none y := by
  unfold big
  split
  · rename_i h; subst h; simp
  · rw [List.append_assoc, meaning_below true hn]
    have key : ∀ s p, meaning acc s p ([c] ++ y) = meaning (acc + (s + p.getD 0) * u) 0 none y := by
      intro s p
      rcases hc with ⟨rfl, rfl⟩ | ⟨rfl, rfl⟩ <;>
        simp [meaning, nameVal, smallUnit, bigUnit, List.lookup]
    rw [key]
    congr 2
    split
    · rename_i h; simp [h]
    · congr 1
      show n - n % 10 + n % 10 = n
      omega

/-- The name of a number means the number. -/
theorem value_japanese {n : Nat} (hn : n < 10 ^ 12) : value (japanese n) = some n := by
  by_cases h0 : n = 0
  · subst h0; decide
  have hm : meaning 0 0 none (japanese n) = some n := by
    unfold japanese
    rw [if_neg h0, List.append_assoc, meaning_big (.inr ⟨rfl, rfl⟩) (by omega),
      meaning_big (.inl ⟨rfl, rfl⟩) (by omega), ← List.append_nil (below _ _), meaning_below false (by omega)]
    simp only [meaning]
    congr 1
    split
    · simp; omega
    · simp; omega
  unfold value
  rw [if_neg, hm]
  intro e
  rw [e] at hm
  revert hm
  simp [meaning, nameVal, smallUnit, bigUnit, List.lookup]

end Verif.JaTn
