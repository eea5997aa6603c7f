import Verif.ZhItn.Inverse

/-
C56: the numbers of the Chinese inverse grammar. What the grammar writes has the value of what was said,
and it undoes the readings of the Chinese text normalizer. The values are those of Spec.lean (spoken and
written numbers) and of Verif/ZhTn/Spec.lean (strict readings).
-/

namespace Verif.ZhItn

open Verif.Wfst
open Verif.ZhItn.Spec (spoken written ShortAfterWan)

/-- **C56.** Whatever the number grammar writes for a spoken numeral has the value of that numeral. The one
exception is `enable_million=False` with a unit left out after 万 (see `C56_short_after_wan`). -/
theorem C56_value (m : Bool) (x y : Str) (w : W) (h : (integer m).den x y w) (hs : m = true ∨ ¬ ShortAfterWan x) :
    ∃ n, spoken x = some n ∧ written y = some n := by
  rcases whole_integer h with ⟨n, hn⟩ | ⟨rfl, hx⟩
  · exact ⟨n, hn.values⟩
  · rcases hs with hs | hs
    · cases hs
    · exact absurd hx hs

example : ((integer true).outputs t!"三百万零五十").map (·.1) = [t!"3000050"] ∧
    spoken t!"三百万零五十" = some 3000050 ∧ written t!"3000050" = some 3000050 := by decide +kernel
example : ((integer false).outputs t!"十亿零三百万").map (·.1) = [t!"10亿300万"] ∧
    spoken t!"十亿零三百万" = some 1003000000 ∧ written t!"10亿300万" = some 1003000000 := by decide +kernel
example : ((integer false).outputs t!"一百一").map (·.1) = [t!"110"] ∧ spoken t!"一百一" = some 110 := by decide +kernel

/-- The exception of `C56_value`: without `enable_million` 一百万一 (1001000, a unit is left out) and
一百万零一 (1000001) are both written 100万1. With it they are told apart. -/
theorem C56_short_after_wan :
    (∃ w, (integer false).den t!"一百万一" t!"100万1" w) ∧ (∃ w, (integer false).den t!"一百万零一" t!"100万1" w) ∧
    spoken t!"一百万一" = some 1001000 ∧ spoken t!"一百万零一" = some 1000001 ∧
    (∃ w, (integer true).den t!"一百万一" t!"1001000" w) ∧ (∃ w, (integer true).den t!"一百万零一" t!"1000001" w) := by
  have go : ∀ (m : Bool) (x y : Str), y ∈ ((integer m).outputs x).map (·.1) → ∃ w, (integer m).den x y w := by
    intro m x y h
    obtain ⟨⟨y', w⟩, h1, rfl⟩ := List.mem_map.1 h
    exact ⟨w, (mem_outputs (by cases m <;> decide +kernel)).1 h1⟩
  exact ⟨go _ _ _ (by decide +kernel), go _ _ _ (by decide +kernel), by decide +kernel, by decide +kernel,
    go _ _ _ (by decide +kernel), go _ _ _ (by decide +kernel)⟩

/-- **C56.** Whatever the number grammar writes for the text normalizer's reading of a digit string denotes
the number the digit string denotes, with either setting of `enable_million`. -/
theorem C56_inverse (m : Bool) (x y z : Str) (w w' : W) (hx : ZhTn.Spec.Digits x) (hy : ZhTn.plainNumber.den x y w)
    (hz : (integer m).den y z w') : written z = some (ZhTn.Spec.natOf x) := by
  have hv := (ZhTn.C53_value x y w hx hy).1
  have hsp := spoken_of_value hv
  obtain ⟨n, h1, h2⟩ := C56_value m y z w' hz (Or.inr (not_short hv))
  rw [hsp] at h1
  rw [h2, ← h1]

example : ZhTn.plainNumber.outputs t!"20016" = [(t!"两万零一十六", 0)] ∧
    ((integer false).outputs t!"两万零一十六").map (·.1) = [t!"20016"] := by decide +kernel
example : ZhTn.plainNumber.outputs t!"102030405060" = [(t!"一千零二十亿三千零四十万五千零六十", 0)] ∧
    ((integer true).outputs t!"一千零二十亿三千零四十万五千零六十").map (·.1) = [t!"1020亿30405060"] ∧
    written t!"1020亿30405060" = some 102030405060 := by decide +kernel

/-- Digit characters with the values `ds`. -/
theorem digits_of_vals {x : Str} {ds : List Nat} (h : ZhTn.Vals x ds) (hx : ∀ c ∈ x, c ∈ ZhTn.tenDigits) :
    ds.map Nat.digitChar = x := by
  induction x generalizing ds with
  | nil => cases ds with
    | nil => rfl
    | cons d ds => cases h
  | cons c x ih =>
    cases ds with
    | nil => cases h
    | cons d ds =>
      obtain ⟨h1, h2⟩ := List.cons.inj h
      have key : ∀ c ∈ ZhTn.tenDigits, (ZhTn.Spec.digitVal c).map Nat.digitChar = some c := by decide
      have := key c (hx c (by simp))
      rw [h1] at this
      rw [List.map_cons, ih h2 fun c hc => hx c (by simp [hc]), Option.some.inj this]

theorem mem_toDigits {n : Nat} {c : Char} (h : c ∈ Nat.toDigits 10 n) : c ∈ ZhTn.tenDigits :=
  ZhTn.mem_tenDigits (Nat.isDigit_of_mem_toDigits (by decide) (by decide) h)

/-- The reading of a number has a list of digits. -/
theorem reading_of {n : Nat} {y : Str} {w : W} (h : ZhTn.plainNumber.den (Nat.toDigits 10 n) y w) :
    ∃ ds s, ds.map Nat.digitChar = Nat.toDigits 10 n ∧ ds.length = (Nat.toDigits 10 n).length ∧
      (∀ d ∈ ds, d < 10) ∧ ZhTn.valOf ds = n ∧ ZhTn.SayInt ds s ∧ y = ZhTn.liangF s := by
  obtain ⟨ds, s, hv, hs, e⟩ := reading (ZhTn.toDigits_digits n) h
  exact ⟨ds, s, digits_of_vals hv fun _ => mem_toDigits, hv.length.symm, hv.lt,
    hv.natOf.symm.trans (ZhTn.natOf_toDigits n), hs, e⟩

/-- **C56.** The readings of all numbers below 10^12 are accepted, except those of the multiples of 10^8
above zero. -/
theorem C56_accepts (m : Bool) (n : Nat) (y : Str) (w : W) (h : ZhTn.plainNumber.den (Nat.toDigits 10 n) y w) :
    (∃ z w', (integer m).den y z w') ↔ (n < 10 ^ 8 ∨ n % 10 ^ 8 ≠ 0) := by
  obtain ⟨ds, s, e, hl, hd, hv, hs, rfl⟩ := reading_of h
  constructor
  · rintro ⟨z, w', hz⟩
    by_contra hcon
    simp only [not_or, Nat.not_lt, ne_eq, not_not] at hcon
    obtain ⟨hbig, hmod⟩ := hcon
    have hlen : 9 ≤ ds.length := by
      have : ¬ (Nat.toDigits 10 n).length ≤ 8 := fun h =>
        absurd ((Nat.length_toDigits_le_iff (by decide) (by decide)).1 h) (by omega)
      omega
    rcases hs with ⟨d, rfl, rfl⟩ | ⟨hh, rfl⟩ | ⟨hs, es, rfl, hh, he, rfl⟩ | ⟨hs, es, rfl, hh, he, rfl⟩
    · simp at hlen
    · have := hh.2.1; omega
    · have := hh.2.1; rw [List.length_append] at hlen; omega
    · obtain ⟨u, hu, eu⟩ := liangF_head hh ('亿' :: ZhTn.tail8 es)
      rw [eu] at hz
      rw [ZhTn.valOf_append, he] at hv
      have hlt := ZhTn.valOf_lt (ds := es) (fun d h => hd d (by simp [h]))
      rw [he] at hlt
      have h0 : ZhTn.valOf es = 0 := by omega
      refine integer_last hz ?_
      rw [tail8_zero he h0, List.getLast?_append_of_ne_nil _ (by simp)]
      rfl
  · intro hn
    obtain ⟨z, w', hz⟩ := accepts (m := m) hs hd (by
      rcases hn with hn | hn
      · left
        rw [hl]
        exact (Nat.length_toDigits_le_iff (by decide) (by decide)).2 hn
      · right; rw [hv]; exact hn)
    exact ⟨z, w', hz⟩

example : ZhTn.plainNumber.outputs t!"300000000" = [(t!"三亿", 0)] ∧ (integer true).outputs t!"三亿" = [] ∧
    ((integer true).outputs t!"三亿零一").map (·.1) = [t!"3亿1"] := by decide +kernel

/-- **C56.** The digits come back exactly: for all numbers below 10^6, and with `enable_million` for all
numbers below 10^8. -/
theorem C56_digits (m : Bool) (n : Nat) (y : Str) (w : W) (hn : n < 10 ^ 6 ∨ m = true ∧ n < 10 ^ 8)
    (h : ZhTn.plainNumber.den (Nat.toDigits 10 n) y w) : ∃ w', (integer m).den y (Nat.toDigits 10 n) w' := by
  obtain ⟨ds, s, e, hl, hd, hv, hs, rfl⟩ := reading_of h
  rw [← e]
  have hlen : ds.length ≤ 6 ∨ m = true ∧ ds.length ≤ 8 := by
    rcases hn with hn | ⟨hm, hn⟩
    · left; rw [hl]; exact (Nat.length_toDigits_le_iff (by decide) (by decide)).2 hn
    · right; rw [hl]; exact ⟨hm, (Nat.length_toDigits_le_iff (by decide) (by decide)).2 hn⟩
  change Turns (integer m) _ _
  rcases hs with ⟨d, rfl, rfl⟩ | ⟨hh, rfl⟩ | ⟨hs, es, rfl, hh, he, rfl⟩ | ⟨hs, es, rfl, hh, he, rfl⟩
  · have e : ZhTn.liangF [ZhTn.num d] = [ZhTn.num d] := by
      unfold ZhTn.liangF; split <;> simp_all
    rw [e]
    by_cases h0 : d = 0
    · subst h0
      exact integer_of_small turns_zeroG.left.left.left.left.left.left
    · exact integer_of_small (turns_small (turns_num h0 (hd d (by simp))).right)
  · obtain ⟨u, hu, e⟩ := liangF_head hh []
    rw [List.append_nil, List.append_nil] at e
    rw [e]
    exact integer_of_small (turns_small (turns_head hh hd hu))
  · obtain ⟨u, hu, e⟩ := liangF_head hh ('万' :: ZhTn.on4 ZhTn.tail4 es)
    rw [e]
    refine integer_of_small (turns_wan_digits hh ?_ (fun d h => hd d (by simp [h])) hu he fun d h => hd d (by simp [h]))
    rw [List.length_append, he] at hlen
    rcases hlen with h | h
    · right; omega
    · exact Or.inl h.1
  · have := hh.1
    rw [List.length_append, he] at hlen
    omega

example : ZhTn.plainNumber.outputs t!"203004" = [(t!"二十万三千零四", 0)] ∧
    ((integer false).outputs t!"二十万三千零四").map (·.1) = [t!"203004"] := by decide +kernel
/-- Above these bounds the units 万 and 亿 stay. -/
example : ((integer false).outputs t!"一百万").map (·.1) = [t!"100万"] ∧
    ((integer true).outputs t!"一百万").map (·.1) = [t!"1000000"] ∧
    ((integer true).outputs t!"一亿零一").map (·.1) = [t!"1亿1"] := by decide +kernel

end Verif.ZhItn
