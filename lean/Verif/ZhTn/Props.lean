import Verif.ZhTn.Calendar
import Verif.Wfst.Run

/-
Properties of the Chinese TN rules: C53, C54, C55, C57, C67.
-/

namespace Verif.ZhTn

open Verif.Wfst Spec

/-! ### C53, C54: integers -/

/-- **C53.** The numeral read for a text of digits denotes the number the digits write. -/
theorem C53_value (x y : Str) (w : W) (hx : Digits x) (h : plainNumber.den x y w) :
    value y = some (natOf x) ∧ w = 0 := by
  obtain ⟨⟨m, ⟨n⟩, _, rfl⟩, rfl⟩ := den_plainNumber.1 h
  refine ⟨?_, rfl⟩
  obtain ⟨d, hw, hs⟩ := n.says
  have hw' : Writes x ⟨.none, natOf x, []⟩ := by
    refine ⟨x, [], ?_, hx, rfl, rfl, by simp [Sign.written]⟩
    intro e
    exact n.xi_ne (List.append_eq_nil_iff.1 (List.append_eq_nil_iff.1 (n.hx.symm.trans e)).2).1
  rw [hw.unique hw'] at hs
  obtain ⟨r, z, hr, _, e⟩ := hs
  have : liangF m = r := by simpa [Sign.spoken] using e
  rw [this]; exact hr

/-- **C53.** A text of digits has a reading exactly if it has one to twelve digits and does not begin
with zero, or is a single digit. -/
theorem C53_readable (x : Str) (hx : Digits x) : (∃ y w, plainNumber.den x y w) ↔
    1 ≤ x.length ∧ x.length ≤ 12 ∧ (x.length = 1 ∨ digitVal (x.headD '0') ≠ some 0) := by
  constructor
  · rintro ⟨y, w, h⟩
    obtain ⟨⟨m, ⟨n⟩, _, _⟩, _⟩ := den_plainNumber.1 h
    have hr := n.readable
    have d1 := digits_head (t := n.xf) n.vals.digits n.xi_ne
    have hx0 : x ≠ [] := by
      intro e
      exact n.xi_ne (List.append_eq_nil_iff.1 (List.append_eq_nil_iff.1 (n.hx.symm.trans e)).2).1
    have d2 := digits_head (t := []) hx hx0
    have e := n.hx
    have e' : n.s ++ (n.xi ++ n.xf) = [] ++ (x ++ []) := by simpa using e.symm
    obtain ⟨_, _, hr'⟩ := sign_unique n.sign (List.mem_cons_self (a := ([], []))) d1.1 d1.2 d2.1 d2.2 e'
    have hxi : n.xi = x := by
      rw [← takeWhile_digits n.vals.digits n.frac.head, hr', takeWhile_digits hx (by simp)]
    rwa [hxi] at hr
  · rintro ⟨h1, h12, h0⟩
    obtain ⟨ds, y, hv, hy⟩ := readable_int hx h1 h12 h0
    let n : SayNum x y := ⟨[], [], by simp, x, ds, hv, y, hy, [], [], Or.inl ⟨rfl, rfl⟩, by simp, by simp⟩
    exact ⟨liangF y, 0, den_plainNumber.2 ⟨⟨y, ⟨n⟩, n.vtext, rfl⟩, rfl⟩⟩

theorem toDigits_digits (n : Nat) : Digits (Nat.toDigits 10 n) := by
  intro c hc
  have := Nat.isDigit_of_mem_toDigits (by decide) (by decide) hc
  have key : ∀ c ∈ tenDigits, (digitVal c).isSome := by decide
  exact key c (mem_tenDigits this)

theorem natOf_toDigits (n : Nat) : natOf (Nat.toDigits 10 n) = n := by
  have key : ∀ (l : Str) (a : Nat), (∀ c ∈ l, c ∈ tenDigits) →
      l.foldl (fun n c => 10 * n + (digitVal c).getD 0) a = Nat.ofDigitChars 10 l a := by
    intro l
    induction l with
    | nil => intro a _; rfl
    | cons c l ih =>
      intro a h
      have hc : (digitVal c).getD 0 = c.toNat - '0'.toNat := by
        have : ∀ c ∈ tenDigits, (digitVal c).getD 0 = c.toNat - '0'.toNat := by decide
        exact this c (h c (by simp))
      rw [List.foldl_cons, ih _ fun c hc => h c (by simp [hc]), Nat.ofDigitChars_cons, hc]
  rw [natOf, key _ _ fun c hc => mem_tenDigits (Nat.isDigit_of_mem_toDigits (by decide) (by decide) hc)]
  exact Nat.ofDigitChars_ten_toDigits

theorem valOf_lt {ds : List Nat} (h : ∀ d ∈ ds, d < 10) : valOf ds < 10 ^ ds.length := by
  induction ds with
  | nil => decide
  | cons d ds ih =>
    have h1 := ih fun d hd => h d (by simp [hd])
    have h2 := h d (by simp)
    have h3 : valOf [d] = d := by simp [valOf]
    rw [show d :: ds = [d] ++ ds from rfl, valOf_append, h3, List.length_append, List.length_singleton, pow_add,
      pow_one]
    have : d * 10 ^ ds.length ≤ 9 * 10 ^ ds.length := Nat.mul_le_mul_right _ (by omega)
    omega

/-- A number is not written with a leading zero. -/
theorem toDigits_head {n : Nat} (h : 10 ≤ n) : digitVal ((Nat.toDigits 10 n).headD '0') ≠ some 0 := by
  intro h0
  have hn := natOf_toDigits n
  obtain ⟨ds, hv⟩ := ZhTn.Digits.vals (toDigits_digits n)
  have hlen : (Nat.toDigits 10 n).length ≤ (Nat.toDigits 10 n).length - 1 := by
    match hx : Nat.toDigits 10 n, hds : ds with
    | [], _ => exact absurd hx Nat.toDigits_ne_nil
    | c :: t, [] => rw [hx] at hv; cases hv
    | c :: t, d :: ds =>
      rw [hx] at hv h0 hn
      have hc : digitVal c = some d := (List.cons.inj hv).1
      have ht : Vals t ds := (List.cons.inj hv).2
      rw [List.headD_cons, hc] at h0
      have hd : d = 0 := Option.some.inj h0
      subst hd
      rw [hv.natOf, show (0 :: ds) = [0] ++ ds from rfl, valOf_append, show valOf [0] = 0 from rfl, zero_mul,
        zero_add] at hn
      have hlt := valOf_lt ht.lt
      rw [hn, ← ht.length] at hlt
      have hpos : 0 < t.length := by
        by_contra hz
        rw [Nat.eq_zero_of_not_pos hz] at hlt
        omega
      have := (Nat.length_toDigits_le_iff (b := 10) (by decide) hpos).2 hlt
      rw [hx] at this
      exact this
  have : 0 < (Nat.toDigits 10 n).length := List.length_pos_iff.2 Nat.toDigits_ne_nil
  omega

/-- **C53.** Every number below 10^12, written in the usual way, is read, and the numeral denotes it. -/
theorem C53_every (n : Nat) (hn : n < 10 ^ 12) :
    ∃ y, plainNumber.den (Nat.toDigits 10 n) y 0 ∧ value y = some n := by
  have hd := toDigits_digits n
  have h : ∃ y w, plainNumber.den (Nat.toDigits 10 n) y w := by
    refine (C53_readable _ hd).2 ⟨?_, ?_, ?_⟩
    · exact List.length_pos_iff.2 Nat.toDigits_ne_nil
    · exact (Nat.length_toDigits_le_iff (by decide) (by decide)).2 hn
    · by_cases h : n < 10
      · left; rw [Nat.toDigits_of_lt_base h]; rfl
      · right
        exact toDigits_head (by omega)
  obtain ⟨y, w, h⟩ := h
  obtain ⟨hv, rfl⟩ := C53_value _ _ _ hd h
  rw [natOf_toDigits] at hv
  exact ⟨y, h, hv⟩

example : plainNumber.outputs t!"102030405060" = [(t!"一千零二十亿三千零四十万五千零六十", 0)] ∧
    value t!"一千零二十亿三千零四十万五千零六十" = some 102030405060 := by decide +kernel

example : plainNumber.outputs t!"20016" = [(t!"两万零一十六", 0)] ∧ value t!"两万零一十六" = some 20016 := by decide +kernel

example : plainNumber.outputs t!"007" = [] := by decide +kernel

/-- **C54.** No text has two readings, and the reading has one weight. -/
theorem C54_unique : (∀ x y w y' w', plainNumber.den x y w → plainNumber.den x y' w' → y = y' ∧ w = w') ∧
    (∀ x y w y' w', number.den x y w → number.den x y' w' → y = y' ∧ w = w') :=
  ⟨fun _ _ _ _ _ h h' => plainNumber_functional h h', fun _ _ _ _ _ h h' => number_functional h h'⟩

/-- **C54.** Every number below 10^12 has exactly one reading. -/
theorem C54_every (n : Nat) (hn : n < 10 ^ 12) : ∃! y, ∃ w, plainNumber.den (Nat.toDigits 10 n) y w := by
  obtain ⟨y, h, _⟩ := C53_every n hn
  exact ⟨y, ⟨0, h⟩, fun z ⟨w, hz⟩ => (plainNumber_functional hz h).1⟩

example : number.outputs t!"约-3.50%" = [(t!"约百分之负三点五零", 0)] := by decide +kernel

/-! ### C67: signed decimals -/

/-- **C67.** A number is read as what it is: the reading says the number that is written. -/
theorem C67_says (x y : Str) (w : W) (h : plainNumber.den x y w) : w = 0 ∧ ∃ n, Writes x n ∧ Says y n := by
  obtain ⟨⟨m, ⟨n⟩, _, rfl⟩, rfl⟩ := den_plainNumber.1 h
  exact ⟨rfl, n.says⟩

/-- **C67.** What is written and what is said determine the number. -/
theorem C67_determined (x : Str) (n m : Dec) :
    (Writes x n → Writes x m → n = m) ∧ (Says x n → Says x m → n = m) :=
  ⟨fun h h' => h.unique h', fun h h' => h.unique h'⟩

/-- **C67.** Texts with the same reading write the same number. -/
theorem C67_injective (x x' y : Str) (w w' : W) (h : plainNumber.den x y w) (h' : plainNumber.den x' y w') :
    ∃ n, Writes x n ∧ Writes x' n := by
  obtain ⟨_, n, h1, h2⟩ := C67_says x y w h
  obtain ⟨_, m, h3, h4⟩ := C67_says x' y w' h'
  exact ⟨n, h1, h2.unique h4 ▸ h3⟩

/-- **C67.** The texts that are read: an optional sign, one to twelve digits without a leading zero (or a
single digit), and optionally a point with digits. -/
theorem C67_readable (x : Str) : (∃ y w, plainNumber.den x y w) ↔
    ∃ (s : Sign) (i f : Str), x = s.written ++ (i ++ f) ∧ Digits i ∧ 1 ≤ i.length ∧ i.length ≤ 12 ∧
      (i.length = 1 ∨ digitVal (i.headD '0') ≠ some 0) ∧ (f = [] ∨ ∃ z, z ≠ [] ∧ Digits z ∧ f = '.' :: z) := by
  constructor
  · rintro ⟨y, w, h⟩
    obtain ⟨⟨m, ⟨n⟩, _, _⟩, _⟩ := den_plainNumber.1 h
    obtain ⟨t, hs, _⟩ := of_mem_sign n.sign
    obtain ⟨h1, h12, h0⟩ := n.readable
    refine ⟨t, n.xi, n.xf, hs ▸ n.hx, n.vals.digits, h1, h12, h0, ?_⟩
    rcases n.frac with ⟨hx, _⟩ | ⟨z, es, hes, hz, hx, _⟩
    · exact Or.inl hx
    · refine Or.inr ⟨z, ?_, hz.digits, hx⟩
      rintro rfl
      exact hes (List.length_eq_zero_iff.1 hz.length.symm)
  · rintro ⟨s, i, f, rfl, hi, h1, h12, h0, hf⟩
    obtain ⟨ds, yi, hv, hy⟩ := readable_int hi h1 h12 h0
    obtain ⟨yf, hyf⟩ : ∃ yf, Frac f yf := by
      rcases hf with rfl | ⟨z, hz0, hz, rfl⟩
      · exact ⟨[], Or.inl ⟨rfl, rfl⟩⟩
      · obtain ⟨es, hv⟩ := ZhTn.Digits.vals hz
        refine ⟨_, Or.inr ⟨z, es, ?_, hv, rfl, rfl⟩⟩
        rintro rfl; exact hz0 (vals_nil.1 hv)
    let n : SayNum (s.written ++ (i ++ f)) (s.spoken ++ (yi ++ yf)) :=
      ⟨s.written, s.spoken, mem_sign s, i, ds, hv, yi, hy, f, yf, hyf, rfl, rfl⟩
    exact ⟨_, 0, den_plainNumber.2 ⟨⟨_, ⟨n⟩, n.vtext, rfl⟩, rfl⟩⟩

example : plainNumber.outputs t!"±2000.05" = [(t!"正负二千点零五", 0)] ∧
    plainNumber.outputs t!"２000.05" = [(t!"两千点零五", 0)] := by decide +kernel

/-! ### C55: digit by digit -/

/-- **C55.** What the cardinal rule reads and how: percentages as numbers; network addresses, dashed
numbers and landline numbers digit by digit with 点 for the point and nothing for the hyphen; service
numbers, eleven-digit numbers and the last four digits of a number digit by digit with 幺 for 1. -/
theorem C55_cardinal (x y : Str) (w : W) : cardinal.den x y w ↔ percent.den x y w ∨
    ((Ip x ∨ Dashed x ∨ Landline x) ∧ Spells syllableVal separators x y ∧ w = 0) ∨
    ((Service x ∨ Mobile x ∨ Tail x) ∧ Spells phoneVal tailWords x y ∧ w = -100000) := den_cardinal

example : cardinal.outputs t!"192.168.0.1" = [(t!"一九二点一六八点零点一", 0)] ∧
    cardinal.outputs t!"010-12345678" = [(t!"零一零一二三四五六七八", 0)] ∧
    cardinal.outputs t!"13800138000" = [(t!"幺三八零零幺三八零零零", -100000)] ∧
    cardinal.outputs t!"尾号是8012" = [(t!"尾号是八零幺二", -100000)] := by decide +kernel

/-- **C55.** A year is four digits, the first not zero, read digit by digit. -/
theorem C55_year (x y : Str) (w : W) : year.den x y w ↔
    Digits x ∧ x.length = 4 ∧ digitVal (x.headD '0') ≠ some 0 ∧
      ∃ z, Spells syllableVal [] x z ∧ y = z ++ "年".toList ∧ w = 0 := den_year

example : year.outputs t!"2008" = [(t!"二零零八年", 0)] := by decide +kernel

/-- **C55.** A spelled text gives its digits back: the syllables, in order, stand for the digits of the
text, so there are as many of them. -/
theorem C55_recover (x y : Str) : (Spells syllableVal separators x y → y.filterMap syllableVal = x.filterMap digitVal) ∧
    (Spells phoneVal tailWords x y → y.filterMap phoneVal = x.filterMap digitVal) ∧
    (Spells syllableVal [] x y → y.filterMap syllableVal = x.filterMap digitVal ∧ y.length = x.length) := by
  refine ⟨fun h => h.recover (by decide), fun h => h.recover (by decide), fun h => ⟨h.recover (by simp), ?_⟩⟩
  induction h with
  | nil => rfl
  | digit _ _ _ ih => simp [ih]
  | other h => cases h

/-- **C55.** A text is spelled in one way, and every text of digits and listed characters is. -/
theorem C55_unique (x y y' : Str) : (Spells syllableVal separators x y → Spells syllableVal separators x y' → y = y') ∧
    (Spells phoneVal tailWords x y → Spells phoneVal tailWords x y' → y = y') :=
  ⟨fun h h' => h.unique h' syllableVal_inj sep_none (by decide),
   fun h h' => h.unique h' phoneVal_inj tail_none (by decide)⟩

theorem C55_total (x : Str) : ((∀ c ∈ x, (digitVal c).isSome ∨ c = '.' ∨ c = '-') →
      ∃ y, Spells syllableVal separators x y) ∧
    ((∀ c ∈ x, (digitVal c).isSome ∨ c ∈ "尾号是为".toList) → ∃ y, Spells phoneVal tailWords x y) := by
  constructor
  · intro h
    induction x with
    | nil => exact ⟨[], .nil⟩
    | cons c x ih =>
      obtain ⟨y, hy⟩ := ih fun c hc => h c (by simp [hc])
      rcases h c (by simp) with h | rfl | rfl
      · obtain ⟨d, hd⟩ := Option.isSome_iff_exists.1 h
        exact ⟨num d :: y, .digit hd (syllable_num (digitVal_lt hd)) hy⟩
      · exact ⟨_, .other (List.mem_cons_self (a := ('.', ['点']))) hy⟩
      · exact ⟨_, .other (o := []) (by decide) hy⟩
  · intro h
    induction x with
    | nil => exact ⟨[], .nil⟩
    | cons c x ih =>
      obtain ⟨y, hy⟩ := ih fun c hc => h c (by simp [hc])
      rcases h c (by simp) with h | h
      · obtain ⟨d, hd⟩ := Option.isSome_iff_exists.1 h
        obtain ⟨s, hs⟩ := yao_num d
        exact ⟨s :: y, .digit hd ((phoneVal_iff (digitVal_lt hd)).2 hs) hy⟩
      · have key : ∀ c ∈ "尾号是为".toList, (c, [c]) ∈ tailWords := by decide
        exact ⟨_, .other (key c h) hy⟩

/-! ### C57: dates and times -/

/-- **C57.** The month grammar accepts 1 to 12, with or without a leading zero, and reads the number
before 月; the day grammar accepts 1 to 31 and reads the number before 日. -/
theorem C57_month_day (x : Str) :
    ((∃ y w, month.den x y w) ↔ Short x ∧ 1 ≤ natOf x ∧ natOf x ≤ 12) ∧
    (∀ y w, month.den x y w → w = 0 ∧ ∃ r, y = r ++ "月".toList ∧ value r = some (natOf x)) ∧
    ((∃ y w, day.den x y w) ↔ Short x ∧ 1 ≤ natOf x ∧ natOf x ≤ 31) ∧
    (∀ y w, day.den x y w → w = 0 ∧ ∃ r, y = r ++ "日".toList ∧ value r = some (natOf x)) := by
  have e1 : ∀ e ∈ dateM ++ dateMM, e.2 = e.2.dropLast ++ "月".toList ∧ value e.2.dropLast = some (natOf e.1) := by
    decide +kernel
  have e2 : ∀ e ∈ dateD ++ dateDD, e.2 = e.2.dropLast ++ "日".toList ∧ value e.2.dropLast = some (natOf e.1) := by
    decide +kernel
  refine ⟨?_, ?_, ?_, ?_⟩
  · simp only [den_month]
    rw [table_domain (p := fun x => decide (1 ≤ natOf x) && decide (natOf x ≤ 12)) (by decide +kernel)
      (by decide +kernel)]
    simp
  · intro y w h
    obtain ⟨hm, rfl⟩ := den_month.1 h
    exact ⟨rfl, y.dropLast, e1 (x, y) hm⟩
  · simp only [den_day]
    rw [table_domain (p := fun x => decide (1 ≤ natOf x) && decide (natOf x ≤ 31)) (by decide +kernel)
      (by decide +kernel)]
    simp
  · intro y w h
    obtain ⟨hm, rfl⟩ := den_day.1 h
    exact ⟨rfl, y.dropLast, e2 (x, y) hm⟩

/-- **C57.** The hour grammar accepts 0 to 24 (zero only as 00) and reads the number before 点. -/
theorem C57_hour (x : Str) :
    ((∃ y w, (G.tab hour).den x y w) ↔ Short x ∧ natOf x ≤ 24 ∧ x ≠ "0".toList) ∧
    (∀ y w, (G.tab hour).den x y w → w = 0 ∧ ∃ r, y = r ++ "点".toList ∧ value r = some (natOf x)) := by
  have e1 : ∀ e ∈ hour, e.2 = e.2.dropLast ++ "点".toList ∧ value e.2.dropLast = some (natOf e.1) := by
    decide +kernel
  constructor
  · rw [table_domain (p := fun x => decide (natOf x ≤ 24) && decide (x ≠ "0".toList)) (by decide +kernel)
      (by decide +kernel)]
    simp
  · rintro y w ⟨h, rfl⟩
    exact ⟨rfl, _, e1 _ h⟩

/-- **C57.** Minutes and seconds have two digits, 00 to 59. 00 is not read; other minutes are read before
分, with 零 below ten; other seconds are read before 秒. -/
theorem C57_minute_second (x : Str) :
    ((∃ y w, (G.tab minute).den x y w) ↔ Short x ∧ x.length = 2 ∧ natOf x ≤ 59) ∧
    (∀ y w, (G.tab minute).den x y w → w = 0 ∧ (natOf x = 0 → y = []) ∧ (natOf x ≠ 0 →
      ∃ r, y = (if natOf x < 10 then "零".toList else []) ++ r ++ "分".toList ∧ value r = some (natOf x))) ∧
    ((∃ y w, (G.tab second).den x y w) ↔ Short x ∧ x.length = 2 ∧ natOf x ≤ 59) ∧
    (∀ y w, (G.tab second).den x y w → w = 0 ∧ (natOf x = 0 → y = []) ∧ (natOf x ≠ 0 →
      ∃ r, y = r ++ "秒".toList ∧ value r = some (natOf x))) := by
  have e1 : ∀ e ∈ minute, (natOf e.1 = 0 → e.2 = []) ∧ (natOf e.1 ≠ 0 →
      e.2 = (if natOf e.1 < 10 then "零".toList else []) ++
          (e.2.drop (if natOf e.1 < 10 then 1 else 0)).dropLast ++ "分".toList ∧
        value (e.2.drop (if natOf e.1 < 10 then 1 else 0)).dropLast = some (natOf e.1)) := by
    decide +kernel
  have e2 : ∀ e ∈ second, (natOf e.1 = 0 → e.2 = []) ∧ (natOf e.1 ≠ 0 →
      e.2 = e.2.dropLast ++ "秒".toList ∧ value e.2.dropLast = some (natOf e.1)) := by
    decide +kernel
  refine ⟨?_, ?_, ?_, ?_⟩
  · rw [table_domain (p := fun x => decide (x.length = 2) && decide (natOf x ≤ 59)) (by decide +kernel)
      (by decide +kernel)]
    simp
  · rintro y w ⟨h, rfl⟩
    exact ⟨rfl, (e1 _ h).1, fun h0 => ⟨_, (e1 _ h).2 h0⟩⟩
  · rw [table_domain (p := fun x => decide (x.length = 2) && decide (natOf x ≤ 59)) (by decide +kernel)
      (by decide +kernel)]
    simp
  · rintro y w ⟨h, rfl⟩
    exact ⟨rfl, (e2 _ h).1, fun h0 => ⟨_, (e2 _ h).2 h0⟩⟩

/-- **C57.** Each accepted text has one reading. -/
theorem C57_unique : Functional month ∧ Functional day ∧ Functional (.tab hour) ∧ Functional (.tab minute) ∧
    Functional (.tab second) := by
  refine ⟨?_, ?_, table_functional (by decide +kernel), table_functional (by decide +kernel),
    table_functional (by decide +kernel)⟩
  · intro x y w y' w' h h'
    exact table_functional (t := dateM ++ dateMM) (by decide +kernel) (den_month.1 h) (den_month.1 h')
  · intro x y w y' w' h h'
    exact table_functional (t := dateD ++ dateDD) (by decide +kernel) (den_day.1 h) (den_day.1 h')

example : Short t!"07" ∧ natOf t!"07" = 7 ∧ month.outputs t!"07" = [(t!"七月", 0)] ∧
    (G.tab hour).outputs t!"2" = [(t!"两点", 0)] ∧ (G.tab minute).outputs t!"05" = [(t!"零五分", 0)] ∧
    (G.tab second).outputs t!"00" = [(t!"", 0)] := by decide +kernel

end Verif.ZhTn
