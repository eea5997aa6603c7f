import Verif.Cache.Dump
import Mathlib.Data.List.Nodup
import Mathlib.Tactic.Linarith

/-
What `dumps` writes is read back by `loads`.
-/

namespace Verif.Cache

/-! ### The order of the keys -/

theorem char_ext {a b : Char} (h : a.toNat = b.toNat) : a = b := by
  apply Char.ext
  exact UInt32.toNat.inj h

theorem strLt_irrefl : ∀ a, strLt a a = false
  | [] => rfl
  | a :: as => by simp [strLt, strLt_irrefl as]

theorem strLt_asymm : ∀ a b, strLt a b = true → strLt b a = false
  | [], [] => by simp [strLt]
  | [], _ :: _ => by simp [strLt]
  | _ :: _, [] => by simp [strLt]
  | a :: as, b :: bs => by
    have ih := strLt_asymm as bs
    simp only [strLt, Bool.or_eq_true, decide_eq_true_eq, Bool.and_eq_true, Bool.or_eq_false_iff,
      decide_eq_false_iff_not, Bool.and_eq_false_iff]
    rintro (h | ⟨rfl, h⟩)
    · refine ⟨by omega, .inl ?_⟩
      rintro rfl
      omega
    · exact ⟨by omega, .inr (ih h)⟩

theorem strLt_trans : ∀ a b c, strLt a b = true → strLt b c = true → strLt a c = true
  | [], [], _ => by simp [strLt]
  | [], _ :: _, [] => by simp [strLt]
  | [], _ :: _, _ :: _ => by simp [strLt]
  | _ :: _, [], _ => by simp [strLt]
  | _ :: _, _ :: _, [] => by simp [strLt]
  | a :: as, b :: bs, c :: cs => by
    have ih := strLt_trans as bs cs
    simp only [strLt, Bool.or_eq_true, decide_eq_true_eq, Bool.and_eq_true]
    rintro (h | ⟨rfl, h⟩) (h' | ⟨rfl, h'⟩)
    · exact .inl (by omega)
    · exact .inl h
    · exact .inl h'
    · exact .inr ⟨rfl, ih h h'⟩

theorem strLt_total : ∀ a b, a ≠ b → strLt a b = false → strLt b a = true
  | [], [] => by simp
  | [], _ :: _ => by simp [strLt]
  | _ :: _, [] => by simp [strLt]
  | a :: as, b :: bs => by
    have ih := strLt_total as bs
    simp only [strLt, Bool.or_eq_true, decide_eq_true_eq, Bool.and_eq_true, Bool.or_eq_false_iff,
      decide_eq_false_iff_not, Bool.and_eq_false_iff]
    rintro hne ⟨h, h' | h'⟩
    · refine .inl ?_
      rcases Nat.lt_or_ge b.toNat a.toNat with h1 | h1
      · exact h1
      · exact (h' (char_ext (by omega))).elim
    · by_cases hab : a = b
      · subst hab
        exact .inr ⟨rfl, ih (fun he => hne (by rw [he])) h'⟩
      · refine .inl ?_
        rcases Nat.lt_or_ge b.toNat a.toNat with h1 | h1
        · exact h1
        · exact (hab (char_ext (by omega))).elim

/-- The keys are in order and different. -/
def Sorted {α : Type} (l : List (Str × α)) : Prop := l.Pairwise fun a b => strLt a.1 b.1 = true

theorem insertKey_last {α : Type} {k : Str} {v : α} : ∀ {l : List (Str × α)},
    (∀ p ∈ l, strLt p.1 k = true) → insertKey k v l = l ++ [(k, v)]
  | [], _ => rfl
  | (a, w) :: rest, h => by
    have h1 : strLt a k = true := h (a, w) (by simp)
    have h2 : k ≠ a := by
      rintro rfl
      rw [strLt_irrefl] at h1
      cases h1
    rw [insertKey, if_neg h2, strLt_asymm _ _ h1, if_neg (by simp),
      insertKey_last fun p hp => h p (by simp [hp])]
    rfl

theorem foldl_insertKey {α : Type} : ∀ (l d : List (Str × α)), Sorted (d ++ l) →
    l.foldl (fun d p => insertKey p.1 p.2 d) d = d ++ l
  | [], d, _ => by simp
  | p :: l, d, h => by
    rw [List.foldl_cons, insertKey_last]
    · rw [foldl_insertKey l (d ++ [(p.1, p.2)]) (by simpa using h)]
      simp
    · intro q hq
      have := List.pairwise_append.1 h
      exact this.2.2 q hq p (by simp)

theorem dictOf_sorted {α : Type} {l : List (Str × α)} (h : Sorted l) : dictOf l = l := by
  have := foldl_insertKey l [] (by simpa using h)
  simpa [dictOf] using this

theorem mem_insertKey {α : Type} {k : Str} {v : α} {q : Str × α} : ∀ {l : List (Str × α)},
    q ∈ insertKey k v l → q = (k, v) ∨ q ∈ l
  | [], h => by simpa [insertKey] using h
  | (a, w) :: rest, h => by
    rw [insertKey] at h
    split at h
    · rcases List.mem_cons.1 h with h | h
      · exact .inl h
      · exact .inr (by simp [h])
    · split at h
      · rcases List.mem_cons.1 h with h | h
        · exact .inl h
        · exact .inr h
      · rcases List.mem_cons.1 h with h | h
        · exact .inr (by simp [h])
        · rcases mem_insertKey h with h | h
          · exact .inl h
          · exact .inr (by simp [h])

theorem insertKey_sorted {α : Type} {k : Str} {v : α} : ∀ {l : List (Str × α)}, Sorted l →
    Sorted (insertKey k v l)
  | [], _ => by simp [insertKey, Sorted]
  | (a, w) :: rest, h => by
    obtain ⟨h1, h2⟩ := List.pairwise_cons.1 h
    rw [insertKey]
    split
    · rename_i hk
      subst hk
      exact List.pairwise_cons.2 ⟨h1, h2⟩
    · rename_i hk
      split
      · rename_i hlt
        refine List.pairwise_cons.2 ⟨?_, h⟩
        intro q hq
        rcases List.mem_cons.1 hq with rfl | hq
        · exact hlt
        · exact strLt_trans _ _ _ hlt (h1 q hq)
      · rename_i hlt
        refine List.pairwise_cons.2 ⟨?_, insertKey_sorted h2⟩
        intro q hq
        rcases mem_insertKey hq with rfl | hq
        · exact strLt_total _ _ hk (by simpa using hlt)
        · exact h1 q hq

theorem foldl_sorted {α : Type} : ∀ (l d : List (Str × α)), Sorted d →
    Sorted (l.foldl (fun d p => insertKey p.1 p.2 d) d)
  | [], _, h => h
  | _ :: l, _, h => foldl_sorted l _ (insertKey_sorted h)

/-- A dict has its keys in order. -/
theorem sorted_dictOf {α : Type} (l : List (Str × α)) : Sorted (dictOf l) :=
  foldl_sorted l [] .nil

theorem lookup_cons_if {α : Type} {k j : Str} {v : α} {l : List (Str × α)} :
    ((k, v) :: l).lookup j = if j = k then some v else l.lookup j := by
  rw [List.lookup_cons]
  by_cases h : j = k
  · subst h
    simp
  · have : (j == k) = false := by simpa using h
    rw [this, if_neg h]

theorem lookup_insertKey {α : Type} {k j : Str} {v : α} : ∀ (l : List (Str × α)),
    (insertKey k v l).lookup j = if j = k then some v else l.lookup j
  | [] => by rw [insertKey, lookup_cons_if]
  | (a, w) :: rest => by
    rw [insertKey]
    split
    · rename_i hk
      subst hk
      simp only [lookup_cons_if]
      by_cases h : j = k <;> simp [h]
    · rename_i hk
      split
      · rw [lookup_cons_if]
      · rw [lookup_cons_if, lookup_cons_if, lookup_insertKey rest]
        by_cases h : j = k
        · subst h
          simp [hk]
        · simp [h]

theorem lookup_foldl {α : Type} {j : Str} : ∀ (l d : List (Str × α)), (l.map Prod.fst).Nodup →
    (l.foldl (fun d p => insertKey p.1 p.2 d) d).lookup j = (l.lookup j).or (d.lookup j)
  | [], d, _ => by simp
  | (k, v) :: l, d, h => by
    rw [List.map_cons, List.nodup_cons] at h
    rw [List.foldl_cons, lookup_foldl l _ h.2, lookup_insertKey, lookup_cons_if]
    by_cases hj : j = k
    · subst hj
      have : l.lookup j = none := by
        rw [List.lookup_eq_none_iff]
        intro p hp
        simp only [beq_eq_false_iff_ne, bne_iff_ne, ne_eq]
        rintro rfl
        exact h.1 (List.mem_map.2 ⟨p, hp, rfl⟩)
      simp [this]
    · simp [hj]

/-- A dict from pairs with different keys has these items. -/
theorem lookup_dictOf {α : Type} {l : List (Str × α)} (h : (l.map Prod.fst).Nodup) (j : Str) :
    (dictOf l).lookup j = l.lookup j := by
  unfold dictOf
  rw [lookup_foldl l [] h]
  simp

/-! ### Numbers -/

theorem digit_toNat (n : Nat) : (digit n).toNat = 48 + n % 10 := by
  unfold digit
  have h : n % 10 < 10 := Nat.mod_lt _ (by decide)
  have : ∀ k : Fin 10, (Char.ofNat (48 + k.val)).toNat = 48 + k.val := by decide
  exact this ⟨n % 10, h⟩

theorem isDigit_digit (n : Nat) : isDigit (digit n) = true := by
  have h : n % 10 < 10 := Nat.mod_lt _ (by decide)
  simp only [isDigit, digit_toNat, Bool.and_eq_true, decide_eq_true_eq]
  omega

theorem decimal_digits (n : Nat) : ∀ c ∈ decimal n, isDigit c = true := by
  induction n using Nat.strongRecOn with
  | _ n ih =>
    rw [decimal]
    split
    · simp [isDigit_digit]
    · intro c hc
      rcases List.mem_append.1 hc with hc | hc
      · exact ih (n / 10) (by omega) c hc
      · simp only [List.mem_singleton] at hc
        subst hc
        exact isDigit_digit n

theorem numOf_append (a : Str) (c : Char) : numOf (a ++ [c]) = 10 * numOf a + (c.toNat - 48) := by
  simp [numOf]

theorem numOf_decimal (n : Nat) : numOf (decimal n) = n := by
  induction n using Nat.strongRecOn with
  | _ n ih =>
    rw [decimal]
    split
    · rename_i h
      simp [numOf, digit_toNat, Nat.mod_eq_of_lt h]
    · rw [numOf_append, ih (n / 10) (by omega), digit_toNat]
      omega

/-- A number above zero does not begin with the digit zero. -/
theorem decimal_head (n : Nat) : ∃ c r, decimal n = c :: r ∧ isDigit c = true ∧
    (c = '0' → n = 0 ∧ r = []) := by
  induction n using Nat.strongRecOn with
  | _ n ih =>
    rw [decimal]
    split
    · rename_i h
      refine ⟨digit n, [], rfl, isDigit_digit n, ?_⟩
      intro he
      have := digit_toNat n
      rw [he, Nat.mod_eq_of_lt h] at this
      have h0 : ('0' : Char).toNat = 48 := rfl
      rw [h0] at this
      exact ⟨by omega, rfl⟩
    · obtain ⟨c, r, h1, h2, h3⟩ := ih (n / 10) (by omega)
      refine ⟨c, r ++ [digit n], by rw [h1]; rfl, h2, ?_⟩
      intro he
      have := (h3 he).1
      omega

theorem spanDigits_append {a r : Str} (ha : ∀ c ∈ a, isDigit c = true)
    (hr : ∀ c r', r = c :: r' → isDigit c = false) : spanDigits (a ++ r) = (a, r) := by
  induction a with
  | nil =>
    cases r with
    | nil => rfl
    | cons c r' => simp [spanDigits, hr c r' rfl]
  | cons c a ih =>
    rw [List.cons_append, spanDigits, if_pos (ha c (by simp)), ih fun c hc => ha c (by simp [hc])]
    rfl

/-- What may follow a value. -/
def Stop (r : Str) : Prop := ∀ c r', r = c :: r' → c = ',' ∨ c = ']' ∨ c = '}' ∨ c = '\n'

theorem Stop.nil : Stop [] := by
  intro c r' h
  cases h

theorem Stop.digit {r : Str} (h : Stop r) : ∀ c r', r = c :: r' → isDigit c = false := by
  intro c r' hc
  rcases h c r' hc with rfl | rfl | rfl | rfl <;> rfl

theorem parseFrac_stop {r : Str} (h : Stop r) : parseFrac r = ([], r) := by
  cases r with
  | nil => rfl
  | cons c r' => rcases h c r' rfl with rfl | rfl | rfl | rfl <;> rfl

theorem parseExp_stop {r : Str} (h : Stop r) : parseExp r = ([], r) := by
  cases r with
  | nil => rfl
  | cons c r' => rcases h c r' rfl with rfl | rfl | rfl | rfl <;> rfl

theorem parseNatural_decimal (n : Nat) {r : Str} (h : Stop r) :
    parseNatural (decimal n ++ r) = some (decimal n, r) := by
  obtain ⟨c, d, h1, h2, h3⟩ := decimal_head n
  have hsp : spanDigits (decimal n ++ r) = (decimal n, r) :=
    spanDigits_append (decimal_digits n) h.digit
  unfold parseNatural
  split
  · rename_i r' he
    rw [h1, List.cons_append] at he
    obtain ⟨rfl, he⟩ := List.cons.inj he
    obtain ⟨-, rfl⟩ := h3 rfl
    rw [h1]
    simpa using he.symm
  · rw [hsp]
    split
    · rename_i he
      rw [Prod.mk.injEq, h1] at he
      exact absurd he.1 (by simp)
    · rfl

theorem parseUnsigned_decimal (fl : Str → Option Int × Str) (neg : Bool) (n : Nat) {r : Str}
    (h : Stop r) : parseUnsigned fl neg (decimal n ++ r) =
      some (.int (if neg then -(n : Int) else n), r) := by
  simp only [parseUnsigned, parseNatural_decimal n h, parseFrac_stop h, parseExp_stop h,
    numOf_decimal]
  simp

theorem parseNumber_write (fl : Str → Option Int × Str) (i : Int) {r : Str} (h : Stop r) :
    parseNumber fl (writeInt i ++ r) = some (.int i, r) := by
  cases i with
  | ofNat n =>
    have := parseUnsigned_decimal fl false n h
    obtain ⟨c, d, h1, h2, -⟩ := decimal_head n
    have hc : c ≠ '-' := by
      rintro rfl
      cases h2
    simp only [writeInt]
    rw [h1, List.cons_append] at this ⊢
    rw [parseNumber, if_neg hc, this]
    rfl
  | negSucc n =>
    rw [writeInt, List.cons_append, parseNumber, if_pos rfl, parseUnsigned_decimal fl true _ h]
    rfl

/-! ### Texts -/

theorem hexVal_hexDigit : ∀ k : Fin 16, hexVal (hexDigit k.val) = some k.val := by decide

theorem escapeChar_ne_nil (c : Char) : 1 ≤ (escapeChar c).length := by
  unfold escapeChar
  repeat' split
  all_goals simp

theorem parseString_char (c : Char) (n : Nat) (r : Str) :
    parseString (n + 1) (escapeChar c ++ r) =
      (parseString n r).map fun p => (c :: p.1, p.2) := by
  have lit : ∀ (e x : Char), backslash e = some x → e ≠ 'u' →
      parseString (n + 1) (['\\', e] ++ r) = (parseString n r).map fun p => (x :: p.1, p.2) := by
    intro e x hx he
    simp only [List.cons_append, List.nil_append, parseString]
    rw [if_neg (by decide), if_pos trivial, if_neg he, hx]
    cases parseString n r <;> rfl
  unfold escapeChar
  split
  · rename_i h; subst h; exact lit '"' _ rfl (by decide)
  split
  · rename_i h; subst h; exact lit '\\' _ rfl (by decide)
  split
  · rename_i h; subst h; exact lit 'n' _ rfl (by decide)
  split
  · rename_i h; subst h; exact lit 'r' _ rfl (by decide)
  split
  · rename_i h; subst h; exact lit 't' _ rfl (by decide)
  split
  · rename_i h; subst h; exact lit 'f' _ rfl (by decide)
  split
  · rename_i h; subst h; exact lit 'b' _ rfl (by decide)
  split
  · rename_i h
    have hx : parseUnicode (['0', '0', hexDigit (c.toNat / 16), hexDigit (c.toNat % 16)] ++ r) =
        some (c, r) := by
      have h1 := hexVal_hexDigit ⟨c.toNat / 16, by omega⟩
      have h2 := hexVal_hexDigit ⟨c.toNat % 16, by omega⟩
      have h0 : hexVal '0' = some 0 := rfl
      simp only at h1 h2
      have h4 : parseHex4 (['0', '0', hexDigit (c.toNat / 16), hexDigit (c.toNat % 16)] ++ r) =
          some (c.toNat, r) := by
        simp only [List.cons_append, List.nil_append, parseHex4, h0, h1, h2, Option.bind_eq_bind,
          Option.bind_some]
        congr 2
        omega
      unfold parseUnicode
      rw [h4]
      simp only
      rw [if_neg (by omega), if_neg (by omega)]
      simp
    simp only [List.cons_append, List.nil_append] at hx ⊢
    rw [parseString]
    simp only
    rw [if_neg (by decide), if_pos trivial, if_pos trivial, hx]
    simp only [Option.bind_eq_bind, Option.bind_some]
    cases parseString n r <;> rfl
  · rename_i h1 h2 h3 h4 h5 h6 h7 h8
    simp only [List.cons_append, List.nil_append, parseString, h1, h2, h8, if_false]
    cases parseString n r <;> rfl

theorem parseString_quote (s r : Str) : ∀ n, s.length < n →
    parseString n (s.flatMap escapeChar ++ '"' :: r) = some (s, r) := by
  induction s with
  | nil =>
    intro n hn
    obtain ⟨m, rfl⟩ : ∃ m, n = m + 1 := ⟨n - 1, by omega⟩
    simp [parseString]
  | cons c s ih =>
    intro n hn
    rw [List.length_cons] at hn
    obtain ⟨m, rfl⟩ : ∃ m, n = m + 1 := ⟨n - 1, by omega⟩
    rw [List.flatMap_cons, List.append_assoc, parseString_char, ih m (by omega)]
    rfl

theorem length_flatMap_escape (s : Str) : s.length ≤ (s.flatMap escapeChar).length := by
  induction s with
  | nil => simp
  | cons c s ih =>
    have := escapeChar_ne_nil c
    simp only [List.flatMap_cons, List.length_append, List.length_cons]
    omega

/-- As the parser calls it. -/
theorem parseString_body (s r : Str) :
    parseString ((s.flatMap escapeChar ++ '"' :: r).length + 1) (s.flatMap escapeChar ++ '"' :: r) =
      some (s, r) := by
  refine parseString_quote s r _ ?_
  have := length_flatMap_escape s
  simp only [List.length_append, List.length_cons]
  omega

/-! ### Values -/

mutual
/-- A value as `json.loads` returns it, without floats: all dicts have their keys in order. -/
def Clean : Json → Prop
  | .flt _ _ => False
  | .arr l => CleanArr l
  | .obj l => Sorted l ∧ CleanObj l
  | _ => True
def CleanArr : List Json → Prop
  | [] => True
  | a :: as => Clean a ∧ CleanArr as
def CleanObj : List (Str × Json) → Prop
  | [] => True
  | (_, a) :: as => Clean a ∧ CleanObj as
end

mutual
/-- How deep the calls of the parser go. -/
def size : Json → Nat
  | .arr l => 1 + sizeArr l
  | .obj l => 1 + sizeObj l
  | _ => 1
def sizeArr : List Json → Nat
  | [] => 0
  | a :: as => 1 + size a + sizeArr as
def sizeObj : List (Str × Json) → Nat
  | [] => 0
  | (_, a) :: as => 1 + size a + sizeObj as
end

/-- Separators with only spaces after the comma and the colon. -/
structure StyleOk (st : Style) : Prop where
  item : ∃ n, st.item = ',' :: List.replicate n ' '
  key : ∃ n, st.key = ':' :: List.replicate n ' '

theorem compact_ok : StyleOk compact := ⟨⟨0, rfl⟩, ⟨0, rfl⟩⟩
theorem spaced_ok : StyleOk spaced := ⟨⟨1, rfl⟩, ⟨1, rfl⟩⟩

/-- A character a value begins with. -/
def Opens (c : Char) : Prop :=
  c = 'n' ∨ c = 't' ∨ c = 'f' ∨ c = '"' ∨ c = '[' ∨ c = '{' ∨ c = '-' ∨ isDigit c = true

theorem write_head (st : Style) {v : Json} (hv : Clean v) : ∃ c r, write st v = c :: r ∧ Opens c := by
  cases v with
  | null => exact ⟨_, _, by rw [write], by simp [Opens]⟩
  | bool b => cases b <;> exact ⟨_, _, by rw [write], by simp [Opens]⟩
  | int i =>
    cases i with
    | ofNat n =>
      obtain ⟨c, r, h1, h2, -⟩ := decimal_head n
      exact ⟨c, r, by rw [write, writeInt, h1], by simp [Opens, h2]⟩
    | negSucc n => exact ⟨'-', _, by rw [write, writeInt], by simp [Opens]⟩
  | flt w t => simp [Clean] at hv
  | str s => exact ⟨'"', _, by rw [write, quote, List.cons_append], by simp [Opens]⟩
  | arr l => exact ⟨'[', _, by rw [write], by simp [Opens]⟩
  | obj l => exact ⟨'{', _, by rw [write], by simp [Opens]⟩

theorem Opens.skip {c : Char} (h : Opens c) (r : Str) : skipWs (c :: r) = c :: r := by
  rcases h with rfl | rfl | rfl | rfl | rfl | rfl | rfl | h
  all_goals try rfl
  rw [skipWs, if_neg]
  rintro (rfl | rfl | rfl | rfl) <;> cases h

theorem Opens.ne {c : Char} (h : Opens c) : c ≠ ']' ∧ c ≠ '}' := by
  rcases h with rfl | rfl | rfl | rfl | rfl | rfl | rfl | h
  all_goals try decide
  constructor <;> rintro rfl <;> cases h

theorem skip_spaces (n : Nat) {c : Char} (h : Opens c) (r : Str) :
    skipWs (List.replicate n ' ' ++ c :: r) = c :: r := by
  induction n with
  | zero => exact h.skip r
  | succ n ih => rw [List.replicate_succ, List.cons_append, skipWs, if_pos (.inl rfl), ih]

/-- `parseValue` on a number. -/
theorem parseValue_number (fl : Str → Option Int × Str) (n : Nat) {i : Int} {r : Str} (h : Stop r) :
    parseValue fl (n + 1) (writeInt i ++ r) = some (.int i, r) := by
  have key := parseNumber_write fl i h
  have hd : ∃ c t, writeInt i ++ r = c :: t ∧ (isDigit c = true ∨ c = '-' ∧
      ∃ d t', t = d :: t' ∧ isDigit d = true) := by
    cases i with
    | ofNat n =>
      obtain ⟨c, d, h1, h2, -⟩ := decimal_head n
      exact ⟨c, d ++ r, by rw [writeInt, h1]; rfl, .inl h2⟩
    | negSucc n =>
      obtain ⟨c, d, h1, h2, -⟩ := decimal_head (n + 1)
      exact ⟨'-', c :: d ++ r, by rw [writeInt, h1]; rfl, .inr ⟨rfl, c, d ++ r, rfl, h2⟩⟩
  obtain ⟨c, t, h1, h2⟩ := hd
  rw [h1] at key ⊢
  rw [parseValue]
  · exact key
  all_goals
    intro _ he
    obtain ⟨rfl, rfl⟩ := List.cons.inj he
    rcases h2 with h2 | ⟨h2, d, t', h3, h4⟩
    · cases h2
    · first
      | (cases h2; done)
      | (obtain ⟨rfl, -⟩ := List.cons.inj h3; cases h4)

mutual
theorem parse_write {st : Style} (hst : StyleOk st) (fl : Str → Option Int × Str) :
    ∀ (v : Json) (n : Nat) (r : Str), Clean v → Stop r → size v ≤ n →
      parseValue fl n (write st v ++ r) = some (v, r)
  | .null, n, r, _, _, hn => by
    obtain ⟨m, rfl⟩ : ∃ m, n = m + 1 := ⟨n - 1, by simp only [size] at hn; omega⟩
    simp [write, parseValue]
  | .bool true, n, r, _, _, hn => by
    obtain ⟨m, rfl⟩ : ∃ m, n = m + 1 := ⟨n - 1, by simp only [size] at hn; omega⟩
    simp [write, parseValue]
  | .bool false, n, r, _, _, hn => by
    obtain ⟨m, rfl⟩ : ∃ m, n = m + 1 := ⟨n - 1, by simp only [size] at hn; omega⟩
    simp [write, parseValue]
  | .int i, n, r, _, hr, hn => by
    obtain ⟨m, rfl⟩ : ∃ m, n = m + 1 := ⟨n - 1, by simp only [size] at hn; omega⟩
    rw [write]
    exact parseValue_number fl m hr
  | .flt _ _, _, _, h, _, _ => by simp [Clean] at h
  | .str s, n, r, _, _, hn => by
    obtain ⟨m, rfl⟩ : ∃ m, n = m + 1 := ⟨n - 1, by simp only [size] at hn; omega⟩
    have := parseString_body s r
    rw [write, quote, List.cons_append, List.cons_append, List.append_assoc, List.singleton_append,
      parseValue]
    simp only [this]
    rfl
  | .arr [], n, r, _, _, hn => by
    obtain ⟨m, rfl⟩ : ∃ m, n = m + 1 := ⟨n - 1, by simp only [size] at hn; omega⟩
    simp [write, writeArr, parseValue, skipWs]
  | .arr (a :: as), n, r, hv, hr, hn => by
    rw [Clean] at hv
    rw [size] at hn
    obtain ⟨m, rfl⟩ : ∃ m, n = m + 1 := ⟨n - 1, by omega⟩
    have ih := parse_arr hst fl a as m r hv (by omega)
    obtain ⟨c, t, h1, h2⟩ := write_head st (by rw [CleanArr] at hv; exact hv.1)
    have h3 : writeArr st true (a :: as) ++ r = c :: (t ++ (writeArr st false as ++ r)) := by
      rw [writeArr, h1]
      simp
    rw [h3] at ih
    rw [write, List.cons_append, parseValue, h3]
    simp only [h2.skip]
    split
    · rename_i he
      exact (h2.ne.1 (List.cons.inj he).1).elim
    · rw [ih]
      rfl
  | .obj [], n, r, _, _, hn => by
    obtain ⟨m, rfl⟩ : ∃ m, n = m + 1 := ⟨n - 1, by simp only [size] at hn; omega⟩
    simp [write, writeObj, parseValue, skipWs]
  | .obj ((k, a) :: as), n, r, hv, hr, hn => by
    rw [Clean] at hv
    rw [size] at hn
    obtain ⟨m, rfl⟩ : ∃ m, n = m + 1 := ⟨n - 1, by omega⟩
    have ih := parse_obj hst fl k a as m r hv.2 (by omega)
    have h3 : ∃ t, writeObj st true ((k, a) :: as) ++ r = '"' :: t := by
      rw [writeObj, quote]
      exact ⟨_, by simp; rfl⟩
    obtain ⟨t, h3⟩ := h3
    rw [h3] at ih
    rw [write, List.cons_append, parseValue, h3]
    have h4 : skipWs ('"' :: t) = '"' :: t := rfl
    simp only [h4]
    split
    · rename_i he
      exact absurd (List.cons.inj he).1 (by decide)
    · rw [ih]
      simp [dictOf_sorted hv.1]
  termination_by v => sizeOf v
  decreasing_by all_goals (simp_wf; try omega)
theorem parse_arr {st : Style} (hst : StyleOk st) (fl : Str → Option Int × Str) :
    ∀ (a : Json) (as : List Json) (n : Nat) (r : Str), CleanArr (a :: as) →
      sizeArr (a :: as) ≤ n →
      parseElements fl n (writeArr st true (a :: as) ++ r) = some (a :: as, r)
  | a, [], n, r, hv, hn => by
    rw [sizeArr] at hn
    rw [CleanArr] at hv
    obtain ⟨m, rfl⟩ : ∃ m, n = m + 1 := ⟨n - 1, by omega⟩
    have ih := parse_write hst fl a m (']' :: r) hv.1
      (by intro c r' h; obtain ⟨rfl, -⟩ := List.cons.inj h; simp) (by omega)
    simp only [writeArr, if_true, List.nil_append, List.append_assoc, List.singleton_append]
    rw [parseElements, ih]
    simp [skipWs]
  | a, b :: bs, n, r, hv, hn => by
    rw [sizeArr] at hn
    rw [CleanArr] at hv
    obtain ⟨m, rfl⟩ : ∃ m, n = m + 1 := ⟨n - 1, by omega⟩
    obtain ⟨w, hw⟩ := hst.item
    have ih1 := parse_write hst fl a m (writeArr st false (b :: bs) ++ r) hv.1 (by
      intro c r' h
      rw [writeArr, hw] at h
      obtain ⟨rfl, -⟩ := List.cons.inj h
      simp) (by omega)
    have ih2 := parse_arr hst fl b bs m r hv.2 (by omega)
    obtain ⟨c, t, h1, h2⟩ := write_head st (by rw [CleanArr] at hv; exact hv.2.1)
    have h3 : writeArr st true (b :: bs) ++ r = c :: (t ++ (writeArr st false bs ++ r)) := by
      rw [writeArr, h1]
      simp
    have h4 : writeArr st false (b :: bs) ++ r =
        ',' :: (List.replicate w ' ' ++ (writeArr st true (b :: bs) ++ r)) := by
      rw [writeArr, writeArr, hw]
      simp
    have h5 : skipWs (List.replicate w ' ' ++ (writeArr st true (b :: bs) ++ r)) =
        writeArr st true (b :: bs) ++ r := by
      rw [h3]
      exact skip_spaces w h2 _
    have h6 : writeArr st true (a :: b :: bs) ++ r =
        write st a ++ (writeArr st false (b :: bs) ++ r) := by
      rw [writeArr]
      simp
    rw [h6, parseElements, ih1, h4]
    have h7 : ∀ x, skipWs (',' :: x) = ',' :: x := fun _ => rfl
    simp only [Option.bind_eq_bind, Option.bind_some, h7, h5, ih2]
  termination_by a as => sizeOf (a :: as)
  decreasing_by all_goals (simp_wf; try omega)
theorem parse_obj {st : Style} (hst : StyleOk st) (fl : Str → Option Int × Str) :
    ∀ (k : Str) (a : Json) (as : List (Str × Json)) (n : Nat) (r : Str),
      CleanObj ((k, a) :: as) → sizeObj ((k, a) :: as) ≤ n →
      parseMembers fl n (writeObj st true ((k, a) :: as) ++ r) = some ((k, a) :: as, r)
  | k, a, [], n, r, hv, hn => by
    rw [sizeObj] at hn
    rw [CleanObj] at hv
    obtain ⟨m, rfl⟩ : ∃ m, n = m + 1 := ⟨n - 1, by omega⟩
    obtain ⟨w, hw⟩ := hst.key
    have ih := parse_write hst fl a m ('}' :: r) hv.1
      (by intro c r' h; obtain ⟨rfl, -⟩ := List.cons.inj h; simp) (by omega)
    obtain ⟨c, t, h1, h2⟩ := write_head st hv.1
    have hs := parseString_body k (st.key ++ (write st a ++ ('}' :: r)))
    have h6 : writeObj st true ((k, a) :: []) ++ r =
        '"' :: (k.flatMap escapeChar ++ '"' :: (st.key ++ (write st a ++ ('}' :: r)))) := by
      simp [writeObj, quote]
    have h7 : ∀ x, skipWs (':' :: x) = ':' :: x := fun _ => rfl
    have h8 : ∀ x, skipWs ('}' :: x) = '}' :: x := fun _ => rfl
    have h5 : skipWs (List.replicate w ' ' ++ (write st a ++ ('}' :: r))) =
        write st a ++ ('}' :: r) := by
      rw [h1]
      exact skip_spaces w h2 _
    rw [h6, parseMembers, hs]
    simp only [Option.bind_eq_bind, Option.bind_some, hw, List.cons_append, h7, h5, ih, h8]
  | k, a, (k', b) :: bs, n, r, hv, hn => by
    rw [sizeObj] at hn
    rw [CleanObj] at hv
    obtain ⟨m, rfl⟩ : ∃ m, n = m + 1 := ⟨n - 1, by omega⟩
    obtain ⟨w, hw⟩ := hst.key
    obtain ⟨w', hw'⟩ := hst.item
    have ih1 := parse_write hst fl a m (writeObj st false ((k', b) :: bs) ++ r) hv.1 (by
      intro c r' h
      rw [writeObj, hw'] at h
      obtain ⟨rfl, -⟩ := List.cons.inj h
      simp) (by omega)
    have ih2 := parse_obj hst fl k' b bs m r hv.2 (by omega)
    obtain ⟨c, t, h1, h2⟩ := write_head st hv.1
    have hs := parseString_body k (st.key ++ (write st a ++ (writeObj st false ((k', b) :: bs) ++ r)))
    have h3 : ∃ t, writeObj st true ((k', b) :: bs) ++ r = '"' :: t := by
      rw [writeObj, quote]
      exact ⟨_, by simp; rfl⟩
    obtain ⟨t', h3⟩ := h3
    have h4 : writeObj st false ((k', b) :: bs) ++ r =
        ',' :: (List.replicate w' ' ' ++ (writeObj st true ((k', b) :: bs) ++ r)) := by
      rw [writeObj, writeObj, hw']
      simp
    have h5 : skipWs (List.replicate w' ' ' ++ (writeObj st true ((k', b) :: bs) ++ r)) =
        writeObj st true ((k', b) :: bs) ++ r := by
      rw [h3]
      exact skip_spaces w' (by simp [Opens]) _
    have h6 : writeObj st true ((k, a) :: (k', b) :: bs) ++ r =
        '"' :: (k.flatMap escapeChar ++ '"' :: (st.key ++ (write st a ++
          (writeObj st false ((k', b) :: bs) ++ r)))) := by
      rw [writeObj]
      simp [quote]
    have h7 : ∀ x, skipWs (':' :: x) = ':' :: x := fun _ => rfl
    have h8 : ∀ x, skipWs (',' :: x) = ',' :: x := fun _ => rfl
    have h9 : ∀ x, skipWs (List.replicate w ' ' ++ (write st a ++ x)) = write st a ++ x := by
      intro x
      rw [h1]
      exact skip_spaces w h2 _
    rw [h6, parseMembers, hs]
    simp only [Option.bind_eq_bind, Option.bind_some, hw, List.cons_append, h7, h9, ih1]
    rw [h4]
    simp only [h8, h5, ih2, Option.bind_some]
  termination_by k a as => sizeOf ((k, a) :: as)
  decreasing_by all_goals (simp_wf; try omega)
end

/-! ### Lengths -/

theorem one_le_writeInt (i : Int) : 1 ≤ (writeInt i).length := by
  cases i with
  | ofNat n =>
    obtain ⟨c, r, h, -⟩ := decimal_head n
    rw [writeInt, h]
    simp
  | negSucc n => simp [writeInt]

mutual
theorem size_write (st : Style) : ∀ v : Json, Clean v → size v + 1 ≤ 2 * (write st v).length
  | .null, _ => by simp [size, write]
  | .bool true, _ => by simp [size, write]
  | .bool false, _ => by simp [size, write]
  | .int i, _ => by
    have := one_le_writeInt i
    simp only [size, write]
    omega
  | .flt _ _, h => by simp [Clean] at h
  | .str s, _ => by
    simp only [size, write, quote, List.length_append, List.length_cons, List.length_nil]
    omega
  | .arr l, h => by
    rw [Clean] at h
    have := size_writeArr st true l h
    rw [size, write, List.length_cons]
    omega
  | .obj l, h => by
    rw [Clean] at h
    have := size_writeObj st true l h.2
    rw [size, write, List.length_cons]
    omega
theorem size_writeArr (st : Style) (first : Bool) : ∀ l : List Json, CleanArr l →
    sizeArr l + 2 ≤ 2 * (writeArr st first l).length
  | [], _ => by simp [sizeArr, writeArr]
  | a :: as, h => by
    rw [CleanArr] at h
    have h1 := size_write st a h.1
    have h2 := size_writeArr st false as h.2
    rw [sizeArr, writeArr]
    simp only [List.length_append]
    omega
theorem size_writeObj (st : Style) (first : Bool) : ∀ l : List (Str × Json), CleanObj l →
    sizeObj l + 2 ≤ 2 * (writeObj st first l).length
  | [], _ => by simp [sizeObj, writeObj]
  | (k, a) :: as, h => by
    rw [CleanObj] at h
    have h1 := size_write st a h.1
    have h2 := size_writeObj st false as h.2
    rw [sizeObj, writeObj]
    simp only [List.length_append]
    omega
end

/-! ### Canonical values -/

mutual
/-- Without floats. -/
def NoFloat : Json → Prop
  | .flt _ _ => False
  | .arr l => NoFloatArr l
  | .obj l => NoFloatObj l
  | _ => True
def NoFloatArr : List Json → Prop
  | [] => True
  | a :: as => NoFloat a ∧ NoFloatArr as
def NoFloatObj : List (Str × Json) → Prop
  | [] => True
  | (_, a) :: as => NoFloat a ∧ NoFloatObj as
end

theorem cleanObj_iff {l : List (Str × Json)} : CleanObj l ↔ ∀ p ∈ l, Clean p.2 := by
  induction l with
  | nil => simp [CleanObj]
  | cons p l ih =>
    obtain ⟨k, a⟩ := p
    rw [CleanObj, ih]
    simp

theorem mem_foldl_insertKey {α : Type} {q : Str × α} : ∀ (l d : List (Str × α)),
    q ∈ l.foldl (fun d p => insertKey p.1 p.2 d) d → q ∈ d ∨ q ∈ l
  | [], _, h => .inl h
  | p :: l, d, h => by
    rcases mem_foldl_insertKey l _ h with h | h
    · rcases mem_insertKey h with h | h
      · subst h
        exact .inr (by simp)
      · exact .inl h
    · exact .inr (by simp [h])

theorem mem_dictOf {α : Type} {q : Str × α} {l : List (Str × α)} (h : q ∈ dictOf l) : q ∈ l := by
  rcases mem_foldl_insertKey l [] h with h | h
  · cases h
  · exact h

mutual
theorem clean_canon : ∀ v : Json, NoFloat v → Clean (canon v)
  | .null, _ => by simp [canon, Clean]
  | .bool _, _ => by simp [canon, Clean]
  | .int _, _ => by simp [canon, Clean]
  | .flt _ _, h => by simp [NoFloat] at h
  | .str _, _ => by simp [canon, Clean]
  | .arr l, h => by
    rw [NoFloat] at h
    rw [canon, Clean]
    exact clean_canonArr l h
  | .obj l, h => by
    rw [NoFloat] at h
    rw [canon, Clean]
    refine ⟨sorted_dictOf _, cleanObj_iff.2 fun p hp => ?_⟩
    exact cleanObj_iff.1 (clean_canonObj l h) p (mem_dictOf hp)
theorem clean_canonArr : ∀ l : List Json, NoFloatArr l → CleanArr (canonArr l)
  | [], _ => by simp [canonArr, CleanArr]
  | a :: as, h => by
    rw [NoFloatArr] at h
    rw [canonArr, CleanArr]
    exact ⟨clean_canon a h.1, clean_canonArr as h.2⟩
theorem clean_canonObj : ∀ l : List (Str × Json), NoFloatObj l → CleanObj (canonObj l)
  | [], _ => by simp [canonObj, CleanObj]
  | (k, a) :: as, h => by
    rw [NoFloatObj] at h
    rw [canonObj, CleanObj]
    exact ⟨clean_canon a h.1, clean_canonObj as h.2⟩
end

mutual
theorem canon_clean : ∀ v : Json, Clean v → canon v = v
  | .null, _ => by simp [canon]
  | .bool _, _ => by simp [canon]
  | .int _, _ => by simp [canon]
  | .flt _ _, h => by simp [Clean] at h
  | .str _, _ => by simp [canon]
  | .arr l, h => by
    rw [Clean] at h
    rw [canon, canonArr_clean l h]
  | .obj l, h => by
    rw [Clean] at h
    rw [canon, canonObj_clean l h.2, dictOf_sorted h.1]
theorem canonArr_clean : ∀ l : List Json, CleanArr l → canonArr l = l
  | [], _ => by simp [canonArr]
  | a :: as, h => by
    rw [CleanArr] at h
    rw [canonArr, canon_clean a h.1, canonArr_clean as h.2]
theorem canonObj_clean : ∀ l : List (Str × Json), CleanObj l → canonObj l = l
  | [], _ => by simp [canonObj]
  | (k, a) :: as, h => by
    rw [CleanObj] at h
    rw [canonObj, canon_clean a h.1, canonObj_clean as h.2]
end

mutual
theorem Clean.noFloat : ∀ v : Json, Clean v → NoFloat v
  | .null, _ => by simp [NoFloat]
  | .bool _, _ => by simp [NoFloat]
  | .int _, _ => by simp [NoFloat]
  | .flt _ _, h => by simp [Clean] at h
  | .str _, _ => by simp [NoFloat]
  | .arr l, h => by
    rw [Clean] at h
    rw [NoFloat]
    exact CleanArr.noFloat l h
  | .obj l, h => by
    rw [Clean] at h
    rw [NoFloat]
    exact CleanObj.noFloat l h.2
theorem CleanArr.noFloat : ∀ l : List Json, CleanArr l → NoFloatArr l
  | [], _ => by simp [NoFloatArr]
  | a :: as, h => by
    rw [CleanArr] at h
    rw [NoFloatArr]
    exact ⟨Clean.noFloat a h.1, CleanArr.noFloat as h.2⟩
theorem CleanObj.noFloat : ∀ l : List (Str × Json), CleanObj l → NoFloatObj l
  | [], _ => by simp [NoFloatObj]
  | (k, a) :: as, h => by
    rw [CleanObj] at h
    rw [NoFloatObj]
    exact ⟨Clean.noFloat a h.1, CleanObj.noFloat as h.2⟩
end

/-! ### Whole texts -/

theorem loadText_write {st : Style} (hst : StyleOk st) (fl : Str → Option Int × Str) {v : Json}
    (hv : Clean v) {r : Str} (hr : r = [] ∨ r = ['\n']) :
    loadText fl (write st v ++ r) = some v := by
  obtain ⟨c, t, h1, h2⟩ := write_head st hv
  have h3 : skipWs (write st v ++ r) = write st v ++ r := by
    rw [h1]
    exact h2.skip _
  have h4 := size_write st v hv
  have h5 : Stop r := by
    rcases hr with rfl | rfl
    · exact Stop.nil
    · intro c r' h
      obtain ⟨rfl, -⟩ := List.cons.inj h
      simp
  have h6 := parse_write hst fl v (2 * (write st v ++ r).length + 2) r hv h5 (by
    simp only [List.length_append]
    omega)
  rw [loadText, h3, h6]
  simp only
  rw [if_pos]
  rcases hr with rfl | rfl <;> rfl

theorem decodeUtf8_encAll (s : Str) : decodeUtf8 (Cpp.encAll s) = some s := by
  have h : (Cpp.encAll s).toByteArray = s.utf8Encode := by
    rw [List.utf8Encode]
    rfl
  rw [decodeUtf8, h, List.utf8Decode?_utf8Encode]
  simp

theorem loadBytes_manifest (fl : Str → Option Int × Str) {v : Json} (hv : NoFloat v) :
    loadBytes fl (manifestBytes v) = some (canon v) := by
  rw [loadBytes, manifestBytes, decodeUtf8_encAll, dumpText]
  exact loadText_write spaced_ok fl (clean_canon v hv) (.inr rfl)

theorem loadBytes_canonical (fl : Str → Option Int × Str) {v : Json} (hv : NoFloat v) :
    loadBytes fl (canonicalJson v) = some (canon v) := by
  rw [loadBytes, canonicalJson, decodeUtf8_encAll, dumpText]
  have := loadText_write compact_ok fl (clean_canon v hv) (r := []) (.inl rfl)
  rwa [List.append_nil] at this

/-- Values that are written alike are the same. -/
theorem canonicalJson_injective {v w : Json} (hv : NoFloat v) (hw : NoFloat w)
    (h : canonicalJson v = canonicalJson w) : canon v = canon w := by
  have h1 := loadBytes_canonical (fun _ => (none, [])) hv
  rw [h, loadBytes_canonical _ hw] at h1
  exact (Option.some.inj h1).symm

end Verif.Cache
