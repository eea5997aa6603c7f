import Verif.Token.Model
import Verif.Token.Spec
import Mathlib.Data.List.TakeWhile

namespace Verif.Token
open Spec (NameChar IsName Spaces Value Fields Block Stream Tok)

/-- The canonical parser state with unread text `r`. -/
def S (t r : Str) : St :=
  match r with
  | [] => ⟨t, t.length - 1, none⟩
  | c :: _ => ⟨t, t.length - r.length, some c⟩

@[simp] theorem S_text (t r : Str) : (S t r).text = t := by cases r <;> rfl
@[simp] theorem S_char (t r : Str) : (S t r).char = r.head? := by cases r <;> rfl
theorem S_index_cons (t : Str) (c : Char) (r : Str) :
    (S t (c :: r)).index = t.length - (r.length + 1) := rfl

theorem suffix_tail {c : Char} {r t : Str} (h : c :: r <:+ t) : r <:+ t :=
  (List.suffix_cons c r).trans h

theorem read_S {t : Str} {c : Char} {r : Str} (h : c :: r <:+ t) :
    read (S t (c :: r)) = (!r.isEmpty, S t r) := by
  obtain ⟨p, rfl⟩ := h
  cases r with
  | nil => simp [read, S]
  | cons d r =>
    have hi : (S (p ++ c :: d :: r) (c :: d :: r)).index = p.length := by
      simp [S_index_cons]
    unfold read
    rw [hi, S_text, if_pos (by simp)]
    simp [S]
    omega

theorem parseKeyLoop_none {s : St} (h : s.char = none) (key : Str) :
    parseKeyLoop s key = (key, s) := by
  rw [parseKeyLoop]; split <;> simp_all

theorem parseKeyLoop_some {s : St} {c : Char} (h : s.char = some c) (key : Str) :
    parseKeyLoop s key =
      if isKeyChar c then parseKeyLoop (read s).2 (key ++ [c]) else (key, s) := by
  rw [parseKeyLoop]; split <;> simp_all

theorem parseValueLoop_none {s : St} (h : s.char = none) (value : Str) :
    parseValueLoop s value = .error (.unterminatedValue s.index) := by
  rw [parseValueLoop]; split <;> simp_all

theorem parseValueLoop_quote {s : St} (h : s.char = some '"') (value : Str) :
    parseValueLoop s value = .ok (value, s) := by
  rw [parseValueLoop]; split <;> simp_all

theorem parseValueLoop_plain {s : St} {c : Char} (h : s.char = some c) (h1 : c ≠ '"')
    (h2 : c ≠ '\\') (value : Str) :
    parseValueLoop s value = parseValueLoop (read s).2 (value ++ [c]) := by
  rw [parseValueLoop]; split
  · simp_all
  · simp_all

theorem parseValueLoop_esc_none {s : St} (h : s.char = some '\\')
    (h1 : (read s).2.char = none) (value : Str) :
    parseValueLoop s value = .error (.unterminatedEscape (read s).2.index) := by
  rw [parseValueLoop]; split
  · simp_all
  · rename_i c hc
    have : c = '\\' := by simp_all
    subst this
    simp only [if_true]
    rw [if_neg (by decide)]
    split
    · rfl
    · simp_all

theorem parseValueLoop_esc {s : St} {d : Char} (h : s.char = some '\\')
    (h1 : (read s).2.char = some d) (value : Str) :
    parseValueLoop s value = parseValueLoop (read (read s).2).2
      (value ++ if d = '"' ∨ d = '\\' then [d] else ['\\', d]) := by
  rw [parseValueLoop]; split
  · simp_all
  · rename_i c hc
    have : c = '\\' := by simp_all
    subst this
    simp only [if_true]
    rw [if_neg (by decide)]
    split
    · simp_all
    · rename_i d' hd
      have : d' = d := by simp_all
      subst this
      split <;> rfl

theorem parseWs_S {t r : Str} (h : r <:+ t) :
    parseWs (S t r) = (!(r.dropWhile (· == ' ')).isEmpty, S t (r.dropWhile (· == ' '))) := by
  have key : ∀ r : Str, r <:+ t → parseWsLoop (!r.isEmpty) (S t r) =
      (!(r.dropWhile (· == ' ')).isEmpty, S t (r.dropWhile (· == ' '))) := by
    intro r
    induction r with
    | nil => intro _; rw [parseWsLoop]; simp
    | cons c r ih =>
      intro h
      rw [parseWsLoop]
      by_cases hc : c = ' '
      · subst hc
        simp only [List.isEmpty_cons, Bool.not_false, S_char, List.head?_cons, and_self,
          dite_true, read_S h]
        rw [ih (suffix_tail h)]
        simp
      · have : (S t (c :: r)).char ≠ some ' ' := by simp [hc]
        simp [hc]
  unfold parseWs
  rw [← key r h]
  cases r <;> simp <;> rfl

theorem parseKeyLoop_S {t r : Str} (h : r <:+ t) (acc : Str) :
    parseKeyLoop (S t r) acc = (acc ++ r.takeWhile isKeyChar, S t (r.dropWhile isKeyChar)) := by
  induction r generalizing acc with
  | nil => rw [parseKeyLoop_none (by simp)]; simp
  | cons c r ih =>
    rw [parseKeyLoop_some (c := c) (by simp), read_S h]
    by_cases hc : isKeyChar c
    · simp only [hc, if_true]
      rw [ih (suffix_tail h)]
      simp [hc]
    · simp [hc]

theorem isKeyChar_iff (c : Char) : isKeyChar c = true ↔ NameChar c := by
  constructor
  · intro h
    have : ∀ c ∈ "abcdefghijklmnopqrstuvwxyzABCDEFGHIJKLMNOPQRSTUVWXYZ_".toList, NameChar c := by
      decide
    exact this c (by simpa [isKeyChar] using h)
  · intro h
    have h2 : ∀ n, n < 128 → NameChar (Char.ofNat n) → isKeyChar (Char.ofNat n) = true := by
      decide +kernel
    have hlt : c.toNat < 128 := by
      rcases h with ⟨_, h⟩ | ⟨_, h⟩ | h
      · have : c.val ≤ 'z'.val := h
        have : c.toNat ≤ 'z'.toNat := by simpa [UInt32.le_iff_toNat_le] using this
        have : 'z'.toNat = 122 := rfl
        omega
      · have : c.val ≤ 'Z'.val := h
        have : c.toNat ≤ 'Z'.toNat := by simpa [UInt32.le_iff_toNat_le] using this
        have : 'Z'.toNat = 90 := rfl
        omega
      · subst h; decide
    have := h2 c.toNat hlt
    rw [Char.ofNat_toNat] at this
    exact this h

theorem pyWhitespace_not_key {c : Char} (h : pyWhitespace.contains c = true) :
    isKeyChar c = false := by
  have : ∀ c ∈ pyWhitespace, isKeyChar c = false := by decide
  exact this c (by simpa using h)

theorem parseKey_S {t r : Str} (h : r <:+ t) (k : Str) (s' : St) :
    parseKey (S t r) = .ok (k, s') ↔
      k ≠ [] ∧ k = r.takeWhile isKeyChar ∧ s' = S t (r.dropWhile isKeyChar) := by
  unfold parseKey
  cases r with
  | nil =>
    simp only [S_char, List.head?_nil, List.takeWhile_nil]
    constructor
    · intro h; cases h
    · rintro ⟨h1, h2, _⟩; exact absurd h2 h1
  | cons c r =>
    simp only [S_char, List.head?_cons]
    by_cases hw : pyWhitespace.contains c
    · have hk := pyWhitespace_not_key hw
      simp only [hw, if_true]
      constructor
      · intro h; cases h
      · rintro ⟨h1, h2, _⟩
        simp [hk] at h2
        exact absurd h2 h1
    · simp only [hw]
      rw [parseKeyLoop_S h]
      simp only [List.nil_append]
      cases hk : (c :: r).takeWhile isKeyChar with
      | nil =>
        simp only
        constructor
        · intro h; cases h
        · rintro ⟨h1, h2, _⟩; exact absurd h2 h1
      | cons d ds =>
        constructor
        · intro h; cases h; exact ⟨by simp, rfl, rfl⟩
        · rintro ⟨_, rfl, rfl⟩; rfl

theorem parseCharsFrom_S {t r : Str} (h : r <:+ t) (start : Nat) (exp : Str) :
    (∀ s', parseCharsFrom start (S t r) exp = (true, s') ↔
      exp <+: r ∧ s' = S t (r.drop exp.length)) := by
  induction exp generalizing r with
  | nil =>
    intro s'
    simp [parseCharsFrom, eq_comm]
  | cons x xs ih =>
    intro s'
    unfold parseCharsFrom parseChar
    cases r with
    | nil => simp
    | cons c r =>
      by_cases hc : c = x
      · subst hc
        simp only [S_char, List.head?_cons, if_true, read_S h]
        rw [ih (suffix_tail h)]
        simp [List.cons_prefix_cons]
      · simp only [S_char, List.head?_cons, Option.some.injEq, hc, if_false]
        simp [List.cons_prefix_cons, eq_comm, hc]
        intro h; exact absurd h.symm hc

theorem expectChars_S {t r : Str} (h : r <:+ t) (exp : Str) (s' : St) :
    expectChars (S t r) exp = .ok s' ↔ ∃ rest, r = exp ++ rest ∧ s' = S t rest := by
  unfold expectChars parseChars
  have := parseCharsFrom_S h (S t r).index exp
  constructor
  · intro h1
    split at h1
    · rename_i s1 h2
      cases h1
      obtain ⟨⟨rest, h3⟩, h4⟩ := (this s').1 h2
      subst h3
      exact ⟨rest, rfl, by simpa using h4⟩
    · cases h1
  · rintro ⟨rest, rfl, rfl⟩
    rw [(this (S t rest)).2 ⟨List.prefix_append _ _, by simp⟩]

theorem suffix_of_append {a b t : Str} (h : a ++ b <:+ t) : b <:+ t :=
  (List.suffix_append a b).trans h

theorem parseValueLoop_sound {t : Str} : ∀ (n : Nat) (r acc v : Str) (s' : St), r.length ≤ n →
    r <:+ t → parseValueLoop (S t r) acc = .ok (v, s') →
    ∃ w d rest, r = w ++ '"' :: rest ∧ Value w d ∧ v = acc ++ d ∧ s' = S t ('"' :: rest) := by
  intro n
  induction n with
  | zero =>
    intro r acc v s' hn h hp
    have : r = [] := by simpa using hn
    subst this
    rw [parseValueLoop_none (by simp)] at hp
    cases hp
  | succ n ih =>
    intro r acc v s' hn h hp
    cases r with
    | nil => rw [parseValueLoop_none (by simp)] at hp; cases hp
    | cons c r =>
      have hr := read_S h
      have h2 := suffix_tail h
      by_cases hq : c = '"'
      · subst hq
        rw [parseValueLoop_quote (by simp)] at hp
        cases hp
        exact ⟨[], [], r, rfl, .nil, by simp, rfl⟩
      · by_cases hb : c = '\\'
        · subst hb
          cases r with
          | nil =>
            rw [parseValueLoop_esc_none (by simp) (by simp [hr])] at hp
            cases hp
          | cons e r =>
            have hr2 := read_S h2
            rw [parseValueLoop_esc (d := e) (by simp) (by simp [hr]), hr, hr2] at hp
            have h3 := suffix_tail h2
            obtain ⟨w, d, rest, rfl, hv, rfl, rfl⟩ := ih r _ v s' (by simp at hn; omega) h3 hp
            by_cases he : e = '"' ∨ e = '\\'
            · exact ⟨'\\' :: e :: w, e :: d, rest, rfl, .escaped he hv, by simp [he], rfl⟩
            · have he' := he
              rw [not_or] at he'
              exact ⟨'\\' :: e :: w, '\\' :: e :: d, rest, rfl, .other he'.1 he'.2 hv,
                by simp [he], rfl⟩
        · rw [parseValueLoop_plain (c := c) (by simp) hq hb, hr] at hp
          obtain ⟨w, d, rest, rfl, hv, rfl, rfl⟩ := ih r _ v s' (by simp at hn; omega) h2 hp
          exact ⟨c :: w, c :: d, rest, rfl, .plain hq hb hv, by simp, rfl⟩

theorem parseValueLoop_complete {t w d : Str} (hv : Value w d) :
    ∀ (rest acc : Str), w ++ '"' :: rest <:+ t →
      parseValueLoop (S t (w ++ '"' :: rest)) acc = .ok (acc ++ d, S t ('"' :: rest)) := by
  induction hv with
  | nil =>
    intro rest acc h
    rw [parseValueLoop_quote (by simp)]
    simp
  | @plain c w v h1 h2 _ ih =>
    intro rest acc h
    rw [List.cons_append] at h ⊢
    rw [parseValueLoop_plain (c := c) (by simp) h1 h2, read_S h, ih rest _ (suffix_tail h)]
    simp
  | @escaped c w v h1 _ ih =>
    intro rest acc h
    rw [List.cons_append, List.cons_append] at h ⊢
    rw [parseValueLoop_esc (d := c) (by simp) (by simp [read_S h]), read_S h,
      read_S (suffix_tail h), ih rest _ (suffix_tail (suffix_tail h))]
    simp [h1]
  | @other c w v h1 h2 _ ih =>
    intro rest acc h
    rw [List.cons_append, List.cons_append] at h ⊢
    rw [parseValueLoop_esc (d := c) (by simp) (by simp [read_S h]), read_S h,
      read_S (suffix_tail h), ih rest _ (suffix_tail (suffix_tail h))]
    simp [h1, h2]

theorem parseValue_S {t r : Str} (h : r <:+ t) (v : Str) (s' : St) :
    parseValue (S t r) = .ok (v, s') ↔
      ∃ w rest, r = w ++ '"' :: rest ∧ Value w v ∧ s' = S t ('"' :: rest) := by
  unfold parseValue
  constructor
  · intro hp
    split at hp
    · cases hp
    · obtain ⟨w, d, rest, h1, h2, h3, h4⟩ := parseValueLoop_sound r.length r [] v s' (Nat.le_refl _) h hp
      exact ⟨w, rest, h1, by simpa [h3] using h2, h4⟩
  · rintro ⟨w, rest, rfl, hv, rfl⟩
    have : ∃ c, (S t (w ++ '"' :: rest)).char = some c := by cases w <;> simp
    obtain ⟨c, hc⟩ := this
    rw [hc]
    simpa using parseValueLoop_complete hv rest [] h

/-! ### Fields of one token -/

theorem parseFields_eof {s s1 : St} {tok : Token} (hw : parseWs s = (false, s1)) :
    parseFields s tok = .ok (tok, false, s1) := by
  rw [parseFields]; split <;> simp_all

theorem parseFields_close {s s1 : St} {tok : Token} (hw : parseWs s = (true, s1))
    (hc : s1.char = some '}') : parseFields s tok = .ok (tok, true, (parseChar s1 '}').2) := by
  rw [parseFields]; split <;> simp_all

theorem parseFields_field {s s1 s2 s3 s4 s5 : St} {tok tok' : Token} {key value : Str}
    (hw : parseWs s = (true, s1)) (hc : s1.char ≠ some '}') (hk : parseKey s1 = .ok (key, s2))
    (h3 : expectChars s2 [':', ' ', '"'] = .ok s3) (h4 : parseValue s3 = .ok (value, s4))
    (h5 : expectChars s4 ['"'] = .ok s5) (ha : tok.append key value = .ok tok') :
    parseFields s tok = parseFields s5 tok' := by
  rw [parseFields]
  split
  · simp_all
  · rename_i s1' hw'
    obtain rfl : s1' = s1 := by simp_all
    rw [if_neg hc]
    split
    · simp_all
    · rename_i k2 s2' hk'
      obtain ⟨rfl, rfl⟩ : k2 = key ∧ s2' = s2 := by simp_all
      split
      · simp_all
      · rename_i s3' h3'
        obtain rfl : s3' = s3 := by simp_all
        split
        · simp_all
        · rename_i v4 s4' h4'
          obtain ⟨rfl, rfl⟩ : v4 = value ∧ s4' = s4 := by simp_all
          split
          · simp_all
          · rename_i s5' h5'
            obtain rfl : s5' = s5 := by simp_all
            split <;> simp_all

/-- Inversion of one successful round of the field loop. -/
theorem parseFields_inv {s s' : St} {tok tok' : Token} {b : Bool}
    (h : parseFields s tok = .ok (tok', b, s')) :
    (∃ s1, parseWs s = (false, s1) ∧ b = false) ∨
    (∃ s1, parseWs s = (true, s1) ∧ s1.char = some '}' ∧ tok' = tok ∧ b = true ∧
      s' = (parseChar s1 '}').2) ∨
    (∃ s1 key s2 s3 value s4 s5 tok1, parseWs s = (true, s1) ∧ s1.char ≠ some '}' ∧
      parseKey s1 = .ok (key, s2) ∧ expectChars s2 [':', ' ', '"'] = .ok s3 ∧
      parseValue s3 = .ok (value, s4) ∧ expectChars s4 ['"'] = .ok s5 ∧
      tok.append key value = .ok tok1 ∧ parseFields s5 tok1 = .ok (tok', b, s')) := by
  rw [parseFields] at h
  split at h
  · rename_i s1 hw
    cases h
    exact .inl ⟨_, hw, rfl⟩
  · rename_i s1 hw
    split at h
    · rename_i hc
      cases h
      exact .inr (.inl ⟨s1, hw, hc, rfl, rfl, rfl⟩)
    · rename_i hc
      split at h
      · cases h
      · rename_i key s2 hk
        split at h
        · cases h
        · rename_i s3 h3
          split at h
          · cases h
          · rename_i value s4 h4
            split at h
            · cases h
            · rename_i s5 h5
              split at h
              · cases h
              · rename_i tok1 ha
                exact .inr (.inr ⟨s1, key, s2, s3, value, s4, s5, tok1, hw, hc, hk, h3, h4, h5,
                  ha, h⟩)

/-- Result of appending the fields `fs` to a token. -/
def addFields (tok : Token) (fs : List (Str × Str)) : Token :=
  { tok with order := tok.order ++ fs.map Prod.fst, members := tok.members ++ fs }

/-- No field of `fs` is repeated or already a member. -/
def CanAppend (ms fs : List (Str × Str)) : Prop :=
  (fs.map Prod.fst).Nodup ∧ ∀ k ∈ fs.map Prod.fst, ms.lookup k = none

theorem lookup_append_single (ms : List (Str × Str)) (k v k' : Str) :
    (ms ++ [(k, v)]).lookup k' = none ↔ ms.lookup k' = none ∧ k' ≠ k := by
  induction ms with
  | nil =>
    simp only [List.nil_append, List.lookup]
    by_cases h : k' = k
    · subst h; simp
    · have : (k' == k) = false := by simpa using h
      simp [h, this]
  | cons m ms ih =>
    obtain ⟨mk, mv⟩ := m
    simp only [List.cons_append, List.lookup]
    by_cases h : k' = mk
    · subst h; simp
    · have : (k' == mk) = false := by simpa using h
      simp only [this]
      exact ih

theorem append_ok_iff (tok tok' : Token) (k v : Str) :
    tok.append k v = .ok tok' ↔ tok.members.lookup k = none ∧ tok' = addFields tok [(k, v)] := by
  unfold Token.append
  cases h : tok.members.lookup k with
  | none => simp [addFields, eq_comm]
  | some x => simp

theorem canAppend_cons {ms fs : List (Str × Str)} {k v : Str} :
    CanAppend ms ((k, v) :: fs) ↔ ms.lookup k = none ∧ CanAppend (ms ++ [(k, v)]) fs := by
  unfold CanAppend
  simp only [List.map_cons, List.nodup_cons, List.mem_cons, forall_eq_or_imp,
    lookup_append_single]
  constructor
  · rintro ⟨⟨h1, h2⟩, h3, h4⟩
    exact ⟨h3, h2, fun k' hk' => ⟨h4 k' hk', fun h => h1 (h ▸ hk')⟩⟩
  · rintro ⟨h1, h2, h3⟩
    exact ⟨⟨fun h => (h3 k h).2 rfl, h2⟩, h1, fun k' hk' => (h3 k' hk').1⟩

theorem addFields_addFields (tok : Token) (f : Str × Str) (fs : List (Str × Str)) :
    addFields (addFields tok [f]) fs = addFields tok (f :: fs) := by
  simp [addFields]

theorem dropWhile_space_split (r : Str) :
    ∃ sp, Spaces sp ∧ r = sp ++ r.dropWhile (· == ' ') ∧
      (r.dropWhile (· == ' ')).head? ≠ some ' ' := by
  refine ⟨r.takeWhile (· == ' '), ?_, (List.takeWhile_append_dropWhile).symm, ?_⟩
  · intro c hc
    have := List.mem_takeWhile_imp hc
    simpa using this
  · intro h
    cases hd : r.dropWhile (· == ' ') with
    | nil => simp [hd] at h
    | cons c l =>
      have h1 : c = ' ' := by simpa [hd] using h
      have h2 := List.head_dropWhile_not (l := r) (· == ' ') (by simp [hd])
      simp [hd, h1] at h2

theorem dropWhile_spaces {sp r : Str} (h : Spaces sp) (hr : r.head? ≠ some ' ') :
    (sp ++ r).dropWhile (· == ' ') = r := by
  induction sp with
  | nil =>
    cases r with
    | nil => rfl
    | cons c r =>
      have : c ≠ ' ' := by simpa using hr
      simp [this]
  | cons c sp ih =>
    have hc : c = ' ' := h c (by simp)
    subst hc
    simp only [List.cons_append, List.dropWhile, beq_self_eq_true]
    exact ih fun c hc => h c (by simp [hc])

theorem takeWhile_name {k rest : Str} (hk : IsName k) (hr : ∀ c, rest.head? = some c → isKeyChar c = false) :
    (k ++ rest).takeWhile isKeyChar = k ∧ (k ++ rest).dropWhile isKeyChar = rest := by
  have h1 : ∀ c ∈ k, isKeyChar c = true := fun c hc => (isKeyChar_iff c).2 (hk.2 c hc)
  rw [List.takeWhile_append_of_pos h1, List.dropWhile_append_of_pos h1]
  cases rest with
  | nil => simp
  | cons c rest => simp [hr c rfl]

theorem isName_takeWhile {r : Str} (h : r.takeWhile isKeyChar ≠ []) :
    IsName (r.takeWhile isKeyChar) := by
  refine ⟨h, fun c hc => (isKeyChar_iff c).1 ?_⟩
  exact List.mem_takeWhile_imp hc

theorem isName_head {k rest : Str} (hk : IsName k) :
    ∃ c, (k ++ rest).head? = some c ∧ isKeyChar c = true := by
  obtain ⟨h1, h2⟩ := hk
  cases k with
  | nil => exact absurd rfl h1
  | cons c k => exact ⟨c, rfl, (isKeyChar_iff c).2 (h2 c (by simp))⟩

theorem parseWs_true {t r : Str} (h : r <:+ t) {s1 : St} (hw : parseWs (S t r) = (true, s1)) :
    r.dropWhile (· == ' ') ≠ [] ∧ s1 = S t (r.dropWhile (· == ' ')) := by
  rw [parseWs_S h] at hw
  cases hd : r.dropWhile (· == ' ') <;> simp_all

theorem parseWs_false {t r : Str} (h : r <:+ t) {s1 : St} (hw : parseWs (S t r) = (false, s1)) :
    r.dropWhile (· == ' ') = [] := by
  rw [parseWs_S h] at hw
  cases hd : r.dropWhile (· == ' ') <;> simp_all

theorem parseWs_skip {t sp r : Str} (h : sp ++ r <:+ t) (hs : Spaces sp) {c : Char}
    (hr : r.head? = some c) (hc : c ≠ ' ') : parseWs (S t (sp ++ r)) = (true, S t r) := by
  rw [parseWs_S h, dropWhile_spaces hs (by rw [hr]; simpa using hc)]
  cases r <;> simp_all

theorem parseFields_sound {t : Str} : ∀ (n : Nat) (r : Str) (tok tok' : Token) (s' : St),
    r.length ≤ n → r <:+ t → parseFields (S t r) tok = .ok (tok', true, s') →
    ∃ body fs rest, r = body ++ rest ∧ Fields body fs ∧ CanAppend tok.members fs ∧
      tok' = addFields tok fs ∧ s' = S t rest := by
  intro n
  induction n with
  | zero =>
    intro r tok tok' s' hn h hp
    have : r = [] := by simpa using hn
    subst this
    rw [parseFields_eof (by rw [parseWs_S h]; rfl)] at hp
    simp at hp
  | succ n ih =>
    intro r tok tok' s' hn h hp
    obtain ⟨sp, hsp, hr, hne⟩ := dropWhile_space_split r
    rcases parseFields_inv hp with ⟨s1, _, hb⟩ | ⟨s1, hw, hc, rfl, _, rfl⟩ |
      ⟨s1, key, s2, s3, value, s4, s5, tok1, hw, hc, hk, h3, h4, h5, ha, hrec⟩
    · simp at hb
    · obtain ⟨hne, rfl⟩ := parseWs_true h hw
      cases hd : r.dropWhile (· == ' ') with
      | nil => exact absurd hd hne
      | cons c l =>
        rw [hd] at hc hr
        have : c = '}' := by simpa using hc
        subst this
        have hsuf : '}' :: l <:+ t := suffix_of_append (hr ▸ h)
        refine ⟨sp ++ ['}'], [], l, by simpa using hr, .close hsp, by simp [CanAppend],
          by simp [addFields], ?_⟩
        unfold parseChar
        rw [if_pos (by simp), read_S hsuf]
    · obtain ⟨hne, rfl⟩ := parseWs_true h hw
      generalize r.dropWhile (· == ' ') = r1 at *
      have hs1 : r1 <:+ t := suffix_of_append (hr ▸ h)
      obtain ⟨hk0, rfl, rfl⟩ := (parseKey_S hs1 _ _).1 hk
      have hsplit : r1 = r1.takeWhile isKeyChar ++ r1.dropWhile isKeyChar :=
        (List.takeWhile_append_dropWhile).symm
      have hname := isName_takeWhile hk0
      generalize r1.takeWhile isKeyChar = key at *
      generalize r1.dropWhile isKeyChar = r2 at *
      have hs2 : r2 <:+ t := suffix_of_append (hsplit ▸ hs1)
      obtain ⟨r3, rfl, rfl⟩ := (expectChars_S hs2 _ _).1 h3
      have hs3 : r3 <:+ t := suffix_of_append hs2
      obtain ⟨w, r4, rfl, hv, rfl⟩ := (parseValue_S hs3 _ _).1 h4
      have hs4 : '"' :: r4 <:+ t := suffix_of_append hs3
      obtain ⟨r5, h6, rfl⟩ := (expectChars_S hs4 _ _).1 h5
      obtain rfl : r4 = r5 := by simpa using h6
      obtain ⟨hl, rfl⟩ := (append_ok_iff _ _ _ _).1 ha
      have hlen : r4.length ≤ n := by
        subst hsplit; subst hr; simp at hn; omega
      obtain ⟨body, fs, rest, rfl, hf, hca, rfl, rfl⟩ :=
        ih r4 _ tok' s' hlen (suffix_tail hs4) hrec
      refine ⟨_, (key, value) :: fs, rest, ?_, .field hsp hname hv hf, canAppend_cons.2 ⟨hl, hca⟩,
        addFields_addFields _ _ _, rfl⟩
      subst hsplit
      rw [hr]
      simp

theorem parseFields_complete {t body : Str} {fs : List (Str × Str)} (hf : Fields body fs) :
    ∀ (rest : Str) (tok : Token), body ++ rest <:+ t → CanAppend tok.members fs →
      parseFields (S t (body ++ rest)) tok = .ok (addFields tok fs, true, S t rest) := by
  induction hf with
  | @close sp hsp =>
    intro rest tok h _
    rw [List.append_assoc] at h ⊢
    have hw := parseWs_skip h hsp (c := '}') (by simp) (by decide)
    rw [parseFields_close hw (by simp)]
    have hs : '}' :: rest <:+ t := suffix_of_append h
    unfold parseChar
    simp only [List.cons_append, List.nil_append]
    rw [if_pos (by simp), read_S hs]
    simp [addFields]
  | @field sp k w v rest0 fs hsp hk hv _ ih =>
    intro rest tok h hca
    obtain ⟨hl, hca'⟩ := canAppend_cons.1 hca
    have e : sp ++ (k ++ ([':', ' ', '"'] ++ (w ++ ('"' :: rest0)))) ++ rest =
        sp ++ (k ++ ([':', ' ', '"'] ++ (w ++ ('"' :: (rest0 ++ rest))))) := by simp
    rw [e] at h ⊢
    obtain ⟨c, hc1, hc2⟩ := isName_head (rest := [':', ' ', '"'] ++ (w ++ ('"' :: (rest0 ++ rest)))) hk
    have hw := parseWs_skip h hsp hc1 (by rintro rfl; simp [isKeyChar] at hc2)
    have hs1 := suffix_of_append h
    obtain ⟨ht1, ht2⟩ := takeWhile_name (rest := [':', ' ', '"'] ++ (w ++ ('"' :: (rest0 ++ rest)))) hk
      (by intro c hc; simp at hc; subst hc; decide)
    have hkey := (parseKey_S hs1 k (S t ([':', ' ', '"'] ++ (w ++ ('"' :: (rest0 ++ rest)))))).2
      ⟨hk.1, ht1.symm, by rw [ht2]⟩
    have hs2 := suffix_of_append hs1
    have h3 := (expectChars_S hs2 [':', ' ', '"'] _).2 ⟨_, rfl, rfl⟩
    have hs3 := suffix_of_append hs2
    have h4 := (parseValue_S hs3 v _).2 ⟨w, rest0 ++ rest, rfl, hv, rfl⟩
    have hs4 := suffix_of_append hs3
    have h5 := (expectChars_S hs4 ['"'] _).2 ⟨rest0 ++ rest, rfl, rfl⟩
    have ha := (append_ok_iff tok _ k v).2 ⟨hl, rfl⟩
    rw [parseFields_field hw ?_ hkey h3 h4 h5 ha, ih rest _ (suffix_tail hs4) hca',
      addFields_addFields]
    rw [S_char, hc1]
    rintro ⟨rfl⟩
    simp [isKeyChar] at hc2

/-! ### The stream -/

theorem parseLoop_eof {s s1 : St} {toks : List Token} (hw : parseWs s = (false, s1)) :
    parseLoop s toks = .ok toks := by
  rw [parseLoop]; split <;> simp_all

theorem parseLoop_token {s s1 s2 s3 s4 : St} {toks : List Token} {name : Str} {token : Token}
    (hw : parseWs s = (true, s1)) (hk : parseKey s1 = .ok (name, s2))
    (h3 : expectChars s2 [' ', '{', ' '] = .ok s3)
    (h4 : parseFields s3 { name := name, start := s1.index } = .ok (token, true, s4)) :
    parseLoop s toks = parseLoop s4 (toks ++
      [{ token with stop := some (if s4.char = none then s4.text.length else s4.index) }]) := by
  rw [parseLoop]
  split
  · simp_all
  · rename_i s1' hw'
    obtain rfl : s1' = s1 := by simp_all
    dsimp only
    split
    · simp_all
    · rename_i k2 s2' hk'
      obtain ⟨rfl, rfl⟩ : k2 = name ∧ s2' = s2 := by simp_all
      split
      · simp_all
      · rename_i s3' h3'
        obtain rfl : s3' = s3 := by simp_all
        split <;> simp_all

theorem parseLoop_inv {s : St} {toks toks' : List Token}
    (h : parseLoop s toks = .ok toks') :
    (∃ s1, parseWs s = (false, s1) ∧ toks' = toks) ∨
    (∃ s1 name s2 s3 token s4, parseWs s = (true, s1) ∧ parseKey s1 = .ok (name, s2) ∧
      expectChars s2 [' ', '{', ' '] = .ok s3 ∧
      parseFields s3 { name := name, start := s1.index } = .ok (token, true, s4) ∧
      parseLoop s4 (toks ++
        [{ token with stop := some (if s4.char = none then s4.text.length else s4.index) }]) =
          .ok toks') := by
  rw [parseLoop] at h
  split at h
  · rename_i s1 hw
    cases h
    exact .inl ⟨_, hw, rfl⟩
  · rename_i s1 hw
    dsimp only at h
    split at h
    · cases h
    · rename_i name s2 hk
      split at h
      · cases h
      · rename_i s3 h3
        split at h
        · cases h
        · cases h
        · rename_i token s4 h4
          exact .inr ⟨s1, name, s2, s3, token, s4, hw, hk, h3, h4, h⟩

/-- Index of the state with unread text `r`, except that at the end it is the length. -/
theorem stop_S {t r : Str} (h : r <:+ t) :
    (if (S t r).char = none then (S t r).text.length else (S t r).index) =
      t.length - r.length := by
  cases r <;> simp [S]

/-- A parsed token that denotes the token `k` written in `text` between `start` and `stop`. -/
def ofTok (k : Tok) (start stop : Nat) : Token :=
  { name := k.name, start := start, stop := some stop,
    order := k.fields.map Prod.fst, members := k.fields }

/-- Layout of a text: `pos` is the offset at which `r` starts; the tokens come out with their
positions. This is the strong form of `Spec.Stream`. -/
inductive Located : Nat → Str → List Token → Prop
  | done {pos sp} : Spaces sp → Located pos sp []
  | block {pos sp b k rest ts} : Spaces sp → Block b k → Spec.Distinct k →
      Located (pos + sp.length + b.length) rest ts →
      Located pos (sp ++ (b ++ rest))
        (ofTok k (pos + sp.length) (pos + sp.length + b.length) :: ts)

theorem parseLoop_sound {t : Str} : ∀ (n : Nat) (r : Str) (toks toks' : List Token),
    r.length ≤ n → r <:+ t → parseLoop (S t r) toks = .ok toks' →
    ∃ ts, toks' = toks ++ ts ∧ Located (t.length - r.length) r ts := by
  intro n
  induction n with
  | zero =>
    intro r toks toks' hn h hp
    have : r = [] := by simpa using hn
    subst this
    rw [parseLoop_eof (by rw [parseWs_S h]; rfl)] at hp
    cases hp
    exact ⟨[], by simp, .done (by simp [Spaces])⟩
  | succ n ih =>
    intro r toks toks' hn h hp
    obtain ⟨sp, hsp, hr, hne⟩ := dropWhile_space_split r
    rcases parseLoop_inv hp with ⟨s1, hw, rfl⟩ |
      ⟨s1, name, s2, s3, token, s4, hw, hk, h3, h4, hrec⟩
    · have := parseWs_false h hw
      rw [this] at hr
      exact ⟨[], by simp, .done (by rw [hr]; simpa using hsp)⟩
    · obtain ⟨hne, rfl⟩ := parseWs_true h hw
      generalize r.dropWhile (· == ' ') = r1 at *
      have hs1 : r1 <:+ t := suffix_of_append (hr ▸ h)
      obtain ⟨hk0, rfl, rfl⟩ := (parseKey_S hs1 _ _).1 hk
      have hsplit : r1 = r1.takeWhile isKeyChar ++ r1.dropWhile isKeyChar :=
        (List.takeWhile_append_dropWhile).symm
      have hname := isName_takeWhile hk0
      generalize hkey : r1.takeWhile isKeyChar = key at *
      generalize r1.dropWhile isKeyChar = r2 at *
      have hs2 : r2 <:+ t := suffix_of_append (hsplit ▸ hs1)
      obtain ⟨r3, rfl, rfl⟩ := (expectChars_S hs2 _ _).1 h3
      have hs3 : r3 <:+ t := suffix_of_append hs2
      obtain ⟨body, fs, rest, rfl, hf, hca, rfl, rfl⟩ :=
        parseFields_sound _ r3 _ token s4 (Nat.le_refl _) hs3 h4
      have hs4 : rest <:+ t := suffix_of_append hs3
      have hlen : rest.length ≤ n := by
        subst hsplit; subst hr; simp at hn; omega
      obtain ⟨ts, rfl, hloc⟩ := ih rest _ toks' hlen hs4 hrec
      rw [stop_S hs4]
      have hidx : (S t r1).index = t.length - r1.length := by
        cases r1 with
        | nil => exact absurd rfl hne
        | cons c l => rfl
      have htl := h.length_le
      have e1 : r = sp ++ ((key ++ ([' ', '{', ' '] ++ body)) ++ rest) := by
        rw [hr, hsplit]; simp
      have l1 : t.length - r1.length = t.length - r.length + sp.length := by
        rw [hr, List.length_append] at htl ⊢
        omega
      have l2 : t.length - rest.length =
          t.length - r.length + sp.length + (key ++ ([' ', '{', ' '] ++ body)).length := by
        rw [e1] at htl ⊢
        simp at htl ⊢
        omega
      refine ⟨ofTok ⟨key, fs⟩ (t.length - r.length + sp.length)
        (t.length - r.length + sp.length + (key ++ ([' ', '{', ' '] ++ body)).length) :: ts, ?_, ?_⟩
      · rw [hidx, l1, l2]
        simp [addFields, ofTok]
      · have hd : Spec.Distinct ⟨key, fs⟩ := hca.1
        have := Located.block (pos := t.length - r.length) hsp (.mk hname hf) hd (l2 ▸ hloc)
        rw [← e1] at this
        exact this

theorem parseLoop_complete {t : Str} {pos : Nat} {r : Str} {ts : List Token}
    (hl : Located pos r ts) : ∀ (toks : List Token), r <:+ t → pos = t.length - r.length →
    parseLoop (S t r) toks = .ok (toks ++ ts) := by
  induction hl with
  | @done pos sp hsp =>
    intro toks h _
    rw [parseLoop_eof (s1 := S t [])]
    · simp
    · have := dropWhile_spaces (r := []) hsp (by simp)
      rw [parseWs_S h]
      simp only [List.append_nil] at this
      rw [this]
      rfl
  | @block pos sp b k rest ts hsp hb hd _ ih =>
    intro toks h hpos
    obtain @⟨n, body, fs, hn, hf⟩ := hb
    have e : sp ++ (n ++ ([' ', '{', ' '] ++ body) ++ rest) =
      sp ++ (n ++ ([' ', '{', ' '] ++ (body ++ rest))) := by simp
    have htl := h.length_le
    rw [e] at h ⊢
    obtain ⟨c, hc1, hc2⟩ := isName_head (rest := [' ', '{', ' '] ++ (body ++ rest)) hn
    have hw := parseWs_skip h hsp hc1 (by rintro rfl; simp [isKeyChar] at hc2)
    have hs1 := suffix_of_append h
    obtain ⟨ht1, ht2⟩ := takeWhile_name (rest := [' ', '{', ' '] ++ (body ++ rest)) hn
      (by intro c hc; simp at hc; subst hc; decide)
    have hkey := (parseKey_S hs1 n (S t ([' ', '{', ' '] ++ (body ++ rest)))).2
      ⟨hn.1, ht1.symm, by rw [ht2]⟩
    have hs2 := suffix_of_append hs1
    have h3 := (expectChars_S hs2 [' ', '{', ' '] _).2 ⟨_, rfl, rfl⟩
    have hs3 := suffix_of_append hs2
    have h4 := parseFields_complete hf rest
      { name := n, start := (S t (n ++ ([' ', '{', ' '] ++ (body ++ rest)))).index } hs3
      ⟨hd, by simp⟩
    rw [parseLoop_token hw hkey h3 h4, stop_S (suffix_of_append hs3),
      ih _ (suffix_of_append hs3) (by rw [hpos]; simp at htl ⊢; omega)]
    have hidx : (S t (n ++ ([' ', '{', ' '] ++ (body ++ rest)))).index = pos + sp.length := by
      obtain ⟨c, n', rfl⟩ : ∃ c n', n = c :: n' := by
        cases n with
        | nil => exact absurd rfl hn.1
        | cons c n => exact ⟨c, n, rfl⟩
      rw [List.cons_append, S_index_cons, hpos]
      simp at htl ⊢
      omega
    have hstop : t.length - rest.length =
        pos + sp.length + (n ++ ([' ', '{', ' '] ++ body)).length := by
      rw [hpos]; simp at htl ⊢; omega
    rw [hidx, hstop]
    simp [addFields, ofTok]

theorem load_S {t : Str} (h : t ≠ []) : load t = .ok (S t t) := by
  cases t with
  | nil => exact absurd rfl h
  | cons c t => simp [load, S]

/-- The parser returns exactly the located tokens of the text. -/
theorem parse_iff_located (t : Str) (ts : List Token) :
    parse t = .ok ts ↔ t ≠ [] ∧ Located 0 t ts := by
  unfold parse
  cases ht : t with
  | nil =>
    simp [load]
  | cons c l =>
    rw [load_S (by simp)]
    simp only
    rw [← ht]
    constructor
    · intro h
      obtain ⟨ts', h1, h2⟩ := parseLoop_sound _ t [] ts (Nat.le_refl _) (List.suffix_refl t) h
      simp only [List.nil_append] at h1
      subst h1
      exact ⟨by simp [ht], by simpa using h2⟩
    · rintro ⟨_, h⟩
      simpa using parseLoop_complete h [] (List.suffix_refl t) (by simp)

end Verif.Token
