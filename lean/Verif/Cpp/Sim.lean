import Verif.Cpp.Lemmas

/-! The C++ parser on UTF-8 text against the Python parser's canonical states. -/

namespace Verif.Cpp
open Verif.Token.Spec (NameChar IsName Spaces Value Fields Block Stream Tok esc)
open Verif.Token (Str isKeyChar)

/-- The C++ state on the pieces that corresponds to the Python state on the characters. -/
def C (t r : Str) : St :=
  { text := t.map enc, index := (Verif.Token.S t r).index, ch := r.head?.map enc }

@[simp] theorem C_ch (t r : Str) : (C t r).ch = r.head?.map enc := rfl

theorem read_C {t : Str} {c : Char} {r : Str} (h : c :: r <:+ t) :
    read (C t (c :: r)) = (!r.isEmpty, C t r) := by
  have h1 := Verif.Token.read_S h
  unfold Verif.Token.read at h1
  unfold read C
  have ht : (Verif.Token.S t (c :: r)).text = t := rfl
  have hl := h.length_le
  rw [ht] at h1
  split at h1
  · rename_i hlt
    rw [if_pos (by simpa using hlt)]
    simp only [Prod.mk.injEq, St.mk.injEq, true_and] at h1 ⊢
    obtain ⟨h2, h3⟩ := h1
    refine ⟨h2, ?_, ?_⟩
    · rw [← h3]
    · have h4 := Verif.Token.S_char t r
      rw [← h4, ← h3]
      simp
  · rename_i hlt
    rw [if_neg (by simpa using hlt)]
    simp only [Prod.mk.injEq, St.mk.injEq, true_and] at h1 ⊢
    obtain ⟨h2, h3⟩ := h1
    refine ⟨h2, ?_, ?_⟩
    · rw [← h3]
    · have h4 := Verif.Token.S_char t r
      rw [← h4, ← h3]
      rfl

theorem lit_space : lit " " = enc ' ' := by decide +kernel
theorem lit_quote : lit "\"" = enc '"' := by decide +kernel
theorem lit_backslash : lit "\\" = enc '\\' := by decide +kernel
theorem lit_brace : lit "}" = enc '}' := by decide +kernel

theorem ch_eq_iff {t r : Str} {c : Char} :
    (C t r).ch = some (enc c) ↔ r.head? = some c := by
  rw [C_ch]
  cases r with
  | nil => simp
  | cons d r => simp [enc_injective.eq_iff]

theorem parseWsLoop_C {t r : Str} (h : r <:+ t) (hr : r ≠ []) :
    parseWsLoop true (C t r) =
      (!(r.dropWhile (· == ' ')).isEmpty, C t (r.dropWhile (· == ' '))) := by
  induction r with
  | nil => exact absurd rfl hr
  | cons c r ih =>
    rw [parseWsLoop]
    by_cases hc : c = ' '
    · subst hc
      rw [dif_pos ⟨rfl, by rw [lit_space]; exact ch_eq_iff.2 rfl⟩]
      dsimp only
      rw [read_C h]
      cases r with
      | nil =>
        rw [parseWsLoop, dif_neg (by simp)]
        simp
      | cons d r =>
        have := ih (Verif.Token.suffix_tail h) (by simp)
        simp only [List.isEmpty_cons, Bool.not_false]
        rw [this]
        simp
    · rw [dif_neg]
      · have : (c == ' ') = false := by simpa using hc
        simp [List.dropWhile_cons, this]
      · rw [lit_space, ch_eq_iff]
        simpa using hc

theorem parseWs_C {t r : Str} (h : r <:+ t) :
    parseWs (C t r) = (!(r.dropWhile (· == ' ')).isEmpty, C t (r.dropWhile (· == ' '))) := by
  unfold parseWs
  cases r with
  | nil =>
    rw [parseWsLoop, dif_neg (by simp)]
    simp
  | cons c r =>
    have := parseWsLoop_C h (by simp)
    rw [← this]
    rfl

theorem parseChar_C {t : Str} {r : Str} (h : r <:+ t) (x : Char) :
    parseChar (C t r) (enc x) =
      if r.head? = some x then (true, C t r.tail) else (false, C t r) := by
  unfold parseChar
  by_cases hx : r.head? = some x
  · rw [if_pos (ch_eq_iff.2 hx), if_pos hx]
    cases r with
    | nil => simp at hx
    | cons c r => rw [read_C h]; rfl
  · rw [if_neg (fun h' => hx (ch_eq_iff.1 h')), if_neg hx]

theorem parseCharsFrom_C {t r : Str} (h : r <:+ t) (start : Nat) (exp : Str) :
    ∀ b s', parseCharsFrom start (C t r) (exp.map enc) = (b, s') →
      (b = true ↔ ∃ r', r = exp ++ r') ∧ (∀ r', r = exp ++ r' → s' = C t r') := by
  induction exp generalizing r with
  | nil =>
    intro b s' he
    simp only [List.map_nil, parseCharsFrom, Prod.mk.injEq] at he
    obtain ⟨rfl, rfl⟩ := he
    simp
  | cons x xs ih =>
    intro b s' he
    simp only [List.map_cons, parseCharsFrom, parseChar_C h] at he
    by_cases hx : r.head? = some x
    · obtain ⟨l, rfl⟩ : ∃ l, r = x :: l := by
        cases r with
        | nil => simp at hx
        | cons c l => simp at hx; exact ⟨l, by rw [hx]⟩
      rw [if_pos hx] at he
      have := ih (Verif.Token.suffix_tail h) b s' he
      simpa using this
    · rw [if_neg hx] at he
      dsimp only at he
      simp only [Prod.mk.injEq] at he
      obtain ⟨rfl, _⟩ := he
      have hno : ∀ r', r ≠ x :: xs ++ r' := by
        rintro r' rfl; simp at hx
      refine ⟨⟨fun h => by simp at h, fun ⟨r', hr'⟩ => absurd hr' (hno r')⟩,
        fun r' hr' => absurd hr' (hno r')⟩

theorem parseChars_C {t r : Str} (h : r <:+ t) (exp : String) (e : Str)
    (hl : (lit exp).map (fun b => [b]) = e.map enc) (s' : St) :
    parseChars (C t r) exp = (true, s') ↔ ∃ r', r = e ++ r' ∧ s' = C t r' := by
  unfold parseChars
  rw [hl]
  have := parseCharsFrom_C h (C t r).index e
  constructor
  · intro he
    obtain ⟨h1, h2⟩ := this _ _ he
    obtain ⟨r', hr'⟩ := h1.1 rfl
    exact ⟨r', hr', h2 r' hr'⟩
  · rintro ⟨r', hr', rfl⟩
    cases hp : parseCharsFrom (C t r).index (C t r) (e.map enc) with
    | mk b s1 =>
      obtain ⟨h1, h2⟩ := this _ _ hp
      rw [h1.2 ⟨r', hr'⟩, h2 r' hr']

theorem asciiLetters_eq :
    asciiLetters = "abcdefghijklmnopqrstuvwxyzABCDEFGHIJKLMNOPQRSTUVWXYZ_".toList.map enc := by
  decide +kernel

theorem asciiLetters_enc (c : Char) : asciiLetters.contains (enc c) = isKeyChar c := by
  unfold isKeyChar
  rw [asciiLetters_eq, Bool.eq_iff_iff, List.contains_iff_mem, List.contains_iff_mem]
  constructor
  · intro h
    obtain ⟨d, hd, he⟩ := List.mem_map.1 h
    rw [← enc_injective he]
    exact hd
  · exact fun h => List.mem_map_of_mem h

theorem parseKeyLoop_C {t r : Str} (h : r <:+ t) (acc : Bytes) :
    parseKeyLoop (C t r) acc =
      (acc ++ encAll (r.takeWhile isKeyChar), C t (r.dropWhile isKeyChar)) := by
  induction r generalizing acc with
  | nil =>
    rw [parseKeyLoop]
    split
    · simp
    · rename_i heq
      exact absurd heq (by simp)
  | cons c r ih =>
    rw [parseKeyLoop_some (c := enc c) rfl, asciiLetters_enc]
    by_cases hk : isKeyChar c = true
    · rw [if_pos hk, read_C h, ih (Verif.Token.suffix_tail h)]
      simp [hk]
    · rw [if_neg hk]
      simp [hk]

/-- Every white-space piece that the C++ code rejects is a rejected character of Python. -/
theorem utf8Whitespace_not_key (c : Char) (h : utf8Whitespace.contains (enc c) = true) :
    isKeyChar c = false := by
  rw [← asciiLetters_enc]
  rw [List.contains_iff_mem] at h
  have h1 : ∀ p ∈ utf8Whitespace, asciiLetters.contains p = false := by decide +kernel
  exact h1 _ h

theorem encAll_eq_nil {s : Str} : encAll s = [] ↔ s = [] := by
  cases s with
  | nil => simp
  | cons c s => simp [enc_ne_nil]

theorem parseKey_C {t r : Str} (h : r <:+ t) (k : Bytes) (s' : St) :
    parseKey (C t r) = .ok (k, s') ↔
      r.takeWhile isKeyChar ≠ [] ∧ k = encAll (r.takeWhile isKeyChar) ∧
        s' = C t (r.dropWhile isKeyChar) := by
  unfold parseKey
  cases hr : r with
  | nil => simp
  | cons c l =>
    simp only [C_ch, List.head?_cons, Option.map_some]
    rw [← hr]
    by_cases hw : utf8Whitespace.contains (enc c) = true
    · have hn := utf8Whitespace_not_key c hw
      have : r.takeWhile isKeyChar = [] := by rw [hr]; simp [hn]
      simp only [hw, if_true, this]
      simp
    · rw [if_neg hw, parseKeyLoop_C h]
      simp only [List.nil_append]
      by_cases he : r.takeWhile isKeyChar = []
      · rw [if_pos (encAll_eq_nil.2 he)]
        simp [he]
      · rw [if_neg (fun h' => he (encAll_eq_nil.1 h'))]
        simp only [Except.ok.injEq, Prod.mk.injEq]
        constructor
        · rintro ⟨h1, h2⟩; exact ⟨he, h1.symm, h2.symm⟩
        · rintro ⟨_, h1, h2⟩; exact ⟨h1.symm, h2.symm⟩

/-! ### Values -/

theorem parseValueLoop_none {s : St} (h : s.ch = none) (value : Bytes) :
    parseValueLoop s value = .error .invalidArgument := by
  rw [parseValueLoop]; split <;> simp_all

theorem parseValueLoop_quote {s : St} (h : s.ch = some (lit "\"")) (value : Bytes) :
    parseValueLoop s value = .ok (value, s) := by
  rw [parseValueLoop]; split <;> simp_all

theorem parseValueLoop_plain {s : St} {c : Bytes} (h : s.ch = some c) (h1 : c ≠ lit "\"")
    (h2 : c ≠ lit "\\") (value : Bytes) :
    parseValueLoop s value = parseValueLoop (read s).2 (value ++ c) := by
  rw [parseValueLoop]; split <;> simp_all

theorem parseValueLoop_esc_none {s : St} (h : s.ch = some (lit "\\"))
    (h1 : (read s).2.ch = none) (value : Bytes) :
    parseValueLoop s value = .error .invalidArgument := by
  rw [parseValueLoop]
  split
  · simp_all
  · rename_i c hc
    obtain rfl : c = lit "\\" := by simp_all
    rw [if_neg (by decide), if_pos rfl]
    split <;> simp_all

theorem parseValueLoop_esc {s : St} {d : Bytes} (h : s.ch = some (lit "\\"))
    (h1 : (read s).2.ch = some d) (value : Bytes) :
    parseValueLoop s value = parseValueLoop (read (read s).2).2 (value ++ lit "\\" ++ d) := by
  rw [parseValueLoop]
  split
  · simp_all
  · rename_i c hc
    obtain rfl : c = lit "\\" := by simp_all
    rw [if_neg (by decide), if_pos rfl]
    split <;> simp_all

theorem enc_ne_quote {c : Char} (h : c ≠ '"') : enc c ≠ lit "\"" := by
  rw [lit_quote]; exact fun h' => h (enc_injective h')
theorem enc_ne_backslash {c : Char} (h : c ≠ '\\') : enc c ≠ lit "\\" := by
  rw [lit_backslash]; exact fun h' => h (enc_injective h')

theorem parseValueLoop_complete {t w d : Str} (hv : Value w d) :
    ∀ (r : Str) (acc : Bytes), w ++ '"' :: r <:+ t →
      parseValueLoop (C t (w ++ '"' :: r)) acc = .ok (acc ++ encAll w, C t ('"' :: r)) := by
  have step : ∀ (c : Char) (w r : Str) (acc : Bytes), '\\' :: c :: w ++ '"' :: r <:+ t →
      parseValueLoop (C t ('\\' :: c :: w ++ '"' :: r)) acc =
        parseValueLoop (C t (w ++ '"' :: r)) (acc ++ lit "\\" ++ enc c) := by
    intro c w r acc h
    have h2 : c :: (w ++ '"' :: r) <:+ t := Verif.Token.suffix_tail h
    have e1 : (read (C t ('\\' :: c :: w ++ '"' :: r))).2 = C t (c :: w ++ '"' :: r) :=
      congrArg Prod.snd (read_C h)
    rw [parseValueLoop_esc (d := enc c) (by rw [lit_backslash]; rfl) (by rw [e1]; rfl), e1]
    have e2 : (read (C t (c :: w ++ '"' :: r))).2 = C t (w ++ '"' :: r) :=
      congrArg Prod.snd (read_C h2)
    rw [e2]
  induction hv with
  | nil =>
    intro r acc h
    rw [List.nil_append, parseValueLoop_quote (by rw [lit_quote]; rfl)]
    simp
  | @plain c w v a b _ ih =>
    intro r acc h
    rw [parseValueLoop_plain (c := enc c) rfl (enc_ne_quote a) (enc_ne_backslash b)]
    have e1 : (read (C t (c :: w ++ '"' :: r))).2 = C t (w ++ '"' :: r) :=
      congrArg Prod.snd (read_C h)
    rw [e1, ih r _ (Verif.Token.suffix_tail h)]
    simp
  | @escaped c w v a _ ih =>
    intro r acc h
    rw [step c w r acc h, ih r _ (Verif.Token.suffix_tail (Verif.Token.suffix_tail h)), lit_backslash]
    simp
  | @other c w v a b _ ih =>
    intro r acc h
    rw [step c w r acc h, ih r _ (Verif.Token.suffix_tail (Verif.Token.suffix_tail h)), lit_backslash]
    simp

theorem parseValueLoop_sound {t : Str} : ∀ (n : Nat) (r : Str) (acc v : Bytes) (s' : St),
    r.length ≤ n → r <:+ t → parseValueLoop (C t r) acc = .ok (v, s') →
    ∃ w d r', r = w ++ '"' :: r' ∧ Value w d ∧ v = acc ++ encAll w ∧ s' = C t ('"' :: r') := by
  intro n
  induction n with
  | zero =>
    intro r acc v s' hn h hp
    obtain rfl : r = [] := by simpa using hn
    rw [parseValueLoop_none rfl] at hp
    cases hp
  | succ n ih =>
    intro r acc v s' hn h hp
    cases r with
    | nil => rw [parseValueLoop_none rfl] at hp; cases hp
    | cons c l =>
      by_cases hq : c = '"'
      · subst hq
        rw [parseValueLoop_quote (by rw [lit_quote]; rfl)] at hp
        cases hp
        exact ⟨[], [], l, rfl, .nil, by simp, rfl⟩
      · by_cases hb : c = '\\'
        · subst hb
          cases l with
          | nil =>
            rw [parseValueLoop_esc_none (by rw [lit_backslash]; rfl) (by rw [read_C h]; rfl)] at hp
            cases hp
          | cons e l =>
            have h2 := Verif.Token.suffix_tail h
            rw [parseValueLoop_esc (d := enc e) (by rw [lit_backslash]; rfl)
              (by rw [read_C h]; rfl), read_C h] at hp
            dsimp only at hp
            rw [read_C h2] at hp
            obtain ⟨w, d, r', rfl, hv, rfl, rfl⟩ :=
              ih l _ v s' (by simp at hn; omega) (Verif.Token.suffix_tail h2) hp
            by_cases he : e = '"' ∨ e = '\\'
            · exact ⟨'\\' :: e :: w, e :: d, r', by simp, .escaped he hv,
                by rw [lit_backslash]; simp, rfl⟩
            · rw [not_or] at he
              exact ⟨'\\' :: e :: w, '\\' :: e :: d, r', by simp, .other he.1 he.2 hv,
                by rw [lit_backslash]; simp, rfl⟩
        · rw [parseValueLoop_plain (c := enc c) rfl (enc_ne_quote hq) (enc_ne_backslash hb),
            read_C h] at hp
          obtain ⟨w, d, r', rfl, hv, rfl, rfl⟩ :=
            ih l _ v s' (by simp at hn; omega) (Verif.Token.suffix_tail h) hp
          exact ⟨c :: w, c :: d, r', by simp, .plain hq hb hv, by simp, rfl⟩

theorem parseValue_C {t r : Str} (h : r <:+ t) (v : Bytes) (s' : St) :
    parseValue (C t r) = .ok (v, s') ↔
      ∃ w d r', r = w ++ '"' :: r' ∧ Value w d ∧ v = encAll w ∧ s' = C t ('"' :: r') := by
  unfold parseValue
  cases hr : r with
  | nil => simp
  | cons c l =>
    simp only [C_ch, List.head?_cons, Option.map_some]
    rw [← hr]
    constructor
    · intro hp
      simpa using parseValueLoop_sound _ r [] v s' (Nat.le_refl _) h hp
    · rintro ⟨w, d, r', he, hv, rfl, rfl⟩
      rw [he] at h ⊢
      simpa using parseValueLoop_complete hv r' [] h

/-! ### Fields -/

theorem parseFields_eof {s s1 : St} {tok : Token} (hw : parseWs s = (false, s1)) :
    parseFields s tok = .ok (tok, false, s1) := by
  rw [parseFields]; split <;> simp_all

theorem parseFields_close {s s1 : St} {tok : Token} (hw : parseWs s = (true, s1))
    (hc : s1.ch = some (lit "}")) :
    parseFields s tok = .ok (tok, true, (parseChar s1 (lit "}")).2) := by
  rw [parseFields]; split <;> simp_all

theorem parseFields_field {s s1 s2 s3 s4 s5 : St} {tok : Token} {key value : Bytes}
    (hw : parseWs s = (true, s1)) (hc : s1.ch ≠ some (lit "}")) (hk : parseKey s1 = .ok (key, s2))
    (h3 : parseChars s2 ": \"" = (true, s3)) (h4 : parseValue s3 = .ok (value, s4))
    (h5 : parseChar s4 (lit "\"") = (true, s5)) :
    parseFields s tok = parseFields s5 (tok.append key value) := by
  rw [parseFields]
  split
  · simp_all
  · rename_i s1' hw'
    obtain rfl : s1' = s1 := by simp_all
    rw [if_neg hc]
    split
    · simp_all
    · rename_i k2 s2' hk'
      obtain ⟨rfl, rfl⟩ : k2 = key ∧ s2' = s2 := by simp_all
      split
      · simp_all
      · rename_i s3' h3'
        obtain rfl : s3' = s3 := by simp_all
        split
        · simp_all
        · rename_i v4 s4' h4'
          obtain ⟨rfl, rfl⟩ : v4 = value ∧ s4' = s4 := by simp_all
          split
          · simp_all
          · rename_i s5' h5'
            obtain rfl : s5' = s5 := by simp_all
            rfl

theorem parseFields_inv {s s' : St} {tok tok' : Token} {b : Bool}
    (h : parseFields s tok = .ok (tok', b, s')) :
    (∃ s1, parseWs s = (false, s1) ∧ b = false) ∨
    (∃ s1, parseWs s = (true, s1) ∧ s1.ch = some (lit "}") ∧ tok' = tok ∧ b = true ∧
      s' = (parseChar s1 (lit "}")).2) ∨
    (∃ s1 key s2 s3 value s4 s5, parseWs s = (true, s1) ∧ s1.ch ≠ some (lit "}") ∧
      parseKey s1 = .ok (key, s2) ∧ parseChars s2 ": \"" = (true, s3) ∧
      parseValue s3 = .ok (value, s4) ∧ parseChar s4 (lit "\"") = (true, s5) ∧
      parseFields s5 (tok.append key value) = .ok (tok', b, s')) := by
  rw [parseFields] at h
  split at h
  · rename_i s1 hw
    cases h
    exact .inl ⟨_, hw, rfl⟩
  · rename_i s1 hw
    split at h
    · rename_i hc
      cases h
      exact .inr (.inl ⟨s1, hw, hc, rfl, rfl, rfl⟩)
    · rename_i hc
      split at h
      · cases h
      · rename_i key s2 hk
        split at h
        · cases h
        · rename_i s3 h3
          split at h
          · cases h
          · rename_i value s4 h4
            split at h
            · cases h
            · rename_i s5 h5
              exact .inr (.inr ⟨s1, key, s2, s3, value, s4, s5, hw, hc, hk, h3, h4, h5, h⟩)

/-- C++ token after appending raw fields. -/
def appendAll (tok : Token) (raws : List (Str × Str)) : Token :=
  raws.foldl (fun t f => t.append (encAll f.1) (encAll f.2)) tok

/-- `raws` are the written forms of the fields `fs`. -/
def RawOf (fs raws : List (Str × Str)) : Prop :=
  List.Forall₂ (fun f r => r.1 = f.1 ∧ Value r.2 f.2) fs raws

/-- Scan of a text; the flag says whether the previous character was an escaping backslash. -/
def cleanFrom : Bool → Str → Bool
  | b, [] => !b
  | true, c :: r => (c == '"' || c == '\\') && cleanFrom false r
  | false, c :: r => cleanFrom (c == '\\') r

/-- Every backslash of the text, read from the left, escapes a quote or a backslash. -/
def CleanEscapes (s : Str) : Prop := cleanFrom false s = true

theorem clean_plain {c : Char} {r : Str} (h : c ≠ '\\') : CleanEscapes (c :: r) ↔ CleanEscapes r := by
  have : (c == '\\') = false := by simpa using h
  unfold CleanEscapes
  rw [cleanFrom, this]

theorem clean_escape {c : Char} {r : Str} :
    CleanEscapes ('\\' :: c :: r) ↔ (c = '"' ∨ c = '\\') ∧ CleanEscapes r := by
  unfold CleanEscapes
  rw [cleanFrom]
  simp [cleanFrom]

theorem clean_append {a r : Str} (h : ∀ c ∈ a, c ≠ '\\') :
    CleanEscapes (a ++ r) ↔ CleanEscapes r := by
  induction a with
  | nil => rfl
  | cons c a ih =>
    rw [List.cons_append, clean_plain (h c (by simp)), ih (fun c hc => h c (by simp [hc]))]

theorem clean_value {w d : Str} (hv : Value w d) (r : Str) (h : CleanEscapes (w ++ r)) :
    w = esc d ∧ CleanEscapes r := by
  induction hv with
  | nil => exact ⟨rfl, h⟩
  | @plain c w v a b _ ih =>
    rw [List.cons_append, clean_plain b] at h
    obtain ⟨h1, h2⟩ := ih h
    refine ⟨?_, h2⟩
    rw [h1]
    simp [esc, a, b]
  | @escaped c w v a _ ih =>
    have h' : CleanEscapes (w ++ r) := by
      rw [List.cons_append, List.cons_append, clean_escape] at h
      exact h.2
    obtain ⟨h1, h2⟩ := ih h'
    refine ⟨?_, h2⟩
    rw [h1]
    simp [esc, a]
  | @other c w v a b _ ih =>
    rw [List.cons_append, List.cons_append, clean_escape] at h
    exact absurd h.1 (by simp [a, b])

theorem name_no_backslash {k : Str} (h : IsName k) : ∀ c ∈ k, c ≠ '\\' := by
  rintro c hc rfl
  exact absurd (h.2 _ hc) (by decide)

theorem spaces_no_backslash {k : Str} (h : Spaces k) : ∀ c ∈ k, c ≠ '\\' := by
  intro c hc
  rw [h c hc]
  decide

theorem colon_lit : (lit ": \"").map (fun b => [b]) = [':', ' ', '"'].map enc := by decide +kernel
theorem brace_lit : (lit " { ").map (fun b => [b]) = [' ', '{', ' '].map enc := by decide +kernel

theorem parseWs_skip_C {t sp r : Str} (h : sp ++ r <:+ t) (hs : Spaces sp) {c : Char}
    (hr : r.head? = some c) (hc : c ≠ ' ') : parseWs (C t (sp ++ r)) = (true, C t r) := by
  rw [parseWs_C h, Verif.Token.dropWhile_spaces hs (by rw [hr]; simpa using hc)]
  cases r <;> simp_all

theorem parseFields_complete {t body : Str} {fs : List (Str × Str)} (hf : Fields body fs) :
    ∀ (rest : Str), body ++ rest <:+ t → ∃ raws, RawOf fs raws ∧
      (CleanEscapes (body ++ rest) →
        (∀ fr ∈ fs.zip raws, fr.2.2 = esc fr.1.2) ∧ CleanEscapes rest) ∧
      ∀ tok, parseFields (C t (body ++ rest)) tok = .ok (appendAll tok raws, true, C t rest) := by
  induction hf with
  | @close sp hsp =>
    intro rest h
    refine ⟨[], .nil, ?_, ?_⟩
    · intro hc
      rw [List.append_assoc, clean_append (spaces_no_backslash hsp), List.singleton_append,
        clean_plain (by decide)] at hc
      exact ⟨by simp, hc⟩
    · intro tok
      rw [List.append_assoc] at h ⊢
      have hw := parseWs_skip_C h hsp (c := '}') (by simp) (by decide)
      have hs : '}' :: rest <:+ t := Verif.Token.suffix_of_append h
      rw [parseFields_close hw (by rw [lit_brace]; rfl)]
      rw [lit_brace, List.singleton_append, parseChar_C hs]
      simp [appendAll]
  | @field sp k w v rest0 fs hsp hk hv _ ih =>
    intro rest h
    have e : sp ++ (k ++ ([':', ' ', '"'] ++ (w ++ ('"' :: rest0)))) ++ rest =
        sp ++ (k ++ ([':', ' ', '"'] ++ (w ++ ('"' :: (rest0 ++ rest))))) := by simp
    rw [e] at h ⊢
    obtain ⟨c, hc1, hc2⟩ := Verif.Token.isName_head
      (rest := [':', ' ', '"'] ++ (w ++ ('"' :: (rest0 ++ rest)))) hk
    have hw := parseWs_skip_C h hsp hc1 (by rintro rfl; simp [isKeyChar] at hc2)
    have hs1 := Verif.Token.suffix_of_append h
    obtain ⟨ht1, ht2⟩ := Verif.Token.takeWhile_name
      (rest := [':', ' ', '"'] ++ (w ++ ('"' :: (rest0 ++ rest)))) hk
      (by intro c hc; simp at hc; subst hc; decide)
    have hkey := (parseKey_C hs1 (encAll k)
      (C t ([':', ' ', '"'] ++ (w ++ ('"' :: (rest0 ++ rest)))))).2
      ⟨by rw [ht1]; exact hk.1, by rw [ht1], by rw [ht2]⟩
    have hs2 := Verif.Token.suffix_of_append hs1
    have h3 := (parseChars_C hs2 ": \"" _ colon_lit _).2 ⟨_, rfl, rfl⟩
    have hs3 := Verif.Token.suffix_of_append hs2
    have h4 := (parseValue_C hs3 (encAll w) _).2 ⟨w, v, rest0 ++ rest, rfl, hv, rfl, rfl⟩
    have hs4 := Verif.Token.suffix_of_append hs3
    have h5 : parseChar (C t ('"' :: (rest0 ++ rest))) (lit "\"") = (true, C t (rest0 ++ rest)) := by
      rw [lit_quote, parseChar_C hs4]; rfl
    obtain ⟨raws, i1, i2, i3⟩ := ih rest (Verif.Token.suffix_tail hs4)
    refine ⟨(k, w) :: raws, .cons ⟨rfl, hv⟩ i1, ?_, ?_⟩
    · intro hcl
      rw [clean_append (spaces_no_backslash hsp), clean_append (name_no_backslash hk),
        clean_append (by decide)] at hcl
      obtain ⟨j1, j2⟩ := clean_value hv _ hcl
      rw [clean_plain (by decide)] at j2
      obtain ⟨j3, j4⟩ := i2 j2
      refine ⟨?_, j4⟩
      intro fr hfr
      rw [List.zip_cons_cons] at hfr
      rcases List.mem_cons.1 hfr with rfl | hfr
      · exact j1
      · exact j3 fr hfr
    · intro tok
      rw [parseFields_field hw ?_ hkey h3 h4 h5, i3]
      · rfl
      · rw [lit_brace, Ne, ch_eq_iff, hc1]
        rintro ⟨rfl⟩
        simp [isKeyChar] at hc2

theorem parseWs_true_C {t r : Str} (h : r <:+ t) {s1 : St} (hw : parseWs (C t r) = (true, s1)) :
    r.dropWhile (· == ' ') ≠ [] ∧ s1 = C t (r.dropWhile (· == ' ')) := by
  rw [parseWs_C h] at hw
  cases hd : r.dropWhile (· == ' ') <;> simp_all

theorem parseWs_false_C {t r : Str} (h : r <:+ t) {s1 : St} (hw : parseWs (C t r) = (false, s1)) :
    r.dropWhile (· == ' ') = [] := by
  rw [parseWs_C h] at hw
  cases hd : r.dropWhile (· == ' ') <;> simp_all

theorem parseFields_sound {t : Str} : ∀ (n : Nat) (r : Str) (tok tok' : Token) (s' : St),
    r.length ≤ n → r <:+ t → parseFields (C t r) tok = .ok (tok', true, s') →
    ∃ body fs rest, r = body ++ rest ∧ Fields body fs ∧ s' = C t rest := by
  intro n
  induction n with
  | zero =>
    intro r tok tok' s' hn h hp
    obtain rfl : r = [] := by simpa using hn
    rw [parseFields_eof (by rw [parseWs_C h]; rfl)] at hp
    simp at hp
  | succ n ih =>
    intro r tok tok' s' hn h hp
    obtain ⟨sp, hsp, hr, hne⟩ := Verif.Token.dropWhile_space_split r
    rcases parseFields_inv hp with ⟨s1, _, hb⟩ | ⟨s1, hw, hc, rfl, _, rfl⟩ |
      ⟨s1, key, s2, s3, value, s4, s5, hw, hc, hk, h3, h4, h5, hrec⟩
    · simp at hb
    · obtain ⟨hne, rfl⟩ := parseWs_true_C h hw
      cases hd : r.dropWhile (· == ' ') with
      | nil => exact absurd hd hne
      | cons c l =>
        rw [hd, lit_brace, ch_eq_iff] at hc
        rw [hd] at hr
        obtain rfl : c = '}' := by simpa using hc
        have hsuf : '}' :: l <:+ t := Verif.Token.suffix_of_append (hr ▸ h)
        refine ⟨sp ++ ['}'], [], l, by simpa using hr, .close hsp, ?_⟩
        rw [lit_brace, parseChar_C hsuf]
        rfl
    · obtain ⟨hne, rfl⟩ := parseWs_true_C h hw
      generalize r.dropWhile (· == ' ') = r1 at *
      have hs1 : r1 <:+ t := Verif.Token.suffix_of_append (hr ▸ h)
      obtain ⟨hk0, rfl, rfl⟩ := (parseKey_C hs1 _ _).1 hk
      have hsplit : r1 = r1.takeWhile isKeyChar ++ r1.dropWhile isKeyChar :=
        (List.takeWhile_append_dropWhile).symm
      have hname := Verif.Token.isName_takeWhile hk0
      generalize r1.takeWhile isKeyChar = key at *
      generalize r1.dropWhile isKeyChar = r2 at *
      have hs2 : r2 <:+ t := Verif.Token.suffix_of_append (hsplit ▸ hs1)
      obtain ⟨r3, rfl, rfl⟩ := (parseChars_C hs2 _ _ colon_lit _).1 h3
      have hs3 : r3 <:+ t := Verif.Token.suffix_of_append hs2
      obtain ⟨w, d, r4, rfl, hv, rfl, rfl⟩ := (parseValue_C hs3 _ _).1 h4
      have hs4 : '"' :: r4 <:+ t := Verif.Token.suffix_of_append hs3
      rw [lit_quote, parseChar_C hs4] at h5
      simp only [List.head?_cons, if_true, List.tail_cons, Prod.mk.injEq, true_and] at h5
      subst h5
      have hlen : r4.length ≤ n := by
        subst hsplit; subst hr; simp at hn; omega
      obtain ⟨body, fs, rest, rfl, hf, rfl⟩ :=
        ih r4 _ tok' s' hlen (Verif.Token.suffix_tail hs4) hrec
      refine ⟨_, (key, d) :: fs, rest, ?_, .field hsp hname hv hf, rfl⟩
      subst hsplit
      rw [hr]
      simp

/-! ### Streams -/

theorem parseLoop_eof {s s1 : St} {toks : List Token} (hw : parseWs s = (false, s1)) :
    parseLoop s toks = .ok toks := by
  rw [parseLoop]; split <;> simp_all

theorem parseLoop_token {s s1 s2 s3 s4 : St} {toks : List Token} {name : Bytes} {token : Token}
    (hw : parseWs s = (true, s1)) (hk : parseKey s1 = .ok (name, s2))
    (h3 : parseChars s2 " { " = (true, s3))
    (h4 : parseFields s3 { name := name } = .ok (token, true, s4)) :
    parseLoop s toks = parseLoop s4 (toks ++ [token]) := by
  rw [parseLoop]
  split
  · simp_all
  · rename_i s1' hw'
    obtain rfl : s1' = s1 := by simp_all
    split
    · simp_all
    · rename_i k2 s2' hk'
      obtain ⟨rfl, rfl⟩ : k2 = name ∧ s2' = s2 := by simp_all
      split
      · simp_all
      · rename_i s3' h3'
        obtain rfl : s3' = s3 := by simp_all
        split <;> simp_all

theorem parseLoop_inv {s : St} {toks toks' : List Token}
    (h : parseLoop s toks = .ok toks') :
    (∃ s1, parseWs s = (false, s1) ∧ toks' = toks) ∨
    (∃ s1 name s2 s3 token s4, parseWs s = (true, s1) ∧ parseKey s1 = .ok (name, s2) ∧
      parseChars s2 " { " = (true, s3) ∧
      parseFields s3 { name := name } = .ok (token, true, s4) ∧
      parseLoop s4 (toks ++ [token]) = .ok toks') := by
  rw [parseLoop] at h
  split at h
  · rename_i s1 hw
    cases h
    exact .inl ⟨_, hw, rfl⟩
  · rename_i s1 hw
    split at h
    · cases h
    · rename_i name s2 hk
      split at h
      · cases h
      · rename_i s3 h3
        split at h
        · cases h
        · cases h
        · rename_i token s4 h4
          exact .inr ⟨s1, name, s2, s3, token, s4, hw, hk, h3, h4, h⟩

/-- The C++ token built for a written token with raw fields. -/
def cppTok (k : Tok) (raws : List (Str × Str)) : Token :=
  appendAll { name := encAll k.name } raws

theorem parseLoop_complete {t r : Str} {ks : List Tok} (hst : Stream r ks) :
    r <:+ t → ∃ raws : List (List (Str × Str)),
      List.Forall₂ (fun k raw => RawOf k.fields raw) ks raws ∧
      (CleanEscapes r → ∀ kr ∈ ks.zip raws, ∀ fr ∈ kr.1.fields.zip kr.2, fr.2.2 = esc fr.1.2) ∧
      ∀ toks, parseLoop (C t r) toks =
        .ok (toks ++ (ks.zip raws).map fun kr => cppTok kr.1 kr.2) := by
  induction hst with
  | @done sp hsp =>
    intro h
    refine ⟨[], .nil, by simp, ?_⟩
    intro toks
    rw [parseLoop_eof (s1 := C t [])]
    · simp
    · have := Verif.Token.dropWhile_spaces (r := []) hsp (by simp)
      rw [parseWs_C h]
      simp only [List.append_nil] at this
      rw [this]
      rfl
  | @block sp b k rest ks hsp hb _ ih =>
    intro h
    obtain @⟨n, body, fs, hn, hf⟩ := hb
    have e : sp ++ (n ++ ([' ', '{', ' '] ++ body) ++ rest) =
      sp ++ (n ++ ([' ', '{', ' '] ++ (body ++ rest))) := by simp
    rw [e] at h ⊢
    obtain ⟨c, hc1, hc2⟩ := Verif.Token.isName_head (rest := [' ', '{', ' '] ++ (body ++ rest)) hn
    have hw := parseWs_skip_C h hsp hc1 (by rintro rfl; simp [isKeyChar] at hc2)
    have hs1 := Verif.Token.suffix_of_append h
    obtain ⟨ht1, ht2⟩ := Verif.Token.takeWhile_name (rest := [' ', '{', ' '] ++ (body ++ rest)) hn
      (by intro c hc; simp at hc; subst hc; decide)
    have hkey := (parseKey_C hs1 (encAll n) (C t ([' ', '{', ' '] ++ (body ++ rest)))).2
      ⟨by rw [ht1]; exact hn.1, by rw [ht1], by rw [ht2]⟩
    have hs2 := Verif.Token.suffix_of_append hs1
    have h3 := (parseChars_C hs2 " { " _ brace_lit _).2 ⟨_, rfl, rfl⟩
    have hs3 := Verif.Token.suffix_of_append hs2
    obtain ⟨raw, r1, r2, r3⟩ := parseFields_complete hf rest hs3
    obtain ⟨raws, i1, i2, i3⟩ := ih (Verif.Token.suffix_of_append hs3)
    refine ⟨raw :: raws, .cons r1 i1, ?_, ?_⟩
    · intro hcl
      rw [clean_append (spaces_no_backslash hsp), clean_append (name_no_backslash hn),
        clean_append (by decide)] at hcl
      obtain ⟨j1, j2⟩ := r2 hcl
      have j3 := i2 j2
      intro kr hkr
      rw [List.zip_cons_cons] at hkr
      rcases List.mem_cons.1 hkr with rfl | hkr
      · exact j1
      · exact j3 kr hkr
    · intro toks
      rw [parseLoop_token hw hkey h3 (r3 _), i3]
      simp [cppTok]

theorem parseLoop_sound {t : Str} : ∀ (n : Nat) (r : Str) (toks toks' : List Token),
    r.length ≤ n → r <:+ t → parseLoop (C t r) toks = .ok toks' → ∃ ks, Stream r ks := by
  intro n
  induction n with
  | zero =>
    intro r toks toks' hn h hp
    obtain rfl : r = [] := by simpa using hn
    exact ⟨[], .done (by simp [Spaces])⟩
  | succ n ih =>
    intro r toks toks' hn h hp
    obtain ⟨sp, hsp, hr, hne⟩ := Verif.Token.dropWhile_space_split r
    rcases parseLoop_inv hp with ⟨s1, hw, rfl⟩ |
      ⟨s1, name, s2, s3, token, s4, hw, hk, h3, h4, hrec⟩
    · have := parseWs_false_C h hw
      rw [this] at hr
      exact ⟨[], .done (by rw [hr]; simpa using hsp)⟩
    · obtain ⟨hne, rfl⟩ := parseWs_true_C h hw
      generalize r.dropWhile (· == ' ') = r1 at *
      have hs1 : r1 <:+ t := Verif.Token.suffix_of_append (hr ▸ h)
      obtain ⟨hk0, rfl, rfl⟩ := (parseKey_C hs1 _ _).1 hk
      have hsplit : r1 = r1.takeWhile isKeyChar ++ r1.dropWhile isKeyChar :=
        (List.takeWhile_append_dropWhile).symm
      have hname := Verif.Token.isName_takeWhile hk0
      generalize r1.takeWhile isKeyChar = key at *
      generalize r1.dropWhile isKeyChar = r2 at *
      have hs2 : r2 <:+ t := Verif.Token.suffix_of_append (hsplit ▸ hs1)
      obtain ⟨r3, rfl, rfl⟩ := (parseChars_C hs2 _ _ brace_lit _).1 h3
      have hs3 : r3 <:+ t := Verif.Token.suffix_of_append hs2
      obtain ⟨body, fs, rest, rfl, hf, rfl⟩ :=
        parseFields_sound _ r3 _ token s4 (Nat.le_refl _) hs3 h4
      have hs4 : rest <:+ t := Verif.Token.suffix_of_append hs3
      have hlen : rest.length ≤ n := by
        subst hsplit; subst hr; simp at hn; omega
      obtain ⟨ks, hks⟩ := ih rest _ toks' hlen hs4 hrec
      have e1 : r = sp ++ ((key ++ ([' ', '{', ' '] ++ body)) ++ rest) := by
        rw [hr, hsplit]; simp
      rw [e1]
      exact ⟨_, .block hsp (.mk hname hf) hks⟩

theorem load_C {t : Str} (h : t ≠ []) : load (encAll t) = .ok (C t t) := by
  unfold load
  rw [splitUTF8_encAll]
  cases t with
  | nil => exact absurd rfl h
  | cons c t => simp [C, Verif.Token.S]

end Verif.Cpp
