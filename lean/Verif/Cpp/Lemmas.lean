import Verif.Cpp.Model
import Verif.Token.Lemmas3

namespace Verif.Cpp

/-! ### UTF-8 -/

/-- UTF-8 bytes of a character (Lean's own definition). -/
abbrev enc (c : Char) : Bytes := String.utf8EncodeChar c

/-- UTF-8 bytes of a text. -/
def encAll (t : List Char) : Bytes := t.flatMap enc

@[simp] theorem encAll_nil : encAll [] = [] := rfl
@[simp] theorem encAll_cons (c : Char) (t : List Char) : encAll (c :: t) = enc c ++ encAll t := rfl
theorem encAll_append (a b : List Char) : encAll (a ++ b) = encAll a ++ encAll b := by
  simp [encAll]

theorem enc_injective : Function.Injective enc := by
  intro a b h
  have ha := @ByteArray.utf8DecodeChar?_utf8EncodeChar_append ByteArray.empty a
  have hb := @ByteArray.utf8DecodeChar?_utf8EncodeChar_append ByteArray.empty b
  simp only [enc] at h
  rw [h, hb] at ha
  exact (Option.some.inj ha).symm

theorem enc_ne_nil (c : Char) : enc c ≠ [] := String.utf8EncodeChar_ne_nil

theorem lead1 : ∀ k : Fin 128, utf8CharLength (UInt8.ofNat k.val) = some 1 := by decide +kernel
theorem lead2 : ∀ k : Fin 32, utf8CharLength (UInt8.ofNat (k.val + 0xc0)) = some 2 := by
  decide +kernel
theorem lead3 : ∀ k : Fin 16, utf8CharLength (UInt8.ofNat (k.val + 0xe0)) = some 3 := by
  decide +kernel
theorem lead4 : ∀ k : Fin 8, utf8CharLength (UInt8.ofNat (k.val + 0xf0)) = some 4 := by
  decide +kernel

theorem lead_enc (c : Char) :
    ∃ b rest, enc c = b :: rest ∧ utf8CharLength b = some (enc c).length := by
  unfold enc String.utf8EncodeChar
  dsimp only
  split
  · rename_i h
    exact ⟨_, _, rfl, lead1 ⟨c.val.toNat, by omega⟩⟩
  · split
    · exact ⟨_, _, rfl, lead2 ⟨c.val.toNat / 64 % 0x20, by omega⟩⟩
    · split
      · exact ⟨_, _, rfl, lead3 ⟨c.val.toNat / 4096 % 0x10, by omega⟩⟩
      · exact ⟨_, _, rfl, lead4 ⟨c.val.toNat / 262144 % 0x08, by omega⟩⟩

theorem splitUTF8_cons {b : UInt8} {rest : Bytes} {n : Nat} (h : utf8CharLength b = some n) :
    splitUTF8 (b :: rest) =
      (splitUTF8 ((b :: rest).drop n)).map ((b :: rest).take n :: ·) := by
  rw [splitUTF8]; split <;> simp_all

theorem splitUTF8_none {b : UInt8} {rest : Bytes} (h : utf8CharLength b = none) :
    splitUTF8 (b :: rest) = none := by
  rw [splitUTF8]; split <;> simp_all

theorem splitUTF8_enc (c : Char) (rest : Bytes) :
    splitUTF8 (enc c ++ rest) = (splitUTF8 rest).map (enc c :: ·) := by
  obtain ⟨b, tl, he, hl⟩ := lead_enc c
  have : enc c ++ rest = b :: (tl ++ rest) := by rw [he]; rfl
  rw [this, splitUTF8_cons hl, ← this]
  simp

theorem splitUTF8_encAll (cs : List Char) : splitUTF8 (encAll cs) = some (cs.map enc) := by
  induction cs with
  | nil => rw [encAll_nil, splitUTF8]; rfl
  | cons c cs ih => rw [encAll_cons, splitUTF8_enc, ih]; rfl

theorem splitUTF8_flatten : ∀ (n : Nat) (s : Bytes) (ps : List Bytes), s.length ≤ n →
    splitUTF8 s = some ps → ps.flatten = s ∧ ∀ p ∈ ps, p ≠ [] ∧ p.length ≤ 4 := by
  intro n
  induction n with
  | zero =>
    intro s ps hn h
    obtain rfl : s = [] := by simpa using hn
    rw [splitUTF8] at h
    cases h
    simp
  | succ n ih =>
    intro s ps hn h
    cases s with
    | nil => rw [splitUTF8] at h; cases h; simp
    | cons b rest =>
      cases hb : utf8CharLength b with
      | none => rw [splitUTF8_none hb] at h; cases h
      | some k =>
        have hk := utf8CharLength_pos hb
        have hk4 : k ≤ 4 := by
          unfold utf8CharLength at hb
          repeat' split at hb
          all_goals simp at hb
          all_goals omega
        rw [splitUTF8_cons hb, Option.map_eq_some_iff] at h
        obtain ⟨qs, hq, rfl⟩ := h
        obtain ⟨h1, h2⟩ := ih _ qs (by simp at hn ⊢; omega) hq
        constructor
        · simp [h1]
        · intro p hp
          rcases List.mem_cons.1 hp with rfl | hp
          · constructor
            · intro h0
              have := congrArg List.length h0
              simp at this
              omega
            · simp; omega
          · exact h2 p hp

theorem utf8CharLength_none_iff (b : UInt8) : utf8CharLength b = none ↔ 0xF7 < b := by
  have : ∀ k : Fin 256, utf8CharLength (UInt8.ofNat k.val) = none ↔ 0xF7 < UInt8.ofNat k.val := by
    decide +kernel
  have h := this ⟨b.toNat, b.toNat_lt⟩
  simpa using h

theorem splitUTF8_isSome : ∀ (n : Nat) (s : Bytes), s.length ≤ n → (∀ b ∈ s, b ≤ 0xF7) →
    ∃ ps, splitUTF8 s = some ps := by
  intro n
  induction n with
  | zero =>
    intro s hn _
    obtain rfl : s = [] := by simpa using hn
    exact ⟨[], by rw [splitUTF8]⟩
  | succ n ih =>
    intro s hn h
    cases s with
    | nil => exact ⟨[], by rw [splitUTF8]⟩
    | cons b rest =>
      cases hb : utf8CharLength b with
      | none =>
        have h1 := (utf8CharLength_none_iff b).1 hb
        have h2 := h b (by simp)
        exact absurd h1 (UInt8.not_lt.2 h2)
      | some k =>
        have hk := utf8CharLength_pos hb
        obtain ⟨ps, hp⟩ := ih ((b :: rest).drop k) (by simp at hn ⊢; omega)
          (fun x hx => h x (List.mem_of_mem_drop hx))
        exact ⟨_, by rw [splitUTF8_cons hb, hp]; rfl⟩

theorem utf8StringLength_eq : ∀ (n : Nat) (s : Bytes), s.length ≤ n →
    utf8StringLength s = (splitUTF8 s).map List.length := by
  intro n
  induction n with
  | zero =>
    intro s hn
    obtain rfl : s = [] := by simpa using hn
    rw [utf8StringLength, splitUTF8]; rfl
  | succ n ih =>
    intro s hn
    cases s with
    | nil => rw [utf8StringLength, splitUTF8]; rfl
    | cons b rest =>
      cases hb : utf8CharLength b with
      | none =>
        rw [splitUTF8_none hb, utf8StringLength]
        split <;> simp_all
      | some k =>
        have hk := utf8CharLength_pos hb
        have e : utf8StringLength (b :: rest) = (utf8StringLength ((b :: rest).drop k)).map (· + 1) := by
          rw [utf8StringLength]; split <;> simp_all
        rw [e, splitUTF8_cons hb, ih _ (by simp at hn ⊢; omega)]
        cases splitUTF8 ((b :: rest).drop k) <;> simp

/-! ### ASCII literals -/

theorem enc_ascii {c : Char} (h : c.toNat ≤ 0x7f) : enc c = [UInt8.ofNat c.toNat] := by
  unfold enc String.utf8EncodeChar
  dsimp only
  have h' : c.val.toNat ≤ 0x7f := h
  rw [if_pos h']
  rfl

theorem lit_eq_encAll (s : String) (h : ∀ c ∈ s.toList, c.toNat ≤ 0x7f) :
    lit s = encAll s.toList := by
  unfold lit encAll
  generalize s.toList = l at h
  induction l with
  | nil => rfl
  | cons c l ih =>
    rw [List.map_cons, List.flatMap_cons, enc_ascii (h c (by simp)), ih (fun c hc => h c (by simp [hc]))]
    rfl

theorem encAll_injective {a b : List Char} (h : encAll a = encAll b) : a = b := by
  have h1 := splitUTF8_encAll a
  rw [h, splitUTF8_encAll b] at h1
  exact (List.map_injective_iff.2 enc_injective (Option.some.inj h1)).symm

theorem map_enc_flatten (cs : List Char) : (cs.map enc).flatten = encAll cs := by
  simp [encAll, List.flatMap]

end Verif.Cpp
