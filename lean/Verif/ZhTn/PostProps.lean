import Verif.ZhTn.Post

/-
Properties of the Chinese postprocessor: C59.
-/

namespace Verif.ZhTn

open Verif.Wfst

/-! ### C59: postprocessing -/

/-- **C59.** For every choice of options the postprocessor maps every text (without NUL) to exactly one
text, character by character: a listed traditional character is replaced by its simplified form; of the
result the interjections 呃 and 啊 and the punctuation marks are dropped; listed full-width characters are
replaced; characters outside the character set are put between `<oov>` and `</oov>`. -/
theorem C59_postprocess (k : Config) (x y : Str) (w : W) :
    (postprocessor k).den x y w ↔ VText x ∧ w = 0 ∧ y = x.flatMap fun c =>
      let c := if k.traditionalToSimple then (traditionalToSimple.lookup c).getD c else c
      if k.removeInterjections && (c == '呃' || c == '啊') then []
      else if k.removePuncts && (punctsZh.contains c || isPunct c) then []
      else
        let c := if k.fullToHalf then (fullToHalf.lookup c).getD c else c
        if k.tagOov && !inCharset c then "<oov>".toList ++ c :: "</oov>".toList else [c] := by
  rw [maps_postprocessor k x y w]
  constructor
  · rintro ⟨h1, rfl, rfl⟩; exact ⟨h1, rfl, rfl⟩
  · rintro ⟨h1, rfl, rfl⟩; exact ⟨h1, rfl, rfl⟩

/-- **C59.** With all options off a text is left as it is. -/
theorem C59_off (x y : Str) (w : W) : (postprocessor ⟨false, false, false, false, false, false⟩).den x y w ↔
    VText x ∧ w = 0 ∧ y = x := by
  rw [C59_postprocess]
  simp

/-- **C59.** `remove_puncts` alone deletes exactly the punctuation marks. -/
theorem C59_puncts (x y : Str) (w : W) : (postprocessor ⟨false, false, false, true, false, false⟩).den x y w ↔
    VText x ∧ w = 0 ∧ y = x.filter fun c => !(punctsZh.contains c || isPunct c) := by
  rw [C59_postprocess]
  refine and_congr_right fun _ => and_congr_right fun _ => ?_
  have : (x.filter fun c => !(punctsZh.contains c || isPunct c)) =
      x.flatMap fun c => if (punctsZh.contains c || isPunct c) = true then [] else [c] := by
    clear * -
    induction x with
    | nil => rfl
    | cons c x ih =>
      rw [List.flatMap_cons, ← ih]
      by_cases h : (punctsZh.contains c || isPunct c) = true
      · rw [List.filter_cons_of_neg (by rw [h]; decide), if_pos h]; rfl
      · rw [List.filter_cons_of_pos (by simp only [Bool.not_eq_true] at h; rw [h]; decide), if_neg h]; rfl
  rw [this]
  simp

/-- **C59.** With `tag_oov` the original text (with the other options off) is recovered by dropping the
marks: nothing but marks is added. -/
theorem C59_oov (x y : Str) (w : W) : (postprocessor ⟨false, false, false, false, false, true⟩).den x y w ↔
    VText x ∧ w = 0 ∧ y = x.flatMap fun c => if inCharset c then [c] else "<oov>".toList ++ c :: "</oov>".toList := by
  rw [C59_postprocess]
  refine and_congr_right fun _ => and_congr_right fun _ => ?_
  have : ∀ c, (if (true && !inCharset c) = true then "<oov>".toList ++ c :: "</oov>".toList else [c]) =
      if inCharset c then [c] else "<oov>".toList ++ c :: "</oov>".toList := by
    intro c; cases inCharset c <;> rfl
  have e : (fun c : Char => if inCharset c then [c] else "<oov>".toList ++ c :: "</oov>".toList) =
    fun c => if (true && !inCharset c) = true then "<oov>".toList ++ c :: "</oov>".toList else [c] :=
    funext fun c => (this c).symm
  rw [e]
  simp only [Bool.false_and, if_false, Bool.false_eq_true]

/-- **C59.** The character set: the two lists of characters, the punctuation list, printable ASCII, the
ASCII white space and the no-break space. -/
theorem C59_charset (c : Char) : inCharset c = true ↔ c ∈ charsetStd ∨ c ∈ charsetExt ∨ c ∈ punctsZh ∨
    (32 ≤ c.toNat ∧ c.toNat ≤ 126) ∨ (9 ≤ c.toNat ∧ c.toNat ≤ 13) ∨ c.toNat = 160 := by
  have hle : ∀ a b : Char, a ≤ b ↔ a.toNat ≤ b.toNat := fun a b => UInt32.le_iff_toNat_le
  have heq : ∀ a b : Char, a = b ↔ a.toNat = b.toNat :=
    fun a b => ⟨fun h => h ▸ rfl, fun h => Char.toNat_inj.1 h⟩
  have h1 : (isDigit c || isAlpha c || isPunct c || isSpace c) = true ↔
      (32 ≤ c.toNat ∧ c.toNat ≤ 126) ∨ (9 ≤ c.toNat ∧ c.toNat ≤ 13) ∨ c.toNat = 160 := by
    simp only [isDigit, isAlpha, isLower, isUpper, isPunct, isSpace, Bool.or_eq_true, Bool.and_eq_true,
      decide_eq_true_eq, hle, heq]
    simp only [show ('0' : Char).toNat = 48 from rfl, show ('9' : Char).toNat = 57 from rfl,
      show ('a' : Char).toNat = 97 from rfl, show ('z' : Char).toNat = 122 from rfl,
      show ('A' : Char).toNat = 65 from rfl, show ('Z' : Char).toNat = 90 from rfl,
      show ('!' : Char).toNat = 33 from rfl, show ('/' : Char).toNat = 47 from rfl,
      show (':' : Char).toNat = 58 from rfl, show ('@' : Char).toNat = 64 from rfl,
      show ('[' : Char).toNat = 91 from rfl, show ('`' : Char).toNat = 96 from rfl,
      show ('{' : Char).toNat = 123 from rfl, show ('~' : Char).toNat = 126 from rfl,
      show (' ' : Char).toNat = 32 from rfl, show ('\t' : Char).toNat = 9 from rfl,
      show ('\r' : Char).toNat = 13 from rfl, show ('\u00a0' : Char).toNat = 160 from rfl]
    omega
  rw [← h1]
  unfold inCharset
  simp only [Bool.or_eq_true, List.contains_iff_mem]
  simp only [or_assoc]

example : (postprocessor { traditionalToSimple := false, removePuncts := true }).den t!"呃，Ａ１" t!"A1" 0 :=
  (C59_postprocess _ _ _ _).2 ⟨by decide, rfl, by decide +kernel⟩

example : (postprocessor {}).den t!"電" t!"电" 0 :=
  (C59_postprocess _ _ _ _).2 ⟨by decide, rfl, by decide +kernel⟩

example : (postprocessor { traditionalToSimple := false, tagOov := true }).den t!"𝄞" t!"<oov>𝄞</oov>" 0 :=
  (C59_postprocess _ _ _ _).2 ⟨by decide, rfl, by decide +kernel⟩

end Verif.ZhTn
