import Verif.JaTn.Post
import Verif.Wfst.Run

/-
Properties of the Japanese pre- and postprocessor: C68 and C69.
-/

namespace Verif.JaTn

open Verif.Wfst

/-! ### C68: postprocessing -/

/-- **C68.** For every choice of options the postprocessor maps every text (without NUL) to exactly one
text, character by character: listed full-width characters are replaced; of the result the punctuation
marks are dropped; characters outside the character set are put between `<oov>` and `</oov>`.
`remove_interjections` changes nothing, as the list of interjections is empty. -/
theorem C68_postprocess (k : Config) (x y : Str) (w : W) :
    (postprocessor k).den x y w ↔ VText x ∧ w = 0 ∧ y = x.flatMap fun c =>
      let c := if k.fullToHalf then (fullToHalf.lookup c).getD c else c
      if k.removePuncts && (punctsJa.contains c || isPunct c) then []
      else if k.tagOov && !inCharset c then "<oov>".toList ++ c :: "</oov>".toList else [c] := by
  rw [maps_postprocessor k x y w]
  constructor
  · rintro ⟨h1, rfl, rfl⟩; exact ⟨h1, rfl, rfl⟩
  · rintro ⟨h1, rfl, rfl⟩; exact ⟨h1, rfl, rfl⟩

/-- **C68.** The character set: the two lists of characters, the punctuation list, printable ASCII, the
ASCII white space and the no-break space. -/
theorem C68_charset (c : Char) : inCharset c = true ↔ c ∈ charsetStd ∨ c ∈ charsetExt ∨ c ∈ punctsJa ∨
    (32 ≤ c.toNat ∧ c.toNat ≤ 126) ∨ (9 ≤ c.toNat ∧ c.toNat ≤ 13) ∨ c.toNat = 160 := by
  have hle : ∀ a b : Char, a ≤ b ↔ a.toNat ≤ b.toNat := fun a b => UInt32.le_iff_toNat_le
  have heq : ∀ a b : Char, a = b ↔ a.toNat = b.toNat :=
    fun a b => ⟨fun h => h ▸ rfl, fun h => Char.toNat_inj.1 h⟩
  have h1 : (isDigit c || isAlpha c || isPunct c || isSpace c) = true ↔
      (32 ≤ c.toNat ∧ c.toNat ≤ 126) ∨ (9 ≤ c.toNat ∧ c.toNat ≤ 13) ∨ c.toNat = 160 := by
    simp only [isDigit, isAlpha, isLower, isUpper, isPunct, isSpace, Bool.or_eq_true, Bool.and_eq_true,
      decide_eq_true_eq, hle, heq]
    simp only [show ('0' : Char).toNat = 48 from rfl, show ('9' : Char).toNat = 57 from rfl,
      show ('a' : Char).toNat = 97 from rfl, show ('z' : Char).toNat = 122 from rfl,
      show ('A' : Char).toNat = 65 from rfl, show ('Z' : Char).toNat = 90 from rfl,
      show ('!' : Char).toNat = 33 from rfl, show ('/' : Char).toNat = 47 from rfl,
      show (':' : Char).toNat = 58 from rfl, show ('@' : Char).toNat = 64 from rfl,
      show ('[' : Char).toNat = 91 from rfl, show ('`' : Char).toNat = 96 from rfl,
      show ('{' : Char).toNat = 123 from rfl, show ('~' : Char).toNat = 126 from rfl,
      show (' ' : Char).toNat = 32 from rfl, show ('\t' : Char).toNat = 9 from rfl,
      show ('\r' : Char).toNat = 13 from rfl, show ('\u00a0' : Char).toNat = 160 from rfl]
    omega
  rw [← h1]
  unfold inCharset
  simp only [Bool.or_eq_true, List.contains_iff_mem]
  simp only [or_assoc]

/-- **C68.** With all options off a text is left as it is. -/
theorem C68_off (b : Bool) (x y : Str) (w : W) :
    (postprocessor { fullToHalf := false, removeInterjections := b }).den x y w ↔ VText x ∧ w = 0 ∧ y = x := by
  rw [C68_postprocess]
  simp

example : (postprocessor { removePuncts := true }).den t!"ア，Ａ１。" t!"アA1" 0 :=
  (C68_postprocess _ _ _ _).2 ⟨by decide, rfl, by decide +kernel⟩

example : (postprocessor { tagOov := true }).den t!"𝄞" t!"<oov>𝄞</oov>" 0 :=
  (C68_postprocess _ _ _ _).2 ⟨by decide, rfl, by decide +kernel⟩

/-! ### C69: full-width input -/

/-- The graphs behind the preprocessor that the rules tag and verbalize fields with. -/
def fieldGraphs (h : Bool) : List G :=
  [cardinal h, number h, positiveInteger h, month h, day h, mathG h, measure h, currency h, team h,
   teamScore h, onlyScore h, pre h toG, pre h (.tab hour), pre h (.tab minute), pre h (.tab second),
   pre h (.tab noon), pre h (.tab whitelist), pre h (.tab transliterationTable)]

theorem half_idem (c : Char) : half true (half true c) = half true c := by
  have key : fullToHalf.all (fun e => decide (half true e.2 = e.2)) = true := by decide +kernel
  show half true ((fullToHalf.lookup c).getD c) = (fullToHalf.lookup c).getD c
  cases hl : fullToHalf.lookup c with
  | none => simp [half, hl]
  | some d =>
    obtain ⟨l₁, l₂, he, _⟩ := List.lookup_eq_some_iff.1 hl
    have := List.all_eq_true.1 key (c, d) (by rw [he]; simp)
    simpa using this

theorem half_vtext {x : Str} (hx : VText x) : VText (x.map (half true)) := by
  intro d hd
  obtain ⟨c, hc, rfl⟩ := List.mem_map.1 hd
  exact table_vchar f2h_vchar (hx c hc) _ (by simp [half])

theorem pre_half (g : G) (x y : Str) (w : W) (hx : VText x) :
    (pre true g).den x y w ↔ (pre true g).den (x.map (half true)) y w := by
  rw [den_pre, den_pre, List.map_map]
  have : (half true) ∘ (half true) = half true := funext half_idem
  rw [this]
  exact ⟨fun h => ⟨half_vtext hx, h.2⟩, fun h => ⟨hx, h.2⟩⟩

/-- **C69.** With `full_to_half` every field grammar reads a text exactly as it reads the text with
full-width characters replaced: the same readings with the same weights. -/
theorem C69_width (g : G) (hg : g ∈ fieldGraphs true) (x y : Str) (w : W) (hx : VText x) :
    g.den x y w ↔ g.den (x.map fun c => (fullToHalf.lookup c).getD c) y w := by
  have : (fun c => (fullToHalf.lookup c).getD c) = half true := rfl
  rw [this]
  simp only [fieldGraphs, List.mem_cons, List.not_mem_nil, or_false] at hg
  rcases hg with rfl | rfl | rfl | rfl | rfl | rfl | rfl | rfl | rfl | rfl | rfl | rfl | rfl | rfl | rfl | rfl |
    rfl | rfl <;> exact pre_half _ x y w hx

/-- **C69.** The year of a date is read in either width as well. -/
theorem C69_year (x y : Str) (w : W) (hx : VText x) :
    (year true).den x y w ↔ (year true).den (x.map fun c => (fullToHalf.lookup c).getD c) y w := by
  unfold year
  rw [den_add_insert, den_add_insert]
  constructor
  · rintro ⟨z, rfl, h⟩; exact ⟨z, rfl, (pre_half _ _ _ _ hx).1 h⟩
  · rintro ⟨z, rfl, h⟩; exact ⟨z, rfl, (pre_half _ _ _ _ hx).2 h⟩

example : (cardinal true).den t!"1２％" t!"十二パーセント" 0 := (mem_outputs (by decide +kernel)).1 (by decide +kernel)

example : ¬∃ y w, (cardinal false).den t!"1２％" y w := by
  rintro ⟨y, w, h⟩
  have := (mem_outputs (by decide +kernel)).2 h
  revert this
  rw [show (cardinal false).outputs t!"1２％" = [] by decide +kernel]
  simp

end Verif.JaTn
