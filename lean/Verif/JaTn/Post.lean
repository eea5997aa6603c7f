import Verif.JaTn.Model
import Verif.Wfst.Maps

/-
The pre- and postprocessor of the Japanese normalizer work character by character.
-/

namespace Verif.JaTn

open Verif.Wfst

theorem f2h_nodup : (fullToHalf.map fun e => e.1.toNat).Nodup :=
  (nodup_of_distinct (m := 0) (by decide +kernel)).1

theorem f2h_vchar : fullToHalf.all (fun e => vchar e.2) = true := by decide +kernel

/-- The half-width form of a character. -/
def half (h : Bool) (c : Char) : Char := if h then (fullToHalf.lookup c).getD c else c

theorem maps_preprocessor (h : Bool) : Maps (preprocessor h) (fun c => [half h c]) := by
  cases h
  · exact maps_id
  · have := maps_id.comp (maps_table f2h_nodup) vtext_single
    simpa [preprocessor, whenDo, half] using this

/-- A grammar behind the preprocessor reads the half-width form of the text. -/
theorem den_pre {h : Bool} {g : G} {x y : Str} {w : W} :
    (pre h g).den x y w ↔ VText x ∧ g.den (x.map (half h)) y w :=
  den_comp_maps (maps_preprocessor h)

theorem den_interjection (u v w) : (delete (.tab blacklist)).den u v w ↔
    ∃ c : Char, false = true ∧ u = [c] ∧ v = [] ∧ w = 0 := by
  rw [den_delete, den_tab]
  simp [blacklist]

/-- The punctuation marks that are removed. -/
def isMark (c : Char) : Bool := punctsJa.contains c || isPunct c

theorem den_mark (u v w) : (delete (.cls fun c => punctsJa.contains c || isPunct c)).den u v w ↔
    ∃ c, isMark c = true ∧ u = [c] ∧ v = [] ∧ w = 0 := by
  rw [den_delete, den_cls]
  constructor
  · rintro ⟨rfl, c, hc, rfl, _, rfl⟩; exact ⟨c, hc, rfl, rfl, rfl⟩
  · rintro ⟨c, hc, rfl, rfl, rfl⟩; exact ⟨rfl, c, hc, rfl, rfl, rfl⟩

theorem maps_oov : Maps oovTagger (fun c => if vchar c && !inCharset c then t!"<oov>" ++ c :: t!"</oov>" else [c]) := by
  have hg : ∀ u v w, (Wfst.insert t!"<oov>" + G.cls (fun c => vchar c && !inCharset c) +
      Wfst.insert t!"</oov>").den u v w ↔
      ∃ c, (vchar c && !inCharset c) = true ∧ u = [c] ∧ v = t!"<oov>" ++ c :: t!"</oov>" ∧ w = 0 := by
    intro u v w
    rw [den_add_insert]
    constructor
    · rintro ⟨y, rfl, h⟩
      obtain ⟨y', rfl, h'⟩ := den_insert_add.1 h
      obtain ⟨c, hc, rfl, rfl, rfl⟩ := den_cls.1 h'
      exact ⟨c, hc, rfl, rfl, rfl⟩
    · rintro ⟨c, hc, rfl, rfl, rfl⟩
      exact ⟨t!"<oov>" ++ [c], rfl, den_insert_add.2 ⟨[c], rfl, den_cls.2 ⟨c, hc, rfl, rfl, rfl⟩⟩⟩
  refine maps_rule ?_ ?_
  · intro u v w hd
    obtain ⟨c, hp, rfl, rfl, rfl⟩ := (hg _ _ _).1 hd
    exact ⟨c, rfl, by rw [if_pos hp], rfl⟩
  · intro c hc
    have : ¬(vchar c && !inCharset c) = true := fun hp => hc ⟨_, 0, (hg _ _ _).2 ⟨c, hp, rfl, rfl, rfl⟩⟩
    rw [if_neg this]

/-- What the options make of one character: it is made half-width, then dropped if it is a punctuation
mark, then marked if it is outside the character set. The list of interjections is empty. -/
def post (k : Config) (c : Char) : Str :=
  let c := half k.fullToHalf c
  if k.removePuncts && isMark c then []
  else if k.tagOov && !inCharset c then t!"<oov>" ++ c :: t!"</oov>" else [c]

theorem maps_postprocessor (k : Config) : ∀ x y w, (postprocessor k).den x y w ↔
    VText x ∧ y = x.flatMap (post k) ∧ w = 0 := by
  have h0 := maps_id
  have h1 := h0.whenDo (maps_table f2h_nodup) vtext_single k.fullToHalf
  have v1 := vtext_when vtext_single (fun c hc => table_vchar f2h_vchar hc) k.fullToHalf
  have h2 := h1.whenDo (maps_delete (p := fun _ => false) den_interjection) v1 k.removeInterjections
  have v2 := vtext_when v1 (vtext_delete (p := fun _ => false)) k.removeInterjections
  have h3 := h2.whenDo (maps_delete den_mark) v2 k.removePuncts
  have v3 := vtext_when v2 (vtext_delete (p := isMark)) k.removePuncts
  have h4 := h3.whenDo maps_oov v3 k.tagOov
  refine h4.congr fun c hc => ?_
  unfold post
  have e1 : (if k.fullToHalf = true then
      List.flatMap (fun c => [(List.lookup c fullToHalf).getD c]) [c] else [c]) =
      [half k.fullToHalf c] := by
    unfold half
    split <;> simp
  have hc1 := v1 c hc
  rw [e1] at hc1 ⊢
  dsimp only
  generalize half k.fullToHalf c = c1 at hc1 ⊢
  have hc1 := hc1 c1 (by simp)
  generalize k.removeInterjections = b1
  generalize k.removePuncts = b2
  generalize k.tagOov = b4
  clear h0 h1 h2 h3 h4 v1 v2 v3 e1
  cases hp2 : isMark c1 <;> cases b1 <;> cases b2 <;> cases b4 <;> simp [hc1, hp2]

end Verif.JaTn
