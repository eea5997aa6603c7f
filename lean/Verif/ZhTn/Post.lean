import Verif.ZhTn.Model
import Verif.Wfst.Maps

/-
The postprocessor works character by character.
-/

namespace Verif.ZhTn

open Verif.Wfst

theorem t2s_nodup : (traditionalToSimple.map fun e => e.1.toNat).Nodup :=
  (nodup_of_distinct (m := 0) (by decide +kernel)).1

theorem f2h_nodup : (fullToHalf.map fun e => e.1.toNat).Nodup :=
  (nodup_of_distinct (m := 0) (by decide +kernel)).1

theorem t2s_vchar : traditionalToSimple.all (fun e => vchar e.2) = true := by decide +kernel
theorem f2h_vchar : fullToHalf.all (fun e => vchar e.2) = true := by decide +kernel

/-- The interjections. -/
def isInterjection (c : Char) : Bool := c == '呃' || c == '啊'

theorem den_interjection (u v w) : (delete (.tab blacklist)).den u v w ↔
    ∃ c, isInterjection c = true ∧ u = [c] ∧ v = [] ∧ w = 0 := by
  rw [den_delete, den_tab]
  constructor
  · rintro ⟨rfl, h, rfl⟩
    simp only [blacklist, List.mem_cons, Prod.mk.injEq, List.not_mem_nil, or_false] at h
    rcases h with ⟨rfl, _⟩ | ⟨rfl, _⟩
    · exact ⟨_, by decide, rfl, rfl, rfl⟩
    · exact ⟨_, by decide, rfl, rfl, rfl⟩
  · rintro ⟨c, hc, rfl, rfl, rfl⟩
    simp only [isInterjection, Bool.or_eq_true, beq_iff_eq] at hc
    rcases hc with rfl | rfl <;> exact ⟨rfl, by decide, rfl⟩

/-- The punctuation marks that are removed. -/
def isMark (c : Char) : Bool := punctsZh.contains c || isPunct c

theorem den_mark (u v w) : (delete (.cls fun c => punctsZh.contains c || isPunct c)).den u v w ↔
    ∃ c, isMark c = true ∧ u = [c] ∧ v = [] ∧ w = 0 := by
  rw [den_delete, den_cls]
  constructor
  · rintro ⟨rfl, c, hc, rfl, _, rfl⟩; exact ⟨c, hc, rfl, rfl, rfl⟩
  · rintro ⟨c, hc, rfl, rfl, rfl⟩; exact ⟨rfl, c, hc, rfl, rfl, rfl⟩

/-! ### Characters outside the character set -/

theorem maps_oov : Maps oovTagger (fun c => if vchar c && !inCharset c then t!"<oov>" ++ c :: t!"</oov>" else [c]) := by
  have hg : ∀ u v w, (Wfst.insert t!"<oov>" + G.cls (fun c => vchar c && !inCharset c) +
      Wfst.insert t!"</oov>").den u v w ↔
      ∃ c, (vchar c && !inCharset c) = true ∧ u = [c] ∧ v = t!"<oov>" ++ c :: t!"</oov>" ∧ w = 0 := by
    intro u v w
    rw [den_add_insert]
    constructor
    · rintro ⟨y, rfl, h⟩
      obtain ⟨y', rfl, h'⟩ := den_insert_add.1 h
      obtain ⟨c, hc, rfl, rfl, rfl⟩ := den_cls.1 h'
      exact ⟨c, hc, rfl, rfl, rfl⟩
    · rintro ⟨c, hc, rfl, rfl, rfl⟩
      exact ⟨t!"<oov>" ++ [c], rfl, den_insert_add.2 ⟨[c], rfl, den_cls.2 ⟨c, hc, rfl, rfl, rfl⟩⟩⟩
  refine maps_rule ?_ ?_
  · intro u v w hd
    obtain ⟨c, hp, rfl, rfl, rfl⟩ := (hg _ _ _).1 hd
    exact ⟨c, rfl, by rw [if_pos hp], rfl⟩
  · intro c hc
    have : ¬(vchar c && !inCharset c) = true := fun hp => hc ⟨_, 0, (hg _ _ _).2 ⟨c, hp, rfl, rfl, rfl⟩⟩
    rw [if_neg this]

/-! ### The postprocessor -/

/-- What the options make of one character: it is simplified, then dropped if it is an interjection or
a punctuation mark, then made half-width, then marked if it is outside the character set. -/
def post (k : Config) (c : Char) : Str :=
  let c := if k.traditionalToSimple then (traditionalToSimple.lookup c).getD c else c
  if k.removeInterjections && isInterjection c then []
  else if k.removePuncts && isMark c then []
  else
    let c := if k.fullToHalf then (fullToHalf.lookup c).getD c else c
    if k.tagOov && !inCharset c then t!"<oov>" ++ c :: t!"</oov>" else [c]

theorem maps_postprocessor (k : Config) : ∀ x y w, (postprocessor k).den x y w ↔
    VText x ∧ y = x.flatMap (post k) ∧ w = 0 := by
  have h0 := maps_id
  have h1 := h0.whenDo (maps_table t2s_nodup) vtext_single k.traditionalToSimple
  have v1 := vtext_when vtext_single (fun c hc => table_vchar t2s_vchar hc) k.traditionalToSimple
  have h2 := h1.whenDo (maps_delete den_interjection) v1 k.removeInterjections
  have v2 := vtext_when v1 (vtext_delete (p := isInterjection)) k.removeInterjections
  have h3 := h2.whenDo (maps_delete den_mark) v2 k.removePuncts
  have v3 := vtext_when v2 (vtext_delete (p := isMark)) k.removePuncts
  have h4 := h3.whenDo (maps_table f2h_nodup) v3 k.fullToHalf
  have v4 := vtext_when v3 (fun c hc => table_vchar f2h_vchar hc) k.fullToHalf
  have h5 := h4.whenDo maps_oov v4 k.tagOov
  refine h5.congr fun c hc => ?_
  unfold post
  have e1 : (if k.traditionalToSimple = true then
      List.flatMap (fun c => [(List.lookup c traditionalToSimple).getD c]) [c] else [c]) =
      [if k.traditionalToSimple then (traditionalToSimple.lookup c).getD c else c] := by
    split <;> simp
  have hc1 := v1 c hc
  rw [e1] at hc1 ⊢
  dsimp only
  generalize (if k.traditionalToSimple then (traditionalToSimple.lookup c).getD c else c) = c1 at hc1 ⊢
  have hc1 := hc1 c1 (by simp)
  have hc2 := table_vchar f2h_vchar hc1 _ (List.mem_singleton.2 rfl)
  generalize k.removeInterjections = b1
  generalize k.removePuncts = b2
  generalize k.fullToHalf = b3
  generalize k.tagOov = b4
  clear h0 h1 h2 h3 h4 h5 v1 v2 v3 v4 e1
  cases hp1 : isInterjection c1 <;> cases hp2 : isMark c1 <;>
    cases b1 <;> cases b2 <;> cases b3 <;> cases b4 <;> simp [hc1, hc2, hp1, hp2]

end Verif.ZhTn
