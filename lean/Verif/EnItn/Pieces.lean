import Verif.EnItn.Tokens
import Verif.EnItn.PieceSpec

/-
The texts that have a tagging are the readable ones, and the tagging of a readable text by words and
characters can be verbalized.
-/

namespace Verif.EnItn

open Verif.Wfst
open Verif.Token.Spec (esc write writeAll Tok Writable IsName Distinct)
open Spec (White Mark Wordy Piece Pieces Readable)

theorem space_iff {c : Char} : isSpace c = true ↔ White c := by
  constructor
  · intro h
    simp only [isSpace, Bool.or_eq_true, Bool.and_eq_true, decide_eq_true_eq] at h
    rcases h with (rfl | ⟨h1, h2⟩) | rfl
    · decide
    · have h1 : 9 ≤ c.toNat := h1
      have h2 : c.toNat ≤ 13 := h2
      have : c.toNat = 9 ∨ c.toNat = 10 ∨ c.toNat = 11 ∨ c.toNat = 12 ∨ c.toNat = 13 := by omega
      have key : ∀ d : Char, c.toNat = d.toNat → c = d := fun d h => Char.toNat_inj.1 h
      rcases this with h | h | h | h | h
      · rw [key '\t' h]; decide
      · rw [key '\n' h]; decide
      · rw [key '\x0b' h]; decide
      · rw [key '\x0c' h]; decide
      · rw [key '\r' h]; decide
    · decide
  · intro h
    have : [' ', '\t', '\n', '\x0b', '\x0c', '\r', '\u00a0'].all isSpace = true := by decide
    exact List.all_eq_true.1 this c h

theorem wordy_iff {c : Char} : wordChar c = true ↔ Wordy c := by
  unfold Wordy
  rw [← space_iff]
  simp [wordChar, notSpace, vchar, and_assoc]

theorem mark_iff {c : Char} : puncts.contains c = true ↔ Mark c := by
  have e : "!#$%&'()*+,-./:;<=>?@^_`{|}~".toList = puncts := rfl
  unfold Mark
  rw [e]
  simp

theorem mark_wordy {c : Char} (h : Mark c) : Wordy c := wordy_iff.1 (punct_word (mark_iff.2 h))

theorem vchar_iff {c : Char} : vchar c = true ↔ c ≠ '\x00' := by simp [vchar]

/-! ### Joining pieces -/

theorem Spec.Piece.cons {p : Char} (hp : Mark p) {s : Str} (h : Piece s) : Piece (p :: s) := by
  cases h with
  | word hne hall =>
    refine .word (by simp) ?_
    intro c hc
    rcases List.mem_cons.1 hc with rfl | hc
    · exact mark_wordy hp
    · exact hall c hc
  | char ha hc hb =>
    rw [← List.cons_append]
    refine .char ?_ hc hb
    intro d hd
    rcases List.mem_cons.1 hd with rfl | hd
    · exact hp
    · exact ha d hd

theorem Spec.Piece.snoc {p : Char} (hp : Mark p) {s : Str} (h : Piece s) : Piece (s ++ [p]) := by
  cases h with
  | word hne hall =>
    refine .word (by simp) ?_
    intro c hc
    rcases List.mem_append.1 hc with hc | hc
    · exact hall c hc
    · rw [List.mem_singleton.1 hc]; exact mark_wordy hp
  | char ha hc hb =>
    rw [List.append_assoc, List.cons_append]
    refine .char ha hc ?_
    intro d hd
    rcases List.mem_append.1 hd with hd | hd
    · exact hb d hd
    · rw [List.mem_singleton.1 hd]; exact hp

theorem piece_char {c : Char} (hc : c ≠ '\x00') : Piece [c] :=
  .char (a := []) (b := []) (by simp) hc (by simp)

theorem piece_mark {p : Char} (hp : Mark p) : Piece [p] := piece_char (mark_wordy hp).1

theorem white_space : White ' ' := by decide

theorem Spec.Pieces.cons {p : Char} (hp : Mark p) {x : Str} (h : Pieces x) : Pieces (p :: x) := by
  cases h with
  | one h => exact .one (h.cons hp)
  | more h hs hw hx => rw [← List.cons_append]; exact .more (h.cons hp) hs hw hx

theorem Spec.Pieces.consSpace {p : Char} (hp : Mark p) {x : Str} (h : Pieces x) : Pieces (p :: ' ' :: x) :=
  .more (p := [p]) (s := [' ']) (piece_mark hp) (by simp) (by simp [white_space]) h

theorem Spec.Pieces.snoc {p : Char} (hp : Mark p) {x : Str} (h : Pieces x) : Pieces (x ++ [p]) := by
  induction h with
  | one h => exact .one (h.snoc hp)
  | more h hs hw _ ih => rw [List.append_assoc, List.append_assoc]; exact .more h hs hw ih

theorem Spec.Pieces.snocSpace {p : Char} (hp : Mark p) {x : Str} (h : Pieces x) : Pieces (x ++ [' ', p]) := by
  induction h with
  | one h =>
    exact .more (s := [' ']) h (by simp) (by simp [white_space]) (.one (piece_mark hp))
  | more h hs hw _ ih => rw [List.append_assoc, List.append_assoc]; exact .more h hs hw ih

theorem Spec.Readable.of_pieces {x : Str} (h : Pieces x) : Readable x :=
  ⟨[], x, [], by simp, by simp, by simp, h⟩

theorem Spec.Pieces.join {x s y : Str} (hx : Pieces x) (hs : s ≠ []) (hw : ∀ c ∈ s, White c) (hy : Pieces y) :
    Pieces (x ++ (s ++ y)) := by
  induction hx with
  | one h => exact .more h hs hw hy
  | more h hs' hw' _ ih => rw [List.append_assoc, List.append_assoc]; exact .more h hs' hw' ih

theorem Spec.Readable.join {x s y : Str} (hx : Readable x) (hs : s ≠ []) (hw : ∀ c ∈ s, White c)
    (hy : Readable y) : Readable (x ++ (s ++ y)) := by
  obtain ⟨a, x', b, rfl, ha, hb, hx⟩ := hx
  obtain ⟨a', y', b', rfl, ha', hb', hy⟩ := hy
  refine ⟨a, x' ++ ((b ++ s ++ a') ++ y'), b', by simp, ha, hb', hx.join (by simp [hs]) ?_ hy⟩
  intro c hc
  simp only [List.mem_append] at hc
  rcases hc with (hc | hc) | hc
  · rw [hb c hc]; exact white_space
  · exact hw c hc
  · rw [ha' c hc]; exact white_space

theorem Spec.Readable.pad {x a b : Str} (h : Readable x) (ha : ∀ c ∈ a, c = ' ') (hb : ∀ c ∈ b, c = ' ') :
    Readable (a ++ (x ++ b)) := by
  obtain ⟨a', x', b', rfl, ha', hb', hx⟩ := h
  refine ⟨a ++ a', x', b' ++ b, by simp, ?_, ?_, hx⟩
  · intro c hc
    rcases List.mem_append.1 hc with hc | hc
    · exact ha c hc
    · exact ha' c hc
  · intro c hc
    rcases List.mem_append.1 hc with hc | hc
    · exact hb' c hc
    · exact hb c hc

/-- Words separated by spaces. -/
inductive Words : Str → Prop
  | one {s} : s ≠ [] → (∀ c ∈ s, Wordy c) → Words s
  | more {s t x} : s ≠ [] → (∀ c ∈ s, Wordy c) → t ≠ [] → (∀ c ∈ t, c = ' ') → Words x → Words (s ++ (t ++ x))

theorem Words.pieces {x : Str} (h : Words x) : Pieces x := by
  induction h with
  | one h1 h2 => exact .one (.word h1 h2)
  | more h1 h2 h3 h4 _ ih => exact .more (.word h1 h2) h3 (fun c hc => by rw [h4 c hc]; exact white_space) ih

theorem Words.cons {c : Char} (hc : Wordy c) {x : Str} (h : Words x) : Words (c :: x) := by
  have key : ∀ s : Str, (∀ d ∈ s, Wordy d) → ∀ d ∈ c :: s, Wordy d := by
    intro s hs d hd
    rcases List.mem_cons.1 hd with rfl | hd
    · exact hc
    · exact hs d hd
  cases h with
  | one h1 h2 => exact .one (by simp) (key _ h2)
  | more h1 h2 h3 h4 h5 => rw [← List.cons_append]; exact .more (by simp) (key _ h2) h3 h4 h5

/-- A text of words and spaces is readable. -/
theorem readable_words {x : Str} (hne : x ≠ []) (h : ∀ c ∈ x, Wordy c ∨ c = ' ') : Readable x := by
  have key : (∀ c ∈ x, c = ' ') ∨ ∃ a y b, x = a ++ (y ++ b) ∧ (∀ c ∈ a, c = ' ') ∧ (∀ c ∈ b, c = ' ') ∧
      Words y := by
    clear hne
    induction x with
    | nil => exact .inl (by simp)
    | cons c x ih =>
      rcases h c (by simp) with hc | rfl
      · right
        have hone : ∀ d ∈ [c], Wordy d := by simpa using hc
        rcases ih fun d hd => h d (by simp [hd]) with hsp | ⟨a, y, b, rfl, ha, hb, hy⟩
        · exact ⟨[], [c], x, rfl, by simp, hsp, .one (by simp) hone⟩
        · cases a with
          | nil => exact ⟨[], c :: y, b, rfl, by simp, hb, hy.cons hc⟩
          | cons d a => exact ⟨[], [c] ++ (d :: a ++ y), b, by simp, by simp, hb, .more (by simp) hone (by simp) ha hy⟩
      · rcases ih fun d hd => h d (by simp [hd]) with hsp | ⟨a, y, b, rfl, ha, hb, hy⟩
        · left; simpa using hsp
        · exact .inr ⟨' ' :: a, y, b, rfl, by simpa using ha, hb, hy⟩
  rcases key with hsp | ⟨a, y, b, rfl, ha, hb, hy⟩
  · cases x with
    | nil => exact absurd rfl hne
    | cons c x =>
      refine ⟨[], [c], x, rfl, by simp, fun d hd => hsp d (by simp [hd]), .one (piece_char ?_)⟩
      rw [hsp c (by simp)]; decide
  · exact ⟨a, y, b, rfl, ha, hb, hy.pieces⟩

/-! ### What the rules read -/

/-- The characters that no rule but `char` reads. -/
def strange : List Char := ['\x00', '"', '\\', '\t', '\n', '\x0b', '\x0c', '\r', '\u00a0']

theorem plain_of_not_strange {c : Char} (h : c ∉ strange) : Wordy c ∨ c = ' ' := by
  by_cases hs : c = ' '
  · exact .inr hs
  · left
    simp only [strange, List.mem_cons, List.not_mem_nil, or_false, not_or] at h
    refine ⟨h.1, ?_, h.2.1, h.2.2.1⟩
    unfold White
    simp [hs, h]

/-- Rules other than `char`. -/
def textRules : List RuleSpec :=
  [⟨dateRule, some 109000, true⟩, ⟨timeRule, some 110000, true⟩, ⟨measureRule, some 110000, true⟩,
   ⟨moneyRule, some 108000, true⟩, ⟨whitelistRule, some 101000, true⟩, ⟨telephoneRule, some 110000, true⟩,
   ⟨electronicRule, some 110000, true⟩, ⟨ordinalRule, some 109000, true⟩, ⟨decimalRule, some 110000, true⟩,
   ⟨cardinalRule, some 110000, true⟩, ⟨wordRule, some 5000000, true⟩]

theorem textRules_avoid : (textRules.all fun s => strange.all fun c => avoids c s.rule.tagger) = true := by
  decide +kernel

theorem textRules_read : (textRules.all fun s => !s.rule.tagger.nullable) = true := by
  decide +kernel

theorem rules_eq : rules = textRules ++ [⟨charRule, some 10000000, true⟩] := rfl

/-- What one rule reads. -/
theorem classify_reads {x t : Str} {w : W} (h : classify.den x t w) :
    (∃ c, vchar c = true ∧ x = [c]) ∨ (x ≠ [] ∧ ∀ c ∈ x, Wordy c ∨ c = ' ') := by
  obtain ⟨s, hmem, k, w₀, hk, h0, _⟩ := ((tagger_union rules).2 classify taggerUnion_eq x t w).1 h
  rw [rules_eq] at hmem
  rcases List.mem_append.1 hmem with hmem | hmem
  · right
    refine ⟨?_, ?_⟩
    · rintro rfl
      have := List.all_eq_true.1 textRules_read s hmem
      rw [nullable_of_den h0] at this
      cases this
    · intro c hc
      apply plain_of_not_strange
      intro hst
      have := List.all_eq_true.1 (List.all_eq_true.1 textRules_avoid s hmem) c hst
      exact avoids_den this h0 hc
  · left
    rw [List.mem_singleton.1 hmem] at h0
    obtain ⟨m, rfl, hm⟩ := den_addTokens.1 h0
    obtain ⟨m', rfl, hm'⟩ := den_add_insert.1 hm
    obtain ⟨m'', rfl, hC⟩ := den_insert_add.1 hm'
    rcases hC with (⟨c, hc, rfl, _⟩ | hC) | hC
    · exact ⟨c, (plainChar_iff.1 hc).1, rfl⟩
    · exact ⟨'\\', by decide, (den_crossS.1 hC).1⟩
    · exact ⟨'"', by decide, (den_crossS.1 hC).1⟩

theorem punct_reads {x t : Str} {w : W} (h : (G.wt punctuationRule.tagger 110000).den x t w) :
    ∃ c, Mark c ∧ x = [c] := by
  obtain ⟨w₀, h0, _⟩ := h
  obtain ⟨m, rfl, hm⟩ := den_addTokens.1 h0
  obtain ⟨m', rfl, hm'⟩ := den_add_insert.1 hm
  obtain ⟨m'', rfl, ⟨c, hc, rfl, _⟩⟩ := den_insert_add.1 hm'
  exact ⟨c, mark_iff.1 hc, rfl⟩

theorem ds_reads {x t : Str} {w : W} (h : (del t!" ").ques.den x t w) : x = [] ∨ x = [' '] := by
  rcases h with ⟨rfl, _⟩ | h
  · exact .inl rfl
  · exact .inr (den_del.1 h).1

theorem left_reads {x t : Str} {w : W}
    (h : Star (G.wt punctuationRule.tagger 110000 + (del t!" ").ques).den x t w) :
    (∀ y, Pieces y → Pieces (x ++ y)) ∧ ∀ c ∈ x, Wordy c ∨ c = ' ' := by
  induction h with
  | nil => simp
  | cons h1 _ ih =>
    obtain ⟨x₁, y₁, w₁, x₂, y₂, w₂, h1, h2, rfl, rfl, rfl⟩ := h1
    obtain ⟨c, hc, rfl⟩ := punct_reads h1
    rcases ds_reads h2 with rfl | rfl
    · refine ⟨fun y hy => by simpa using (ih.1 y hy).cons hc, ?_⟩
      intro d hd
      rcases List.mem_cons.1 hd with rfl | hd
      · exact .inl (mark_wordy hc)
      · exact ih.2 d hd
    · refine ⟨fun y hy => by simpa using (ih.1 y hy).consSpace hc, ?_⟩
      intro d hd
      rcases List.mem_cons.1 hd with rfl | hd
      · exact .inl (mark_wordy hc)
      · rcases List.mem_cons.1 hd with rfl | hd
        · exact .inr rfl
        · exact ih.2 d hd

theorem right_reads {x t : Str} {w : W}
    (h : Star ((del t!" ").ques + G.wt punctuationRule.tagger 110000).den x t w) :
    (∀ y, Pieces y → Pieces (y ++ x)) ∧ ∀ c ∈ x, Wordy c ∨ c = ' ' := by
  induction h with
  | nil => simp
  | cons h1 _ ih =>
    obtain ⟨x₁, y₁, w₁, x₂, y₂, w₂, h1, h2, rfl, rfl, rfl⟩ := h1
    obtain ⟨c, hc, rfl⟩ := punct_reads h2
    rcases ds_reads h1 with rfl | rfl
    · refine ⟨fun y hy => by simpa using ih.1 _ (hy.snoc hc), ?_⟩
      intro d hd
      rcases List.mem_cons.1 hd with rfl | hd
      · exact .inl (mark_wordy hc)
      · exact ih.2 d hd
    · refine ⟨fun y hy => by simpa using ih.1 _ (hy.snocSpace hc), ?_⟩
      intro d hd
      rcases List.mem_cons.1 hd with rfl | hd
      · exact .inr rfl
      · rcases List.mem_cons.1 hd with rfl | hd
        · exact .inl (mark_wordy hc)
        · exact ih.2 d hd

theorem token_reads {x t : Str} {w : W} (h : (token classify).den x t w) : Readable x := by
  obtain ⟨_, _, _, x₃, _, _, ⟨x₁, _, _, x₂, _, _, h1, h2, rfl, _, _⟩, h3, rfl, _, _⟩ := h
  obtain ⟨l1, l2⟩ := left_reads h1
  obtain ⟨r1, r2⟩ := right_reads h3
  rcases classify_reads h2 with ⟨c, hc, rfl⟩ | ⟨hne, hall⟩
  · exact .of_pieces (r1 _ (l1 _ (.one (piece_char (vchar_iff.1 hc)))))
  · refine readable_words (by simp [hne]) ?_
    intro c hc
    simp only [List.mem_append] at hc
    rcases hc with (hc | hc) | hc
    · exact l2 c hc
    · exact hall c hc
    · exact r2 c hc

theorem tokens_read {x t : Str} {w : W} (h : Star (DELETE_EXTRA_SPACE + token classify).den x t w) :
    ∀ y, Readable y → Readable (y ++ x) := by
  induction h with
  | nil => intro y hy; simpa using hy
  | cons h1 _ ih =>
    intro y hy
    obtain ⟨x₁, _, _, x₂, _, _, h1, h2, rfl, _, _⟩ := h1
    obtain ⟨_, hne, hw, _⟩ := den_extraSpace.1 h1
    have := hy.join hne (fun c hc => space_iff.1 (hw c hc)) (token_reads h2)
    simpa using ih _ this

theorem star_ds {x t : Str} {w : W} (h : Star (del t!" ").den x t w) : ∀ c ∈ x, c = ' ' := by
  induction h with
  | nil => simp
  | cons h1 _ ih =>
    obtain ⟨rfl, _⟩ := den_del.1 h1
    simpa using ih

/-- Every text with a tagging is readable. -/
theorem tagger_reads {x t : Str} {w : W} (h : (taggerOf classify).den x t w) : Readable x := by
  obtain ⟨_, _, _, x₄, _, _, ⟨x₁, _, _, _, _, _, h1, ⟨x₂, _, _, x₃, _, _, h2, h3, rfl, _, _⟩, rfl, _, _⟩, h4,
    rfl, _, _⟩ := h
  have := (tokens_read h3 _ (token_reads h2)).pad (star_ds h1) (star_ds h4)
  simpa using this

end Verif.EnItn
