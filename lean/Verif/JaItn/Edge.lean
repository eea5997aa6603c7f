import Verif.JaItn.Tokens
import Verif.JaItn.TextSpec
import Verif.JaItn.PlainProps
import Verif.Wfst.EdgeOf

/-
What the inputs of the Japanese inverse rules look like, in texts without ゼロ and れい: numbers are kept apart from other
characters by changing all their characters to a digit.
-/

namespace Verif.JaItn

open Verif.Wfst

/-- The words for zero. -/
def zeros : List Str := [t!"ゼロ", t!"れい"]

/-- The characters that begin numbers. -/
def heads : Str := t!"〇零一二三四五六七八九两十百千"

/-- The character `0` for those of the list; digits are made something else. -/
def mark (l : Str) (c : Char) : Char := if l.contains c then '0' else if dig c then '#' else c

theorem dig_mark {l : Str} {c : Char} : dig (mark l c) = l.contains c := by
  unfold mark
  split
  · rename_i h; rw [h]; rfl
  · rename_i h
    split
    · simp only [Bool.not_eq_true] at h
      rw [h]; rfl
    · rename_i h'; simp only [Bool.not_eq_true] at h h'
      rw [h, h']

theorem edgeN_pre {h : Bool} {f : Char → Char} {N : List Str} {g : G} (hs : (edgeOf f N g).isSome = true) :
    EdgeN (half h) f N (pre h g) ((edgeOf f N g).getD .nil) :=
  edgeN_under (fun _ _ _ hd => (den_pre.1 hd).2) hs

/-- Puts a summary together. -/
macro "edgesN" : tactic => `(tactic| repeat' first
  | with_reducible assumption | with_reducible apply edgeN_pre | with_reducible exact edgeN_insert
  | with_reducible apply edgeN_addTokens | with_reducible apply edgeN_tagField | with_reducible apply edgeN_ques
  | with_reducible apply edgeN_add | with_reducible apply edgeN_or | decide +kernel)

/-- What can stand before a number in a token. -/
def openS : Sum where
  lead := Spec.openers ++ Sum.pairs ([[], t!"第"] ++ sign.map Prod.fst) (Sum.pairs [[], t!"√", t!"ルート"] ([] :: sign.map Prod.fst))
  free := []
  ld := true
  after := t!"万億兆" ++ Spec.closers

/-- What can stand after a number in a token. -/
def closeS : Sum := { openS with after := Spec.closers }

/-- The summaries for both lists of characters. -/
def tokenS (wide : Bool) : Sum := if wide then closeS else openS
/-- The two lists of characters: those that begin numbers and those of numbers. -/
def chars (wide : Bool) : Str := if wide then Spec.numberChars else heads

theorem edgeN_checked {h : Bool} {f : Char → Char} {N : List Str} {g : G} {t : Sum} (hs : (edgeOf f N g).any (·.le t) = true) :
    EdgeN (half h) f N (pre h g) t := by
  obtain ⟨s, e, hs⟩ := (Option.any_eq_true _ _).1 hs
  refine (edgeN_pre (by rw [e]; rfl)).mono ?_
  rw [e]; exact hs

theorem edge_cardinalRule (b : Bool) (k : Config) :
    EdgeN (half k.fullToHalf) (mark (chars b)) zeros (cardinalRule k).tagger (tokenS b) := by
  have h1 : ∀ b s z m, (edgeOf (mark (chars b)) zeros (cardinalG ⟨false, s, z, m⟩)).any (·.le (tokenS b)) = true := by
    decide +kernel
  exact edgeN_addTokens (edgeN_tagField (edgeN_checked (h1 b k.standalone k.zeroToNine k.million)))

theorem edge_dateRule (b h : Bool) : EdgeN (half h) (mark (chars b)) zeros (dateRule h).tagger (tokenS b) := by
  cases b
  all_goals exact EdgeN.mono (by unfold dateRule year monthG dayG eraYear; edgesN) (by decide +kernel)

theorem edge_mathRule (b : Bool) (k : Config) :
    EdgeN (half k.fullToHalf) (mark (chars b)) zeros (mathRule k).tagger (tokenS b) := by
  have h1 : ∀ b m, (edgeOf (mark (chars b)) zeros
      ((anyInteger m ||| decimal m) + (.tab operator + (anyInteger m ||| decimal m)).plus)).any (·.le (tokenS b)) = true := by
    decide +kernel
  exact edgeN_addTokens (edgeN_tagField (edgeN_checked (h1 b k.million)))

/-- The graph of the measures. -/
def measureG (z m : Bool) : G :=
  let amount := someNumber ⟨false, false, z, m⟩ ||| decimal m
  (amount + .tab unitEn + perUnit.ques) ||| (amount + .wt (.tab unitJa) 100)

theorem measure_eq (k : Config) : measure k = pre k.fullToHalf (measureG k.zeroToNine k.million) := rfl

theorem edge_measureRule (b : Bool) (k : Config) :
    EdgeN (half k.fullToHalf) (mark (chars b)) zeros (measureRule k).tagger (tokenS b) := by
  have h1 : ∀ b z m, (edgeOf (mark (chars b)) zeros (measureG z m)).any (·.le (tokenS b)) = true := by decide +kernel
  refine edgeN_addTokens (edgeN_tagField ?_)
  rw [measure_eq]
  exact edgeN_checked (h1 b k.zeroToNine k.million)

theorem edge_moneyRule (b : Bool) (k : Config) :
    EdgeN (half k.fullToHalf) (mark (chars b)) zeros (moneyRule k).tagger (tokenS b) := by
  have h1 : ∀ b z m, (edgeOf (mark (chars b)) zeros (someNumber ⟨false, false, z, m⟩ ||| decimal m)).any
      (·.le ⟨[] :: sign.map Prod.fst, [], true, if b then t!"点" else t!"点万"⟩) = true := by decide +kernel
  have h2 : ∀ b, (edgeOf (mark (chars b)) zeros (.tab moneySymbol)).any
      (·.le ⟨[], moneySymbol.map Prod.fst, false, []⟩) = true := by decide +kernel
  have h3 : EdgeN (half k.fullToHalf) (mark (chars b)) zeros (amount k) ⟨[] :: sign.map Prod.fst, [], true, if b then t!"点" else t!"点万"⟩ :=
    edgeN_checked (h1 b k.zeroToNine k.million)
  have h4 : EdgeN (half k.fullToHalf) (mark (chars b)) zeros (currency k.fullToHalf) ⟨[], moneySymbol.map Prod.fst, false, []⟩ :=
    edgeN_checked (h2 b)
  refine EdgeN.mono (by unfold moneyRule; edgesN) ?_
  clear h3 h4
  revert b; decide +kernel

theorem edge_ordinalRule (b : Bool) (k : Config) :
    EdgeN (half k.fullToHalf) (mark (chars b)) zeros (ordinalRule k).tagger (tokenS b) := by
  have h1 : ∀ b m, (edgeOf (mark (chars b)) zeros ((number m + .lit t!"番目") ||| (.lit t!"第" + number m))).any
      (·.le (tokenS b)) = true := by decide +kernel
  exact edgeN_addTokens (edgeN_tagField (edgeN_checked (h1 b k.million)))

theorem edge_timeRule (b h : Bool) : EdgeN (half h) (mark (chars b)) zeros (timeRule h).tagger (tokenS b) := by
  cases b
  all_goals exact EdgeN.mono (by unfold timeRule hourG minuteG secondG; edgesN) (by decide +kernel)

theorem edge_whitelistRule (b h : Bool) : EdgeN (half h) (mark (chars b)) zeros (whitelistRule h).tagger (tokenS b) := by
  cases b
  all_goals exact EdgeN.mono (by unfold whitelistRule valueRule; edgesN) (by decide +kernel)

theorem edge_fractionRule (b h : Bool) : EdgeN (half h) (mark (chars b)) zeros (fractionRule h).tagger (tokenS b) := by
  have h1 : EdgeN (half h) (mark (chars b)) zeros
      ((tagField t!"sign" (fractionSign h) + Wfst.insert t!" ").ques + tagField t!"denominator" (denominator h) +
        Wfst.insert t!" ") (tokenS b) := by
    cases b
    all_goals exact EdgeN.mono (by unfold fractionSign denominator; edgesN) (by decide +kernel)
  have h2 : ∀ b, (trailOf (mark (chars b)) zeros (.star (del t!" ") + fractionNumber)).any
      (fun l => l.all ((tokenS b).after.contains ·)) = true := by decide +kernel
  refine edgeN_addTokens ?_
  have key := edgeN_trail (l := (tokenS b).after) (L := (tokenS b).lead) (d := true) (A := (tokenS b).after) (c := half h)
    (N := zeros) (f := mark (chars b)) (b := tagField t!"numerator" (numerator h)) (by cases b <;> exact h1) (fun _ h => h) ?_
  · cases b <;> exact key
  · intro x y w hd hc
    obtain ⟨_, _, z, hd⟩ := den_tagField.1 hd
    obtain ⟨l, e, hl⟩ := (Option.any_eq_true _ _).1 (h2 b)
    refine (trailOf_den e (den_pre.1 hd).2 hc).mono ?_
    intro c hc
    simpa using List.all_eq_true.1 hl c hc

end Verif.JaItn
