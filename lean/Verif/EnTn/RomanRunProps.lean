import Verif.EnTn.RomanProps
import Verif.Wfst.Single

/-
Property C95 for `normalize` of the rule, tn/processor.py:332-338.
-/

namespace Verif.EnTn

open Verif.Wfst
open Spec
open Verif.NBest (Pipeline normalize)
open Verif.Token (Orders RepeatFree chosenFields)
open Verif.Token.Spec (esc write writeAll)

/-- The token of a text. -/
abbrev romanTok (x : Str) : Verif.Token.Spec.Tok := Verif.Wfst.valueTok t!"roman" x

theorem roman_tagger {d : Bool} {N : PersonNames} {x t : Str} {w : W} (h : (romanRule d N).tagger.den x t w) :
    t = write (romanTok x) ++ t!" " ∧ esc x = x := by
  obtain ⟨b, rfl, h3⟩ := den_addTokens.1 h
  obtain ⟨rfl, -, s, h5⟩ := den_tagField.1 h3
  refine ⟨?_, (structured_chars (structured_sound h5)).2⟩
  rw [write_valueTok]
  simp

/-- The token alone is not changed by any order of fields. -/
theorem roman_reorder {orders : Orders} (hrep : RepeatFree orders) (x : Str) :
    Verif.Token.reorder orders (write (romanTok x) ++ t!" ") = .ok (write (romanTok x)) := by
  have hw : Verif.Token.Spec.Writable (romanTok x) := writable_value (by decide)
  have hst : Verif.Token.Spec.Stream (write (romanTok x) ++ t!" ") [romanTok x] := by
    have h1 := Verif.Token.Spec.Fields.field (sp := []) (k := t!"value") (w := esc x) (v := x) (rest := t!" }") (fs := [])
      (by simp [Verif.Token.Spec.Spaces]) (by decide) (Verif.Token.value_esc x) (.close (sp := [' ']) (by simp [Verif.Token.Spec.Spaces]))
    have h2 := Verif.Token.Spec.Stream.block (sp := []) (rest := [' ']) (by simp [Verif.Token.Spec.Spaces])
      (Verif.Token.Spec.Block.mk (n := t!"roman") (by decide) h1) (.done (by simp [Verif.Token.Spec.Spaces]))
    rw [write_valueTok]
    simpa [Verif.Wfst.valueTok] using h2
  obtain ⟨toks, hp, hd⟩ := (Verif.Token.C03_parse_iff_grammar _ _).2 ⟨by simp, hst, by simpa using hw.2.2⟩
  rw [Verif.Token.reorder_denotes hp hd]
  have := List.perm_singleton.1 (Verif.Token.chosenFields_perm hrep hw.2.2)
  show Except.ok (writeAll [⟨t!"roman", chosenFields orders (romanTok x)⟩]) = _
  rw [this]
  simp [writeAll, Verif.Wfst.valueTok]

theorem roman_verb {d : Bool} {N : PersonNames} {x z : Str} {w : W} :
    (romanRule d N).verbalizer.den (write (romanTok x)) z w ↔ (romanRule d N).verbalizer.den (write (romanTok x) ++ t!" ") z w := by
  show (deleteTokens _ _).den _ _ _ ↔ (deleteTokens _ _).den _ _ _
  have e : write (romanTok x) ++ t!" " = t!"roman" ++ t!" { " ++ (t!"value: \"" ++ esc x ++ t!"\"") ++ t!" } " := by
    rw [write_valueTok]; simp
  rw [e, den_tokens]
  refine (delete_write (n := t!"roman") (f := (t!"value", x)) (fs := []) (by decide) (by decide)).trans ?_
  simp [fieldT]

/-- The two steps with the reordering between them. -/
theorem roman_steps {orders : Orders} (hrep : RepeatFree orders) {d : Bool} {N : PersonNames} {x z : Str} :
    (∃ t w r v, (romanRule d N).tagger.den x t w ∧ Verif.Token.reorder orders t = .ok r ∧ (romanRule d N).verbalizer.den r z v) ↔
      SaysRoman d N.list romanKeys x z := by
  rw [← C95_rule]
  constructor
  · rintro ⟨t, w, r, v, h1, h2, h3⟩
    obtain ⟨rfl, -⟩ := roman_tagger h1
    rw [roman_reorder hrep] at h2
    obtain rfl := Except.ok.inj h2
    exact ⟨_, w, v, h1, roman_verb.1 h3⟩
  · rintro ⟨t, w, v, h1, h3⟩
    obtain ⟨rfl, -⟩ := roman_tagger h1
    exact ⟨_, w, _, v, h1, roman_reorder hrep x, roman_verb.2 h3⟩

theorem roman_ok (d : Bool) (N : PersonNames) : (romanRule d N).tagger.ok = true ∧ (romanRule d N).verbalizer.ok = true := by
  cases d <;> exact ⟨rfl, rfl⟩

/-- Something that is said has a cost. -/
theorem cost_of {p : Pipeline W} {orders : Orders} {tg vg : G} (hr : Runs p orders tg vg) (ht : tg.ok = true) (hv : vg.ok = true)
    {x t r y : Str} {w v : W} (h1 : tg.den x t w) (h2 : Verif.Token.reorder orders t = .ok r) (h3 : vg.den r y v) :
    ∃ c, Verif.NBest.Spec.Cost (Verif.NBest.grammar p x) y c := by
  obtain ⟨c, hc⟩ := exists_cost ht h1
  obtain ⟨e, he⟩ := exists_cost hv h3
  obtain ⟨m, hm⟩ := exists_least hv h3
  refine ⟨c + e - m, t, c, r, e, m, (hr.tags _ _ _).2 hc, ?_, (hr.verbs _ _ _).2 he, ?_, rfl⟩
  · show (Verif.Token.reorder p.orders t).toOption = some r
    rw [hr.orders, h2]; rfl
  · have : {u | ∃ z, (p.verbalizer r).best z = some u} = {u | ∃ z, CostOf vg r z u} := by
      ext u
      simp only [Set.mem_setOf_eq, hr.verbs]
    show IsLeast {u | ∃ z, (p.verbalizer r).best z = some u} m
    rw [this]; exact hm

/-- **C95.** `normalize` of the rule: a result exists exactly for the texts of the specification, results are what that
says, and fewer results than were asked for are all of it. -/
theorem C95_normalize (d : Bool) (N : PersonNames) {p : Pipeline W} {orders : Orders}
    (hr : Runs p orders (romanRule d N).tagger (romanRule d N).verbalizer) (hrep : RepeatFree orders) {x : Str} (hx : x ≠ []) :
    (∀ n : Int, 1 ≤ n → ((∃ fuel out, normalize p fuel x (.int n) = some (.ok out)) ↔ ∃ z, SaysRoman d N.list romanKeys x z)) ∧
    ∀ (n : Int) fuel out, normalize p fuel x (.int n) = some (.ok out) →
      (∀ z ∈ out.toList, SaysRoman d N.list romanKeys x z) ∧
      ((out.toList.length : Int) < n → ∀ z, SaysRoman d N.list romanKeys x z → z ∈ out.toList) := by
  obtain ⟨ht, hv⟩ := roman_ok d N
  have hall : ∀ (n : Int) fuel out, normalize p fuel x (.int n) = some (.ok out) →
      ∀ z ∈ out.toList, SaysRoman d N.list romanKeys x z := by
    intro n fuel out h z hz
    obtain ⟨-, -, -, hcost, -⟩ := Verif.NBest.C25_distinct p fuel x n out hx h
    obtain ⟨w, t, tw, r, v, m, a1, a2, a3, -, -⟩ := hcost z hz
    have a2' : (Verif.Token.reorder p.orders t).toOption = some r := a2
    rw [hr.orders] at a2'
    have b2 : Verif.Token.reorder orders t = .ok r := by
      cases e : Verif.Token.reorder orders t with
      | ok r' => rw [e] at a2'; cases a2'; rfl
      | error e' => rw [e] at a2'; cases a2'
    exact (roman_steps hrep).1 ⟨t, tw, r, v, ((hr.tags _ _ _).1 a1).1, b2, ((hr.verbs _ _ _).1 a3).1⟩
  refine ⟨fun n hn => ⟨?_, ?_⟩, fun n fuel out h => ⟨hall n fuel out h, ?_⟩⟩
  · rintro ⟨fuel, out, h⟩
    obtain ⟨z, hz⟩ := List.exists_mem_of_ne_nil _ (Verif.NBest.C25_distinct p fuel x n out hx h).1
    exact ⟨z, hall n fuel out h z hz⟩
  · rintro ⟨z, hz⟩
    obtain ⟨t, w, r, v, h1, h2, h3⟩ := (roman_steps hrep).2 hz
    refine normalize_succeeds hr ht hv hx (fun t' w' h => ?_) h1 h2 h3 n hn
    obtain ⟨rfl, -⟩ := roman_tagger h
    exact ⟨_, roman_reorder hrep x⟩
  · intro hlt z hz
    obtain ⟨t, w, r, v, h1, h2, h3⟩ := (roman_steps hrep).2 hz
    obtain ⟨c, hc⟩ := cost_of hr ht hv h1 h2 h3
    exact (Verif.NBest.C25_distinct p fuel x n out hx h).2.2.2.2 hlt z c hc

/-- A pipeline of the rule exists, and it answers `Louis XIV`. -/
example : ∃ (p : Pipeline W) (fuel : Nat) (out : _), normalize p fuel t!"Louis XIV" (.int 1) = some (.ok out) ∧
    ∀ z ∈ out.toList, SaysRoman true someNames.list romanKeys t!"Louis XIV" z := by
  have hok := roman_ok true someNames
  have hr := runs_pipelineOf (orders := tokenOrders) hok.1 hok.2
  have h := C95_normalize true someNames hr (Verif.Token.builtin_repeatFree _ (by decide)) (x := t!"Louis XIV") (by decide)
  obtain ⟨fuel, out, ho⟩ := (h.1 1 (by decide)).2 ⟨t!"Louis the fourteenth",
    SaysRoman.nameThe (n := 14) (a := t!"Louis") (by decide) (by decide) (by decide)⟩
  exact ⟨_, fuel, out, ho, (h.2 1 fuel out ho).1⟩

end Verif.EnTn
