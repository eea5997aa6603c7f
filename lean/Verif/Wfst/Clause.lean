import Verif.Wfst.Local
import Verif.Wfst.Shun

/-
Clause marks: characters that only the fallback rule reads. A text is normalized clause by clause.
-/

namespace Verif.Wfst

open Verif.Token (Orders chosenFields)
open Verif.Token.Spec (write writeAll Tok Writable)
open Verif.NBest (Pipeline normalize)
open Verif.NBest.Spec (Cost)

/-- What a grammar that reads characters one by one with its fallback says for a text: nothing for the empty
text, else a best result. -/
def Says (p : Pipeline W) (x z : Str) : Prop := x = [] ∧ z = [] ∨ x ≠ [] ∧ Winner p x z

theorem says_cons {p : Pipeline W} {x z : Str} (h : x ≠ []) : Says p x z ↔ Winner p x z := by simp [Says, h]

/-- Only single characters are read with a mark in them. -/
def Marked (tu : G) (q : Str) : Prop := ∀ u t w, tu.den u t w → (∃ c ∈ u, c ∈ q) →
  ∃ c, u = [c] ∧ t = write (charTok c) ++ [' ']

theorem noCross_before {tu : G} {q x y : Str} {c : Char} (hm : Marked tu q) (hc : c ∈ q) : NoCross tu x (c :: y) := by
  intro a s u v _ hs e t w hd
  by_contra hl
  have hlt : s.length < u.length := Nat.lt_of_not_le hl
  obtain ⟨r, rfl, hr⟩ : ∃ r, u = s ++ r ∧ r ++ v = c :: y := by
    rcases List.append_eq_append_iff.1 e with ⟨a, h1, h2⟩ | ⟨a, h1, h2⟩
    · rw [h1, List.length_append] at hlt; omega
    · exact ⟨a, h1, h2.symm⟩
  cases r with
  | nil => simp at hlt
  | cons d r =>
    obtain ⟨rfl, _⟩ := List.cons.inj hr
    obtain ⟨b, hb, _⟩ := hm _ t w hd ⟨d, by simp, hc⟩
    have := congrArg List.length hb
    cases s with
    | nil => exact hs rfl
    | cons _ s => simp at this

theorem noCross_after {tu : G} {q y : Str} {c : Char} (hm : Marked tu q) (hc : c ∈ q) : NoCross tu [c] y := by
  intro a s u v he hs e t w hd
  have hsc : s = [c] := by
    cases a with
    | nil => simpa using he.symm
    | cons d a =>
      have := congrArg List.length he
      cases s with
      | nil => exact absurd rfl hs
      | cons => simp at this
  subst hsc
  cases u with
  | nil => simp
  | cons d u =>
    obtain ⟨rfl, _⟩ := List.cons.inj e
    obtain ⟨b, hb, _⟩ := hm _ t w hd ⟨d, by simp, hc⟩
    rw [hb]; simp

section
variable {p : Pipeline W} {orders : Orders} {tu vu : G} {f : Char → Str}

/-- A text that only the fallback reads has one result. -/
theorem winner_plain (hp : Piped p orders tu vu) (hf : Fallback orders tu vu) (ho : OnlyChar vu f) {x : Str} (hx : VText x)
    (hne : x ≠ []) (h : ∀ u, u <:+: x → ∀ t w, tu.den u t w → ∃ c, u = [c] ∧ t = write (charTok c) ++ [' ']) {z : Str} :
    Winner p x z ↔ z = x.flatMap f := by
  obtain ⟨fuel, out, h1, h2⟩ := plain_normalize hp.runs hp.tagOk hp.verbOk hf ho hx hne h 1 (by decide)
  obtain ⟨z', h3, h4⟩ := first_winner hne h1
  have e : z' = x.flatMap f := by rw [h2] at h3; exact (Option.some.inj h3).symm
  subst e
  refine ⟨?_, fun e => e ▸ h4⟩
  rintro ⟨c, hc, _⟩
  obtain ⟨t, tw, r, v, m, g1, g2, g3, _⟩ := hc
  have g1 := ((hp.runs.tags _ _ _).1 g1).1
  have g3 := ((hp.runs.verbs _ _ _).1 g3).1
  obtain rfl := plain_stream hne h g1
  have g2' : (Verif.Token.reorder p.orders (writeAll (x.map charTok))).toOption = some r := g2
  rw [hp.runs.orders, (char_by_char hf hx hne).2.1] at g2'
  cases g2'
  exact plain_verb_star ho x _ _ g3

/-- **Clause by clause.** -/
theorem says_mark (hp : Piped p orders tu vu) (hf : Fallback orders tu vu) (ho : OnlyChar vu f) {q : Str}
    (hm : Marked tu q) {c : Char} (hc : c ∈ q) (hv : vchar c = true) {x y z : Str} :
    Says p (x ++ c :: y) z ↔ ∃ z₁ z₂, Says p x z₁ ∧ Says p y z₂ ∧ z = z₁ ++ f c ++ z₂ := by
  have one : ∀ z, Winner p [c] z ↔ z = f c := by
    intro z
    rw [winner_plain hp hf ho (by intro d hd; rw [List.mem_singleton.1 hd]; exact hv) (by simp)]
    · simp
    · intro u hu t w hd
      by_cases hn : u = []
      · subst hn
        have h1 := hp.tagOk
        simp only [stream, G.ok, Bool.and_eq_true, nullable_of_den hd] at h1
        simp at h1
      · refine hm u t w hd ⟨c, ?_, hc⟩
        obtain ⟨d, hd'⟩ := List.exists_mem_of_ne_nil u hn
        have := List.mem_singleton.1 (hu.subset hd')
        rwa [this] at hd'
  have rest : ∀ z, Winner p (c :: y) z ↔ ∃ z₂, Says p y z₂ ∧ z = f c ++ z₂ := by
    intro z
    by_cases hy : y = []
    · subst hy
      rw [one]
      simp [Says]
    · rw [show c :: y = [c] ++ y from rfl, winner_append hp (by simp) hy (noCross_after hm hc)]
      simp only [one, says_cons hy]
      constructor
      · rintro ⟨_, z₂, rfl, h, rfl⟩; exact ⟨z₂, h, rfl⟩
      · rintro ⟨z₂, h, rfl⟩; exact ⟨_, z₂, rfl, h, rfl⟩
  rw [says_cons (by simp)]
  by_cases hx : x = []
  · subst hx
    rw [List.nil_append, rest]
    simp [Says]
  · rw [winner_append hp hx (by simp) (noCross_before hm hc)]
    simp only [rest, says_cons hx]
    constructor
    · rintro ⟨z₁, _, h, ⟨z₂, h', rfl⟩, rfl⟩; exact ⟨z₁, z₂, h, h', by simp⟩
    · rintro ⟨z₁, z₂, h, h', rfl⟩; exact ⟨z₁, _, h, ⟨z₂, h', rfl⟩, by simp⟩

/-- A text of many clauses. -/
theorem says_clauses (hp : Piped p orders tu vu) (hf : Fallback orders tu vu) (ho : OnlyChar vu f) {q : Str}
    (hm : Marked tu q) (hq : ∀ c ∈ q, vchar c = true) {x : Str} {l : List (Char × Str)} (hl : ∀ e ∈ l, e.1 ∈ q) {z : Str} :
    Says p (x ++ l.flatMap fun e => e.1 :: e.2) z ↔ ∃ z₀ zs, Says p x z₀ ∧
      List.Forall₂ (fun e y => Says p e.2 y) l zs ∧ z = z₀ ++ (List.zipWith (fun e y => f e.1 ++ y) l zs).flatten := by
  induction l generalizing x z with
  | nil =>
    constructor
    · intro h; exact ⟨z, [], by simpa using h, .nil, by simp⟩
    · rintro ⟨z₀, zs, h, h', rfl⟩; cases h'; simpa using h
  | cons e l ih =>
    have he := hl e (by simp)
    rw [List.flatMap_cons, List.cons_append, says_mark hp hf ho hm he (hq _ he)]
    simp only [ih fun e he => hl e (by simp [he])]
    constructor
    · rintro ⟨z₀, _, h, ⟨z₁, zs, h1, h2, rfl⟩, rfl⟩
      exact ⟨z₀, z₁ :: zs, h, .cons h1 h2, by simp⟩
    · rintro ⟨z₀, zs, h, h2, rfl⟩
      cases h2 with
      | @cons _ z₁ _ zs h1 h2 => exact ⟨z₀, _, h, ⟨z₁, zs, h1, h2, rfl⟩, by simp⟩

/-- The first result of a text in parts is put together from results of the parts. -/
theorem says_first {x : Str} {fuel : Nat} {n : Int} {out} (hne : x ≠ [])
    (h : normalize p fuel x (.int n) = some (.ok out)) : ∃ z, out.toList.head? = some z ∧ Says p x z := by
  obtain ⟨z, h1, h2⟩ := first_winner hne h
  exact ⟨z, h1, .inr ⟨hne, h2⟩⟩

theorem marked_union {specs : List RuleSpec} {tu : G} (h : taggerUnion specs = some tu) {q : Str}
    (hs : ∀ s ∈ specs, ∀ k, s.taggerWeight = some k →
      (∀ u t w, s.rule.tagger.den u t w → ∃ c, u = [c] ∧ t = write (charTok c) ++ [' ']) ∨
        ∃ q', q ⊆ q' ∧ shuns q' s.rule.tagger = true) : Marked tu q := by
  intro u t w hd hq
  obtain ⟨s, hm, k, w₀, hk, h1, _⟩ := ((tagger_union specs).2 tu h u t w).1 hd
  rcases hs s hm k hk with h2 | ⟨q', hqq, h2⟩
  · exact h2 _ _ _ h1
  · obtain ⟨c, hc, hcq⟩ := hq
    exact absurd (hqq hcq) (shuns_den h2 h1 c hc)

end

end Verif.Wfst
