import Verif.Wfst.Clause
import Verif.Wfst.Edge
import Verif.Wfst.Utter

/-
Texts that are one token, and places in a text that no token crosses.
-/

namespace Verif.Wfst

open Verif.Token (Orders chosenFields)
open Verif.Token.Spec (esc write writeAll Tok Writable IsName)
open Verif.NBest (Pipeline normalize)
open Verif.NBest.Spec (Cost)

section
variable {p : Pipeline W} {orders : Orders} {tu vu : G}

theorem tagged_write {x : Str} {ks : List Tok} {w : W} (h : Star tu.den x (spaced ks) w) (hv : VText (spaced ks))
    (hw : ∀ k ∈ ks, Writable k) : Tagged tu x (spaced ks) ks w := by
  refine ⟨h, hv, ks.map write, ?_, ?_, fun k hk => (hw k hk).2.2⟩
  · simp [spaced, spacedB, List.flatMap_map]
  · rw [List.forall₂_map_left_iff, List.forall₂_same]
    intro k hk
    exact Verif.Token.block_write (hw k hk).1 (hw k hk).2.1

/-- A text with one cheapest tagging that is said in one way. -/
theorem best_winner (hp : Piped p orders tu vu) {x : Str} (hx : x ≠ []) {ks : List Tok} {c : Int} (hb : Best tu x ks c)
    (hv : VText (spaced ks)) (hw : ∀ k ∈ ks, Writable k) {y : Str} (hy : ∃ v, Spoken vu (reord orders ks) y v)
    (ho : ∀ z v, Spoken vu (reord orders ks) z v → z = y) {z : Str} : Winner p x z ↔ z = y := by
  have ht : Tagged tu x (spaced ks) ks c := tagged_write hb.tags hv hw
  rw [winner_iff hp hx]
  constructor
  · rintro ⟨t, ls, w, v, h1, h2, h3, _⟩
    obtain ⟨v', hy⟩ := hy
    have hle : w ≤ c := h3 _ ks c y v' ht hy
    have hge : c ≤ w := hb.least _ _ h1.1
    obtain rfl : w = c := le_antisymm hle hge
    obtain rfl := hb.only _ h1.1
    exact ho _ _ (spoken_same hp hx h1 ht h2)
  · rintro rfl
    obtain ⟨v, hy⟩ := hy
    obtain ⟨m, hm⟩ := exists_least hp.verbOk ((verb_spoken hp ht).2 hy)
    obtain ⟨z', hz⟩ := hm.1
    have hz1 := (verb_spoken hp ht).1 hz.1
    obtain rfl := ho _ _ hz1
    refine ⟨_, ks, c, m, ht, hz1, fun _ ls w _ _ h1 _ => hb.least _ _ h1.1, ?_⟩
    intro z'' v'' h
    obtain ⟨d, hd⟩ := exists_cost hp.verbOk ((verb_spoken hp ht).2 h)
    exact le_trans (hm.2 ⟨z'', hd⟩) (hd.2 ((verb_spoken hp ht).2 h))

/-- Parts that no token joins are normalized by themselves. -/
theorem says_append (hp : Piped p orders tu vu) {x y z : Str} (hc : NoCross tu x y) :
    Says p (x ++ y) z ↔ ∃ z₁ z₂, Says p x z₁ ∧ Says p y z₂ ∧ z = z₁ ++ z₂ := by
  by_cases hx : x = []
  · subst hx; simp [Says]
  by_cases hy : y = []
  · subst hy; simp [Says]
  rw [says_cons (by simp [hx]), winner_append hp hx hy hc]
  simp only [says_cons hx, says_cons hy]

end

/-- A text that is one token: every token costs at least `a`, more than half of `b`, and only the token itself reads
all of the text for `b` or less. -/
theorem best_single {tu : G} {x : Str} {k : Tok} {a b : Int} (hx : x ≠ []) (ha : 0 < a) (hab : b < a + a)
    (h : tu.den x (write k ++ t!" ") b) (hge : ∀ u t w, tu.den u t w → a ≤ w)
    (hone : ∀ t w, tu.den x t w → w ≤ b → t = write k ++ t!" " ∧ w = b) : Best tu x [k] b := by
  have many : ∀ y t w, Star tu.den y t w → (0 : Int) ≤ w ∧ (y ≠ [] → a ≤ w) := fun y t w hd =>
    star_ge (x := y) (Int.le_of_lt ha) (fun u t w _ h => hge u t w h) y t w hd (List.infix_refl _)
  have H : ∀ t w, Star tu.den x t w → w ≤ b → t = spaced [k] ∧ w = b := by
    intro t w hd
    generalize hy : x = y at hd
    cases hd with
    | nil => exact absurd hy hx
    | @cons x₁ t₁ w₁ x₂ t₂ w₂ h1 h2 =>
      intro hle
      cases h2 with
      | nil =>
        rw [List.append_nil] at hy ⊢
        subst hy
        obtain ⟨rfl, e⟩ := hone _ _ h1 (by rwa [show w₁ + (0 : W) = w₁ from Int.add_zero _] at hle)
        exact ⟨by simp [spaced], by rw [e]; exact Int.add_zero _⟩
      | @cons y₁ s₁ v₁ y₂ s₂ v₂ g1 g2 =>
        exfalso
        have key : ∀ p q r : Int, a ≤ p → a ≤ q → 0 ≤ r → p + (q + r) ≤ b → False := by intros; omega
        exact key w₁ v₁ v₂ (hge _ _ _ h1) (hge _ _ _ g1) (many _ _ _ g2).1 hle
  refine ⟨by simpa [spaced] using Star.one h, ?_, fun t hd => (H t b hd (Int.le_refl _)).1⟩
  intro t w hd
  by_contra hlt
  have hlt := not_le.1 hlt
  rw [(H t w hd (Int.le_of_lt hlt)).2] at hlt
  exact lt_irrefl _ hlt

/-- Tokens that cost at least `a`: if they cost `b` at most, there is one of them, or each costs `b - a` at most. -/
theorem one_or_cheap {tu : G} {a b : Int} (ha : 0 ≤ a) (hge : ∀ u t w, tu.den u t w → a ≤ w) {x t : Str} {w : W}
    (h : Star tu.den x t w) (hx : x ≠ []) (hw : w ≤ b) :
    tu.den x t w ∨ Star (fun u t w => tu.den u t w ∧ w + a ≤ b) x t w := by
  have many : ∀ {y t w}, Star tu.den y t w → (0 : Int) ≤ w := fun {y t w} hd =>
    (star_ge (x := y) ha (fun u t w _ h => hge u t w h) y t w hd (List.infix_refl _)).1
  have all : ∀ {y t w}, Star tu.den y t w → ∀ c : Int, a ≤ c → c + w ≤ b →
      Star (fun u t w => tu.den u t w ∧ w + a ≤ b) y t w := by
    intro y t w hd
    induction hd with
    | nil => exact fun _ _ _ => .nil
    | @cons x₁ t₁ w₁ x₂ t₂ w₂ h1 h2 ih =>
      intro c hc hle
      have k1 : ∀ c w₁ w₂ : Int, a ≤ c → 0 ≤ w₂ → c + (w₁ + w₂) ≤ b → w₁ + a ≤ b := by intros; omega
      have k2 : ∀ c w₁ w₂ : Int, a ≤ c → a ≤ w₁ → c + (w₁ + w₂) ≤ b → a ≤ c + w₁ ∧ (c + w₁) + w₂ ≤ b := by
        intros; omega
      obtain ⟨h3, h4⟩ := k2 c w₁ w₂ hc (hge _ _ _ h1) hle
      exact .cons ⟨h1, k1 c w₁ w₂ hc (many h2) hle⟩ (ih _ h3 h4)
  cases h with
  | nil => exact absurd rfl hx
  | @cons x₁ t₁ w₁ x₂ t₂ w₂ h1 h2 =>
    cases h2 with
    | nil =>
      rw [List.append_nil, List.append_nil, show w₁ + (0 : W) = w₁ from Int.add_zero _]
      exact .inl h1
    | @cons y₁ s₁ v₁ y₂ s₂ v₂ g1 g2 =>
      right
      have hrest := all (Star.cons g1 g2) w₁ (hge _ _ _ h1) hw
      refine .cons ⟨h1, ?_⟩ hrest
      have k : ∀ w₁ v₁ v₂ : Int, a ≤ v₁ → 0 ≤ v₂ → w₁ + (v₁ + v₂) ≤ b → w₁ + a ≤ b := by intros; omega
      exact k w₁ v₁ v₂ (hge _ _ _ g1) (many g2) hw

/-- A text that is one token: the tokens cost at least `a`, no tokens that cost `b - a` at most make up the text, and
only the token itself reads all of it for `b` or less. -/
theorem best_alone {tu : G} {x : Str} {k : Tok} {a b : Int} (hx : x ≠ []) (ha : 0 ≤ a) (h : tu.den x (write k ++ t!" ") b)
    (hge : ∀ u t w, tu.den u t w → a ≤ w) (hno : ∀ t w, ¬ Star (fun u t w => tu.den u t w ∧ w + a ≤ b) x t w)
    (hone : ∀ t w, tu.den x t w → w ≤ b → t = write k ++ t!" " ∧ w = b) : Best tu x [k] b := by
  have H : ∀ t w, Star tu.den x t w → w ≤ b → t = spaced [k] ∧ w = b := by
    intro t w hd hle
    rcases one_or_cheap ha hge hd hx hle with h1 | h1
    · obtain ⟨rfl, e⟩ := hone _ _ h1 hle
      exact ⟨by simp [spaced], e⟩
    · exact absurd h1 (hno _ _)
  refine ⟨by simpa [spaced] using Star.one h, ?_, fun t hd => (H t b hd (Int.le_refl _)).1⟩
  intro t w hd
  by_contra hlt
  have hlt := not_le.1 hlt
  rw [(H t w hd (Int.le_of_lt hlt)).2] at hlt
  exact lt_irrefl _ hlt

/-- Every character of a text of tokens is in one of them. -/
theorem star_mem {R : Rel} {x t : Str} {w : W} (h : Star R x t w) {c : Char} (hc : c ∈ x) :
    ∃ u t w, R u t w ∧ c ∈ u ∧ u <:+: x := by
  induction h with
  | nil => cases hc
  | @cons x₁ t₁ w₁ x₂ t₂ w₂ h1 h2 ih =>
    rcases List.mem_append.1 hc with hc | hc
    · exact ⟨x₁, _, _, h1, hc, (List.prefix_append _ _).isInfix⟩
    · obtain ⟨u, t, w, h3, h4, h5⟩ := ih hc
      exact ⟨u, t, w, h3, h4, h5.trans (List.suffix_append _ _).isInfix⟩

/-! ### Places that no token crosses -/

/-- A part of a token from the start on. -/
theorem cut {s u v r : Str} (e : u ++ v = s ++ r) (h : s.length < u.length) : ∃ u', u = s ++ u' ∧ u' ≠ [] ∧ u' ++ v = r := by
  rcases List.append_eq_append_iff.1 e with ⟨a, h1, h2⟩ | ⟨a, h1, h2⟩
  · rw [h1, List.length_append] at h; omega
  · refine ⟨a, h1, ?_, h2.symm⟩
    rintro rfl
    rw [h1, List.append_nil] at h
    exact Nat.lt_irrefl _ h

/-- A token that crosses the place is in the text. -/
theorem cross_infix {x y l q u v : Str} (he : x = l ++ q) (e : u ++ v = q ++ y) : u <:+: x ++ y := by
  refine ⟨l, v, ?_⟩
  rw [he, List.append_assoc, e, List.append_assoc]

/-- Before a digit: no text that can stand before the first digit of a token is the end of the part. -/
theorem noCross_open_in {tu : G} {f : Char → Char} {s : Sum} {x y : Str} {d : Char}
    (hall : ∀ u t w, tu.den u t w → u <:+: x ++ d :: y → (∃ c, u = [c]) ∨ s.Fits (u.map f))
    (hd : dig (f d) = true) (hx : Free (x.map f)) (hno : ∀ w ∈ s.lead, w ≠ [] → ¬ w <:+ x.map f) :
    NoCross tu x (d :: y) := by
  intro a q u v he hq e t w hden
  have hin := cross_infix he e
  by_contra hl
  obtain ⟨u', rfl, hu', e'⟩ := cut e (Nat.lt_of_not_le hl)
  cases u' with
  | nil => exact hu' rfl
  | cons b u' =>
    obtain ⟨rfl, _⟩ := List.cons.inj e'
    rcases hall _ _ _ hden hin with ⟨c, hc⟩ | hfit
    · have := congrArg List.length hc
      cases q with
      | nil => exact hq rfl
      | cons _ q => simp at this
    · refine hno (q.map f) (hfit.lead (q.map f) (f b) (u'.map f) (by simp) ?_ hd) (by simpa using hq) ?_
      · intro c hc
        refine hx c ?_
        rw [he, List.map_append]
        exact List.mem_append_right _ hc
      · rw [he, List.map_append]
        exact List.suffix_append _ _

/-- The same if all tokens are as the summary says. -/
theorem noCross_open {tu : G} {f : Char → Char} {s : Sum} (hall : ∀ u t w, tu.den u t w → (∃ c, u = [c]) ∨ s.Fits (u.map f))
    {x y : Str} {d : Char} (hd : dig (f d) = true) (hx : Free (x.map f)) (hno : ∀ w ∈ s.lead, w ≠ [] → ¬ w <:+ x.map f) :
    NoCross tu x (d :: y) := noCross_open_in (fun u t w h _ => hall u t w h) hd hx hno

/-- Behind a digit: the next character cannot come after a digit in a token. -/
theorem noCross_close_in {tu : G} {f : Char → Char} {s : Sum} {x y : Str} {a b : Char}
    (hall : ∀ u t w, tu.den u t w → u <:+: x ++ [a] ++ b :: y → (∃ c, u = [c]) ∨ s.Fits (u.map f))
    (ha : dig (f a) = true) (hb : dig (f b) = false) (hno : f b ∉ s.after) : NoCross tu (x ++ [a]) (b :: y) := by
  intro l q u v he hq e t w hden
  have hin := cross_infix he e
  by_contra hl
  obtain ⟨u', rfl, hu', e'⟩ := cut e (Nat.lt_of_not_le hl)
  cases u' with
  | nil => exact hu' rfl
  | cons b' u' =>
    obtain ⟨rfl, _⟩ := List.cons.inj e'
    rcases hall _ _ _ hden hin with ⟨c, hc⟩ | hfit
    · have := congrArg List.length hc
      cases q with
      | nil => exact hq rfl
      | cons _ q => simp at this
    · obtain ⟨q', rfl⟩ : ∃ q', q = q' ++ [a] := by
        refine ⟨q.dropLast, ?_⟩
        have h1 := congrArg List.getLast? he
        rw [List.getLast?_append, List.getLast?_append] at h1
        have h2 : q.getLast? = some (q.getLast hq) := List.getLast?_eq_some_getLast hq
        rw [h2] at h1
        simp at h1
        rw [h1]
        exact (List.dropLast_append_getLast hq).symm
      exact hno (hfit.after (q'.map f) (f a) (f b') (u'.map f) (by simp) ha hb)

/-- The same if all tokens are as the summary says. -/
theorem noCross_close {tu : G} {f : Char → Char} {s : Sum} (hall : ∀ u t w, tu.den u t w → (∃ c, u = [c]) ∨ s.Fits (u.map f))
    {x y : Str} {a b : Char} (ha : dig (f a) = true) (hb : dig (f b) = false) (hno : f b ∉ s.after) :
    NoCross tu (x ++ [a]) (b :: y) := noCross_close_in (fun u t w h _ => hall u t w h) ha hb hno

/-! ### Tokens with one value -/

/-- The token with the single field `value`. -/
def valueTok (n x : Str) : Tok := ⟨n, [(t!"value", x)]⟩

theorem write_valueTok (n x : Str) : write (valueTok n x) = n ++ t!" { value: \"" ++ esc x ++ t!"\" }" := by
  simp [write, valueTok]

theorem writable_value {n x : Str} (hn : IsName n) : Writable (valueTok n x) := by
  refine ⟨hn, ?_, ?_⟩
  · intro f hf
    rw [List.mem_singleton.1 hf]
    show IsName t!"value"
    decide
  · simp [valueTok, Verif.Token.Spec.Distinct]

/-- A verbalizer reads the tokens of its name. -/
theorem delete_write {n m : Str} {g : G} {f : Str × Str} {fs : List (Str × Str)} (hn : ' ' ∉ n) (hm : ' ' ∉ m) {y : Str} {w : W} :
    (deleteTokens m g).den (write ⟨n, f :: fs⟩) y w ↔ m = n ∧ g.den (fieldT f ++ fs.flatMap fun f => ' ' :: fieldT f) y w := by
  rw [den_deleteTokens, write_cons]
  constructor
  · rintro ⟨u, sp, hsp, e, h⟩
    have e1 : n ++ ' ' :: (t!"{ " ++ (fieldT f ++ (fs.flatMap fun f => ' ' :: fieldT f)) ++ t!" }") =
        m ++ ' ' :: (t!"{ " ++ u ++ t!" }" ++ sp) := by simpa using e
    obtain rfl := first_space hn hm e1
    refine ⟨rfl, ?_⟩
    have e2 := List.append_cancel_left e1
    rcases hsp with rfl | rfl
    · have e3 : (fieldT f ++ (fs.flatMap fun f => ' ' :: fieldT f)) ++ t!" }" = u ++ t!" }" := by simpa using e2
      rw [List.append_cancel_right e3]
      exact h
    · have := congrArg List.reverse e2
      simp at this
  · rintro ⟨rfl, h⟩
    exact ⟨_, [], .inl rfl, by simp, h⟩

theorem raw_value {x y : Str} {g : G} {w : W} {n : Str} (hx : esc x = x) :
    (del (n ++ t!": \"") + g + del t!"\"").den (fieldT (n, x)) y w ↔ g.den x y w := by
  rw [den_add_del]
  have e : fieldT (n, x) = n ++ t!": \"" ++ x ++ t!"\"" := by simp [fieldT, hx]
  rw [e]
  constructor
  · rintro ⟨u, e1, h⟩
    obtain ⟨v, rfl, h⟩ := den_del_add.1 h
    have e2 := List.append_cancel_left (List.append_cancel_right e1)
    rwa [e2]
  · intro h
    exact ⟨_, rfl, den_del_add.2 ⟨_, rfl, h⟩⟩

end Verif.Wfst
