import Verif.Wfst.Plain

/-
The cheapest tagging of a text that is put together from pieces: where no token crosses from one piece to
the next, the taggings of the whole are the taggings of the pieces side by side.
-/

namespace Verif.Wfst

open Verif.Token (Orders chosenFields)
open Verif.Token.Spec (write writeAll Tok Writable)
open Verif.NBest (Pipeline normalize)

/-! ### Cheapest taggings -/

/-- The tokens `ks` are the one cheapest tagging of `x`, at the cost `c`. -/
structure Best (tu : G) (x : Str) (ks : List Tok) (c : Int) : Prop where
  tags : Star tu.den x (spaced ks) c
  least : ∀ t w, Star tu.den x t w → c ≤ w
  only : ∀ t, Star tu.den x t c → t = spaced ks

/-- No token that starts in `p` goes on into `r`. -/
def NoCross (tu : G) (p r : Str) : Prop :=
  ∀ q s u v, p = q ++ s → s ≠ [] → u ++ v = s ++ r → ∀ t w, tu.den u t w → u.length ≤ s.length

theorem star_split {tu : G} {p r t : Str} {w : W} (hc : NoCross tu p r) (h : Star tu.den (p ++ r) t w) :
    ∃ t₁ w₁ t₂ w₂, Star tu.den p t₁ w₁ ∧ Star tu.den r t₂ w₂ ∧ t = t₁ ++ t₂ ∧ w = w₁ + w₂ := by
  have H : ∀ x t w, Star tu.den x t w → ∀ q s, p = q ++ s → x = s ++ r →
      ∃ t₁ w₁ t₂ w₂, Star tu.den s t₁ w₁ ∧ Star tu.den r t₂ w₂ ∧ t = t₁ ++ t₂ ∧ w = w₁ + w₂ := by
    intro x t w h
    induction h with
    | nil =>
      intro q s _ e
      obtain ⟨rfl, rfl⟩ := List.append_eq_nil_iff.1 e.symm
      exact ⟨[], 0, [], 0, .nil, .nil, rfl, rfl⟩
    | @cons x₁ t₁ w₁ x₂ t₂ w₂ h1 h2 ih =>
      intro q s hq e
      by_cases hs : s = []
      · subst hs
        rw [List.nil_append] at e
        exact ⟨[], 0, t₁ ++ t₂, w₁ + w₂, .nil, by rw [← e]; exact .cons h1 h2, rfl, by simp⟩
      · have hl := hc q s x₁ x₂ hq hs e t₁ w₁ h1
        obtain ⟨s', rfl, e'⟩ : ∃ s', s = x₁ ++ s' ∧ x₂ = s' ++ r := by
          rcases List.append_eq_append_iff.1 e with ⟨a, h3, h4⟩ | ⟨a, h3, h4⟩
          · exact ⟨a, h3, h4⟩
          · have : a = [] := by
              have := congrArg List.length h3
              rw [List.length_append] at this
              exact List.length_eq_zero_iff.1 (by omega)
            subst this
            exact ⟨[], by simpa using h3.symm, by simpa using h4.symm⟩
        obtain ⟨t₃, w₃, t₄, w₄, h3, h4, rfl, rfl⟩ := ih (q ++ x₁) s' (by rw [hq, List.append_assoc]) e'
        exact ⟨t₁ ++ t₃, w₁ + w₃, t₄, w₄, .cons h1 h3, h4, by simp, (Int.add_assoc _ _ _).symm⟩
  exact H _ _ _ h [] p rfl rfl

theorem spaced_append (ks ls : List Tok) : spaced (ks ++ ls) = spaced ks ++ spaced ls := by
  simp [spaced]

theorem star_ge {tu : G} {x : Str} {b : Int} (hb : 0 ≤ b) (hge : ∀ u t w, u <:+: x → tu.den u t w → b ≤ w) :
    ∀ y t w, Star tu.den y t w → y <:+: x → (0 : Int) ≤ w ∧ (y ≠ [] → b ≤ w) := by
  intro y t w hd
  induction hd with
  | nil => intro _; exact ⟨Int.le_refl _, fun h => absurd rfl h⟩
  | @cons x₁ t₁ w₁ x₂ t₂ w₂ h1 _ ih =>
    intro hi
    have key : ∀ a c : Int, b ≤ a → 0 ≤ c → 0 ≤ a + c ∧ b ≤ a + c := by intro a c _ _; omega
    have := key w₁ w₂ (hge _ _ _ (List.IsInfix.trans ⟨[], x₂, by simp⟩ hi) h1)
      (ih (List.IsInfix.trans ⟨x₁, [], by simp⟩ hi)).1
    exact ⟨this.1, fun _ => this.2⟩

/-- A piece that is one token: every token read in it costs at least `b`, and only the token itself reads
all of it for so little. -/
theorem best_one {tu : G} {x : Str} {k : Tok} {b : Int} (hx : x ≠ []) (hb : 0 < b)
    (h : tu.den x (write k ++ t!" ") b)
    (hge : ∀ u t w, u <:+: x → tu.den u t w → b ≤ w)
    (hone : ∀ t, tu.den x t b → t = write k ++ t!" ") : Best tu x [k] b := by
  have many := star_ge (Int.le_of_lt hb) hge
  refine ⟨by simpa [spaced] using Star.one h, fun t w hd => (many x t w hd (List.infix_refl _)).2 hx, ?_⟩
  have H : ∀ y t w, Star tu.den y t w → y = x → w = b → t = spaced [k] := by
    intro y t w hd
    cases hd with
    | nil => intro e _; exact absurd e.symm hx
    | @cons x₁ t₁ w₁ x₂ t₂ w₂ h1 h2 =>
      intro ex ew
      have i1 : x₁ <:+: x := ⟨[], x₂, by simpa using ex⟩
      have i2 : x₂ <:+: x := ⟨x₁, [], by simpa using ex⟩
      have key : ∀ a c : Int, 0 < b → b ≤ a → 0 ≤ c → a + c = b → a = b ∧ c = 0 := by intro a c; omega
      obtain ⟨e1, e2⟩ := key w₁ w₂ hb (hge _ _ _ i1 h1) (many _ _ _ h2 i2).1 ew
      cases h2 with
      | nil => rw [List.append_nil] at ex ⊢; rw [hone t₁ (by rw [← ex, ← e1]; exact h1)]; simp [spaced]
      | @cons y₁ s₁ v₁ y₂ s₂ v₂ g1 g2 =>
        exfalso
        have key : ∀ a c : Int, 0 < b → b ≤ a → 0 ≤ c → a + c = 0 → False := by intro a c; omega
        exact key v₁ v₂ hb (hge _ _ _ (List.IsInfix.trans ⟨[], y₂, by simp⟩ i2) g1)
          (many _ _ _ g2 (List.IsInfix.trans ⟨y₁, [], by simp⟩ i2)).1 e2
  exact fun t hd => H x t b hd rfl rfl

/-- A piece that only the `char` rule reads. -/
theorem best_plain {tu : G} {a : Int} {x : Str} (hin : ∀ c ∈ x, tu.den [c] (write (charTok c) ++ t!" ") a)
    (h : ∀ u, u <:+: x → ∀ t w, tu.den u t w → ∃ c, u = [c] ∧ t = write (charTok c) ++ [' '] ∧ w = a) :
    Best tu x (x.map charTok) (x.length * a) := by
  have cost : ∀ y t w, Star tu.den y t w → y <:+: x → w = y.length * a := by
    intro y t w hd
    induction hd with
    | nil => intro _; simp
    | @cons x₁ t₁ w₁ x₂ t₂ w₂ h1 _ ih =>
      intro hi
      obtain ⟨c, rfl, _, rfl⟩ := h x₁ (List.IsInfix.trans ⟨[], x₂, by simp⟩ hi) _ _ h1
      rw [ih (List.IsInfix.trans ⟨[c], [], by simp⟩ hi)]
      simp only [List.length_append, List.length_singleton]
      push_cast
      rw [Int.add_mul, Int.one_mul]
  refine ⟨?_, fun t w hd => le_of_eq (cost x t w hd (List.infix_refl _)).symm,
    fun t hd => plain_star (fun u hu t w hd => let ⟨c, e, f, _⟩ := h u hu t w hd; ⟨c, e, f⟩) hd⟩
  clear h cost
  induction x with
  | nil => simpa [spaced] using Star.nil
  | cons c x ih =>
    have := Star.cons (hin c (by simp)) (ih fun d hd => hin d (by simp [hd]))
    simp only [List.map_cons, List.length_cons]
    rw [show ((x.length + 1 : Nat) : Int) * a = a + x.length * a by push_cast; rw [Int.add_mul, Int.one_mul, Int.add_comm]]
    simpa [spaced] using this

/-! ### Verbalizations -/

/-- Of the texts that begin with the token `k`, the grammar reads only the token itself, with or without a
space, and writes `y`. -/
structure Said (vu : G) (k : Tok) (y : Str) : Prop where
  some : ∀ sp, sp = [] ∨ sp = [' '] → ∃ w, vu.den (write k ++ sp) y w
  only : ∀ p z w r s, vu.den p z w → p ++ r = write k ++ s → (p = write k ∨ p = write k ++ [' ']) ∧ z = y

/-- Nothing that the grammar reads begins with a space. -/
def Named (vu : G) : Prop := ∀ p y w, vu.den p y w → ∃ d s, p = d :: s ∧ d ≠ ' '

theorem write_ne (k : Tok) : write k ≠ [] := by simp [write]

theorem said_star {vu : G} (hn : Named vu) {ks : List Tok} {ys : List Str} (h : List.Forall₂ (Said vu) ks ys) :
    (∃ w, Star vu.den (writeAll ks) ys.flatten w) ∧
    ∀ y w, Star vu.den (writeAll ks) y w → y = ys.flatten := by
  induction h with
  | nil =>
    refine ⟨⟨0, .nil⟩, ?_⟩
    intro y w hd
    have hnil : ∀ {s y w}, Star vu.den s y w → s = [] → y = [] := by
      intro s y w hs
      cases hs with
      | nil => intro _; rfl
      | @cons x₁ y₁ _ x₂ y₂ _ h1 h2 =>
        intro e
        obtain ⟨rfl, rfl⟩ := List.append_eq_nil_iff.1 e
        obtain ⟨d, s, he, _⟩ := hn _ _ _ h1
        simp at he
    exact hnil hd rfl
  | @cons k y₀ ks ys hk hks ih =>
    obtain ⟨⟨wr, hr0⟩, ih⟩ := ih
    obtain ⟨r, hr, hwr⟩ : ∃ r, writeAll (k :: ks) = write k ++ r ∧
        (r = [] ∧ ks = [] ∨ ks ≠ [] ∧ r = ' ' :: writeAll ks) := by
      cases ks with
      | nil => exact ⟨[], by simp [writeAll, List.intercalate], .inl ⟨rfl, rfl⟩⟩
      | cons d ks =>
        exact ⟨' ' :: writeAll (d :: ks), by simp [writeAll, List.intercalate], .inr ⟨by simp, rfl⟩⟩
    rw [hr, List.flatten_cons]
    constructor
    · rcases hwr with ⟨rfl, rfl⟩ | ⟨hx, rfl⟩
      · cases hks
        obtain ⟨w, hw⟩ := hk.some [] (.inl rfl)
        exact ⟨w, by simpa using Star.one hw⟩
      · obtain ⟨w, hw⟩ := hk.some [' '] (.inr rfl)
        exact ⟨w + wr, by simpa using Star.cons hw hr0⟩
    · intro y w hd
      generalize hs : write k ++ r = s at hd
      cases hd with
      | nil => exact absurd (List.append_eq_nil_iff.1 hs).1 (write_ne k)
      | @cons x₁ y₁ w₁ x₂ y₂ w₂ h1 h2 =>
        obtain ⟨hp, rfl⟩ := hk.only x₁ y₁ w₁ x₂ r h1 hs.symm
        congr 1
        rcases hwr with ⟨rfl, rfl⟩ | ⟨hx, rfl⟩
        · rcases hp with rfl | rfl
          · have : x₂ = [] := by simpa using hs.symm
            subst this
            exact ih _ _ (by simpa [writeAll, List.intercalate] using h2)
          · rw [List.append_assoc] at hs
            have := List.append_cancel_left hs
            simp at this
        · rcases hp with rfl | rfl
          · have he : x₂ = ' ' :: writeAll ks := (List.append_cancel_left hs).symm
            exfalso
            rw [he] at h2
            generalize hs' : ' ' :: writeAll ks = s' at h2
            cases h2 with
            | nil => simp at hs'
            | @cons z₁ y₁ w₁ z₂ y₂ w₂ h3 h4 =>
              obtain ⟨d, s, rfl, hd⟩ := hn _ _ _ h3
              exact hd (List.cons.inj hs').1.symm
          · rw [List.append_assoc] at hs
            have he := List.append_cancel_left hs
            have : x₂ = writeAll ks := by simpa using he.symm
            subst this
            exact ih _ _ h2

theorem said_char {vu : G} {orders : Orders} {tu : G} (hf : Fallback orders tu vu) {f : Char → Str} (ho : OnlyChar vu f)
    {c : Char} (hc : vchar c = true) : Said vu (charTok c) (f c) where
  some sp hsp := by
    obtain ⟨y, w, h⟩ := hf.verb c sp hc hsp
    obtain ⟨_, rfl⟩ := ho.char c _ _ _ [] sp h (by simp)
    exact ⟨w, h⟩
  only p z w r s h e := ho.char c p z w r s h e

end Verif.Wfst
