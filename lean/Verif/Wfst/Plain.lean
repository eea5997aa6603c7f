import Verif.Wfst.Pipeline

/-
Texts that only the `char` rule can read: one tagging, one verbalization, one result.
-/

namespace Verif.Wfst

open Verif.Token (Orders)
open Verif.Token.Spec (write writeAll Tok Writable esc)
open Verif.NBest (Pipeline normalize)

/-! ### Taggings -/

theorem plain_star {tu : G} {x t : Str} {w : W}
    (h : ∀ u, u <:+: x → ∀ t w, tu.den u t w → ∃ c, u = [c] ∧ t = write (charTok c) ++ [' '])
    (hd : Star tu.den x t w) : t = spaced (x.map charTok) := by
  induction hd with
  | nil => rfl
  | @cons x₁ t₁ w₁ x₂ t₂ w₂ h1 h2 ih =>
    obtain ⟨c, rfl, rfl⟩ := h x₁ ⟨[], x₂, by simp⟩ _ _ h1
    rw [ih (fun u hu => h u (hu.trans ⟨[c], [], by simp⟩))]
    simp [spaced]

/-- Where nothing but the `char` rule applies, the only tagging is character by character. -/
theorem plain_stream {tu : G} {x t : Str} {w : W} (hne : x ≠ [])
    (h : ∀ u, u <:+: x → ∀ t w, tu.den u t w → ∃ c, u = [c] ∧ t = write (charTok c) ++ [' '])
    (hd : (stream tu).den x t w) : t = writeAll (x.map charTok) := by
  obtain ⟨s, w₁, w₂, h1, h2, _⟩ := hd
  rw [plain_star h h1] at h2
  rw [(den_dropFinal.1 h2).2.1, spaced_writeAll (by simpa using hne), dropFinalSpace_append]

/-- What the `char` rule reads and writes. -/
theorem char_tagged {x t : Str} {w : W}
    (h : (addTokens t!"char" (insert t!"value: \"" + CHAR + insert t!"\"")).den x t w) :
    ∃ c, x = [c] ∧ t = write (charTok c) ++ [' '] := by
  obtain ⟨m, rfl, h1⟩ := den_addTokens.1 h
  obtain ⟨m', rfl, h2⟩ := den_add_insert.1 h1
  obtain ⟨m, rfl, h3⟩ := den_insert_add.1 h2
  obtain ⟨c, hc⟩ : ∃ c, x = [c] := by
    rcases h3 with (h3 | h3) | h3
    · obtain ⟨c, _, rfl, _⟩ := h3; exact ⟨c, rfl⟩
    · exact ⟨_, (den_crossS.1 h3).1⟩
    · exact ⟨_, (den_crossS.1 h3).1⟩
  subst hc
  have h4 : (G.star CHAR).den [c] m w := Star.one h3
  obtain ⟨rfl, _⟩ := den_CHAR_star.1 h4
  exact ⟨c, rfl, by simp [write, charTok]⟩

/-! ### Verbalizations -/

/-- Of the texts that begin with a `char` token, the grammar reads only the token itself, with or
without a space, and writes `f` of the character. -/
structure OnlyChar (vu : G) (f : Char → Str) : Prop where
  name : ∀ p y w, vu.den p y w → ∃ d s, p = d :: s ∧ d ≠ ' '
  char : ∀ c p y w r s, vu.den p y w → p ++ r = write (charTok c) ++ s →
    (p = write (charTok c) ∨ p = write (charTok c) ++ [' ']) ∧ y = f c

theorem write_charTok (c : Char) : write (charTok c) =
    t!"char { value: \"" ++ (esc [c] ++ '"' :: t!" }") := by
  simp [write, charTok]

theorem plain_verb_star {vu : G} {f : Char → Str} (h : OnlyChar vu f) (x : Str) :
    ∀ y w, Star vu.den (writeAll (x.map charTok)) y w → y = x.flatMap f := by
  induction x with
  | nil =>
    intro y w hd
    have hnil : ∀ {s y w}, Star vu.den s y w → s = [] → y = [] := by
      intro s y w hs
      induction hs with
      | nil => intro _; rfl
      | @cons x₁ y₁ _ x₂ y₂ _ h1 h2 ih =>
        intro e
        obtain ⟨rfl, rfl⟩ := List.append_eq_nil_iff.1 e
        obtain ⟨d, s, he, _⟩ := h.name _ _ _ h1
        simp at he
    exact hnil hd rfl
  | cons c x ih =>
    intro y w hd
    -- the rest of the text after the first token
    obtain ⟨r, hr, hwr⟩ : ∃ r, writeAll ((c :: x).map charTok) = write (charTok c) ++ r ∧
        (r = [] ∧ x = [] ∨ x ≠ [] ∧ r = ' ' :: writeAll (x.map charTok)) := by
      cases x with
      | nil => exact ⟨[], by simp [writeAll, List.intercalate], .inl ⟨rfl, rfl⟩⟩
      | cons d x =>
        exact ⟨' ' :: writeAll ((d :: x).map charTok), by simp [writeAll, List.intercalate], .inr ⟨by simp, rfl⟩⟩
    rw [hr] at hd
    generalize hs : write (charTok c) ++ r = s at hd
    cases hd with
    | nil => rw [write_charTok] at hs; simp at hs
    | @cons x₁ y₁ w₁ x₂ y₂ w₂ h1 h2 =>
      obtain ⟨hp, rfl⟩ := h.char c x₁ y₁ w₁ x₂ r h1 hs.symm
      rw [List.flatMap_cons]
      congr 1
      rcases hwr with ⟨rfl, rfl⟩ | ⟨hx, rfl⟩
      · rcases hp with rfl | rfl
        · have : x₂ = [] := by simpa using hs.symm
          subst this
          exact ih _ _ (by simpa [writeAll, List.intercalate] using h2)
        · rw [List.append_assoc] at hs
          have := List.append_cancel_left hs
          simp at this
      · rcases hp with rfl | rfl
        · have he : x₂ = ' ' :: writeAll (x.map charTok) := (List.append_cancel_left hs).symm
          exfalso
          rw [he] at h2
          generalize hs' : ' ' :: writeAll (x.map charTok) = s' at h2
          cases h2 with
          | nil => simp at hs'
          | @cons z₁ y₁ w₁ z₂ y₂ w₂ h3 h4 =>
            obtain ⟨d, s, rfl, hd⟩ := h.name _ _ _ h3
            exact hd (List.cons.inj hs').1.symm
        · rw [List.append_assoc] at hs
          have he := List.append_cancel_left hs
          have : x₂ = writeAll (x.map charTok) := by simpa using he.symm
          subst this
          exact ih _ _ h2

/-! ### Unions of verbalizers -/

/-- Every input begins with the name of a token that is not a `char` token. -/
def OtherName (g : G) : Prop :=
  ∀ x y w, g.den x y w → ∃ n r, x = n ++ t!" { " ++ r ∧ n ≠ [] ∧ ' ' ∉ n ∧ n ≠ t!"char"

theorem otherName_delete {n : Str} {g : G} (h : n ≠ [] ∧ ' ' ∉ n ∧ n ≠ t!"char") :
    OtherName (deleteTokens n g) := by
  intro x y w hd
  obtain ⟨m, sp, _, rfl, _⟩ := den_deleteTokens.1 hd
  exact ⟨n, m ++ t!" }" ++ sp, by simp, h⟩

theorem otherName_alt {a b : G} (ha : OtherName a) (hb : OtherName b) : OtherName (a ||| b) :=
  fun x y w hd => hd.elim (ha x y w) (hb x y w)

theorem first_space {n m r s : Str} (hn : ' ' ∉ n) (hm : ' ' ∉ m) (h : n ++ ' ' :: r = m ++ ' ' :: s) :
    n = m := by
  induction n generalizing m with
  | nil =>
    cases m with
    | nil => rfl
    | cons c m => simp at h; simp [← h.1] at hm
  | cons c n ih =>
    cases m with
    | nil => simp at h; simp [h.1] at hn
    | cons d m =>
      simp only [List.cons_append, List.cons.injEq] at h
      simp only [List.mem_cons, not_or] at hn hm
      rw [h.1, ih hn.2 hm.2 h.2]

theorem onlyChar_default : OnlyChar (defaultVerbalizer t!"char") (fun c => [c]) where
  name p y w hd := by
    obtain ⟨m, sp, _, rfl, _⟩ := den_deleteTokens.1 hd
    exact ⟨'c', _, rfl, by decide⟩
  char c p y w r s hd he := by
    obtain ⟨m, sp, hsp, rfl, h⟩ := den_deleteTokens.1 hd
    obtain ⟨v, rfl, hv⟩ := den_verbalizeField.1 h
    obtain ⟨rfl, _, _⟩ := den_decoded_none.1 hv
    rw [write_charTok] at he ⊢
    have e1 : t!"char { value: \"" ++ (esc y ++ '"' :: (t!" }" ++ sp ++ r)) =
        t!"char { value: \"" ++ (esc [c] ++ '"' :: (t!" }" ++ s)) := by
      simpa using he
    have e2 := (Verif.Token.value_prefix_unique (Verif.Token.value_esc y) (Verif.Token.value_esc [c])
      (List.append_cancel_left e1)).1
    have e3 : y = [c] := by
      rw [← Verif.Token.escapeValue_eq_esc, ← Verif.Token.escapeValue_eq_esc] at e2
      exact Verif.Token.C02_escape_injective e2
    subst e3
    refine ⟨?_, rfl⟩
    rcases hsp with rfl | rfl
    · left; simp
    · right; simp

theorem onlyChar_union {specs : List RuleSpec} {v : G} (h : verbalizerUnion specs = some v) {f : Char → Str}
    (hs : ∀ s ∈ specs, OtherName s.rule.verbalizer ∨ OnlyChar s.rule.verbalizer f) : OnlyChar v f where
  name p y w hd := by
    obtain ⟨s, hm, _, h1⟩ := ((verbalizer_union specs).2 v h p y w).1 hd
    rcases hs s hm with h2 | h2
    · obtain ⟨n, r, rfl, hn, hsp, _⟩ := h2 _ _ _ h1
      cases n with
      | nil => exact absurd rfl hn
      | cons c n => exact ⟨c, n ++ t!" { " ++ r, by simp, fun e => hsp (by simp [e])⟩
    · exact h2.name _ _ _ h1
  char c p y w r s hd he := by
    obtain ⟨sp, hm, _, h1⟩ := ((verbalizer_union specs).2 v h p y w).1 hd
    rcases hs sp hm with h2 | h2
    · obtain ⟨n, r', rfl, _, hsp, hn⟩ := h2 _ _ _ h1
      refine absurd (first_space hsp (m := t!"char") (by decide) (r := t!"{ " ++ r' ++ r)
        (s := t!"{ value: \"" ++ (esc [c] ++ '"' :: t!" }") ++ s) ?_) hn
      rw [write_charTok] at he
      simpa using he
    · exact h2.char c p y w r s h1 he

/-- A verbalizer followed by a postprocessor that sends single characters to `f`. -/
theorem onlyChar_comp {v post : G} {f : Char → Str} (h : OnlyChar v fun c => [c])
    (hf : ∀ c y w, post.den [c] y w → y = f c) : OnlyChar (.comp v post) f where
  name := by
    rintro p y w ⟨m, w₁, w₂, h1, _⟩
    exact h.name _ _ _ h1
  char := by
    rintro c p y w r s ⟨m, w₁, w₂, h1, h2, _⟩ he
    obtain ⟨hp, rfl⟩ := h.char c p m w₁ r s h1 he
    exact ⟨hp, hf c y w₂ h2⟩

/-! ### Results -/

/-- A text that only the `char` rule reads has one result, whatever `nbest` and however ties are
broken. -/
theorem plain_normalize {p : Pipeline W} {orders : Orders} {tu vu : G} {f : Char → Str}
    (hr : Runs p orders (stream tu) (.star vu)) (ht : (stream tu).ok = true) (hv : (G.star vu).ok = true)
    (hf : Fallback orders tu vu) (ho : OnlyChar vu f) {x : Str} (hx : VText x) (hne : x ≠ [])
    (h : ∀ u, u <:+: x → ∀ t w, tu.den u t w → ∃ c, u = [c] ∧ t = write (charTok c) ++ [' '])
    (n : Int) (hn : 1 ≤ n) : ∃ fuel out, normalize p fuel x (.int n) = some (.ok out) ∧
      out.toList = [x.flatMap f] := by
  obtain ⟨⟨w, h1⟩, h2, y, v, h3⟩ := char_by_char hf hx hne
  obtain ⟨fuel, out, hout⟩ := normalize_succeeds hr ht hv hne (by
    intro t w ht
    rw [plain_stream hne h ht]
    exact ⟨_, h2⟩) h1 h2 h3 n hn
  refine ⟨fuel, out, hout, ?_⟩
  obtain ⟨hne', _, hnd, hcost, _⟩ := Verif.NBest.C25_distinct p fuel x n out hne hout
  have hall : ∀ y ∈ out.toList, y = x.flatMap f := by
    intro y hy
    obtain ⟨c, hc⟩ := hcost y hy
    obtain ⟨t, tw, r, u, m, ht', hre, hve, _, _⟩ := hc
    obtain ⟨hct, _⟩ := (hr.tags _ _ _).1 ht'
    have : t = writeAll (x.map charTok) := plain_stream hne h hct
    subst this
    have hre' : (Verif.Token.reorder p.orders (writeAll (x.map charTok))).toOption = some r := hre
    rw [hr.orders, h2] at hre'
    cases hre'
    obtain ⟨hcv, _⟩ := (hr.verbs _ _ _).1 hve
    exact plain_verb_star ho x _ _ hcv
  match hl : out.toList with
  | [] => exact absurd hl hne'
  | [a] => rw [hall a (by rw [hl]; simp)]
  | a :: b :: l =>
    rw [hl] at hnd
    have := hall a (by rw [hl]; simp)
    have := hall b (by rw [hl]; simp)
    simp_all

end Verif.Wfst
