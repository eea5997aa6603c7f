import Verif.ZhItn.Weigh
import Verif.ZhTn.NameProps
import Mathlib.Data.List.Chain

/-
The shape of Chinese names of numbers: their characters, which of them can come together, and where 百 and 千 stand.
-/

namespace Verif.ZhItn

open Verif.Wfst
open Verif.ZhTn.Spec (digitName rest withUnit ones hundreds thousands wan yi shi liang name chinese)

/-- The characters of names of numbers below 10^8. -/
def numc : Str := t!"零一二三四五六七八九两十百千万"
/-- The digits from one to nine. -/
def nine : Str := t!"一二三四五六七八九"

/-- The second character can come after the first: 两 comes first, digits stand before units, and 零 does not follow a
digit or 零. -/
def adj (a b : Char) : Prop := b ≠ '两' ∧ ¬ (a ∈ '两' :: nine ∧ b ∈ '零' :: nine) ∧ ¬ (a = '零' ∧ b = '零')

instance (a b : Char) : Decidable (adj a b) := by unfold adj; infer_instance

/-- A name, as far as its shape goes. -/
structure Named (q : Str) (x : Str) : Prop where
  chars : ∀ c ∈ x, c ∈ q
  chain : x.IsChain adj
  first : ∃ c r, x = c :: r ∧ c ∈ nine

theorem nine_name {d : Nat} (h0 : d ≠ 0) (h : d < 10) : digitName d ∈ nine := by
  have : ∀ d < 10, d ≠ 0 → digitName d ∈ nine := by decide
  exact this d h h0

theorem named_ones {n : Nat} (h0 : n ≠ 0) (h : n < 10) : Named nine (ones n) :=
  ⟨fun c hc => by rw [List.mem_singleton.1 hc]; exact nine_name h0 h, by simp [ones],
    _, _, rfl, nine_name h0 h⟩

theorem Named.mono {q q' x : Str} (h : Named q x) (hq : ∀ c ∈ q, c ∈ q') : Named q' x :=
  ⟨fun c hc => hq c (h.chars c hc), h.chain, h.first⟩

theorem adj_unit {u : Char} (hu : u ∈ t!"十百千万") (a : Char) : adj a u := by
  have : ∀ u ∈ t!"十百千万", u ≠ '两' ∧ u ∉ '零' :: nine ∧ u ≠ '零' := by decide
  obtain ⟨h1, h2, h3⟩ := this u hu
  exact ⟨h1, fun h => h2 h.2, fun h => h3 h.2⟩

theorem adj_after {u : Char} (hu : u ∈ t!"十百千万") {b : Char} (hb : b ∈ '零' :: nine) : adj u b := by
  have h1 : ∀ u ∈ t!"十百千万", u ∉ '两' :: nine ∧ u ≠ '零' := by decide
  have h2 : ∀ b ∈ '零' :: nine, b ≠ '两' := by decide
  exact ⟨h2 b hb, fun h => (h1 u hu).1 h.1, fun h => (h1 u hu).2 h.1⟩

theorem adj_zero {b : Char} (hb : b ∈ nine) : adj '零' b := by
  have : ∀ b ∈ nine, adj '零' b := by decide
  exact this b hb

theorem named_unit {f g : Nat → Str} {unit : Char} {u B : Nat} {p q : Str} (hu : unit ∈ t!"十百千万") (hpos : 0 < u)
    (hf : ∀ n, n ≠ 0 → n < B → Named p (f n)) (hg : ∀ n, n ≠ 0 → n < u → Named p (g n))
    (hp : ∀ c ∈ '零' :: unit :: p, c ∈ q) (n : Nat) (h0 : n ≠ 0) (hn : n < u * B) : Named q (withUnit f g unit u n) := by
  unfold withUnit
  split
  · rename_i h
    exact (hg n h0 h).mono fun c hc => hp c (by simp [hc])
  · rename_i h
    have h1 := hf (n / u) (Nat.pos_iff_ne_zero.1 (Nat.div_pos (by omega) hpos)) (Nat.div_lt_of_lt_mul hn)
    have tail : (∀ c ∈ rest g u (n % u), c ∈ q) ∧ (unit :: rest g u (n % u)).IsChain adj := by
      unfold rest
      split
      · simp
      · rename_i hm
        have h2 := hg (n % u) hm (Nat.mod_lt _ hpos)
        obtain ⟨c, r, e, hc⟩ := h2.first
        split
        · constructor
          · intro d hd
            rcases List.mem_cons.1 hd with rfl | hd
            · exact hp _ (by simp)
            · exact hp d (by simp [h2.chars d hd])
          · rw [List.isChain_cons_cons]
            refine ⟨adj_after hu (by simp), ?_⟩
            have := h2.chain
            rw [e] at this ⊢
            rw [List.isChain_cons_cons]
            exact ⟨adj_zero hc, this⟩
        · constructor
          · exact fun d hd => hp d (by simp [h2.chars d hd])
          · have := h2.chain
            rw [e] at this ⊢
            rw [List.isChain_cons_cons]
            exact ⟨adj_after hu (by simp [hc]), this⟩
    obtain ⟨c, r, e, hc⟩ := h1.first
    refine ⟨?_, ?_, c, r ++ unit :: rest g u (n % u), by rw [e]; rfl, hc⟩
    · intro d hd
      rcases List.mem_append.1 hd with hd | hd
      · exact hp d (by simp [h1.chars d hd])
      · rcases List.mem_cons.1 hd with rfl | hd
        · exact hp _ (by simp)
        · exact tail.1 d hd
    · refine List.IsChain.append h1.chain tail.2 ?_
      intro a _ b hb
      simp only [List.head?_cons, Option.mem_some_iff] at hb
      subst hb
      exact adj_unit hu a

theorem named_tens (n : Nat) (h0 : n ≠ 0) (hn : n < 100) : Named t!"零十一二三四五六七八九" (ZhTn.Spec.tens n) :=
  named_unit (B := 10) (by decide) (by decide) (fun _ => named_ones) (fun _ => named_ones) (by decide) n h0 hn

theorem named_hundreds (n : Nat) (h0 : n ≠ 0) (hn : n < 1000) : Named t!"零百十一二三四五六七八九" (hundreds n) :=
  named_unit (B := 10) (p := t!"零十一二三四五六七八九") (by decide) (by decide)
    (fun n h0 hn => (named_ones h0 hn).mono (by decide)) named_tens (by decide) n h0 hn

theorem named_thousands (n : Nat) (h0 : n ≠ 0) (hn : n < 10000) : Named t!"零千百十一二三四五六七八九" (thousands n) :=
  named_unit (B := 10) (p := t!"零百十一二三四五六七八九") (by decide) (by decide)
    (fun n h0 hn => (named_ones h0 hn).mono (by decide)) named_hundreds (by decide) n h0 hn

theorem named_wan (n : Nat) (h0 : n ≠ 0) (hn : n < 10 ^ 8) : Named t!"零万千百十一二三四五六七八九" (wan n) :=
  named_unit (B := 10 ^ 4) (p := t!"零千百十一二三四五六七八九") (by decide) (by decide) named_thousands named_thousands (by decide) n h0 hn

theorem yi_small {n : Nat} (hn : n < 10 ^ 8) : yi n = wan n := by
  unfold yi withUnit
  rw [if_pos hn]

/-! ### Where 百 and 千 stand -/

/-- No 百 or 千 stands before 万. -/
def Low (x : Str) : Prop := ∀ a b, x = a ++ '万' :: b → ∀ c ∈ a, c ∉ t!"百千"

theorem Low.infix {x u : Str} (h : Low x) (hu : u <:+: x) : Low u := by
  rintro a b rfl c hc
  obtain ⟨p, q, rfl⟩ := hu
  exact h (p ++ a) (b ++ q) (by simp) c (by simp [hc])

theorem low_of {a b : Str} (ha : ∀ c ∈ a, c ∉ t!"百千") (hb : '万' ∉ b) : Low (a ++ '万' :: b) := by
  intro a' b' e c hc
  rcases List.append_eq_append_iff.1 e with ⟨l, h1, h2⟩ | ⟨l, h1, h2⟩
  · cases l with
    | nil => rw [h1, List.append_nil] at hc; exact ha c hc
    | cons d l =>
      have : b = l ++ '万' :: b' := List.tail_eq_of_cons_eq h2
      exact absurd (by rw [this]; simp) hb
  · exact ha c (by rw [h1]; simp [hc])

theorem low_none {x : Str} (h : '万' ∉ x) : Low x := by
  rintro a b rfl
  exact absurd (by simp) h

/-- Below 10^6 few characters stand before 万. -/
theorem wan_parts {n : Nat} (h0 : n ≠ 0) (hn : n < 10 ^ 6) :
    '万' ∉ wan n ∨ ∃ a b, wan n = a ++ '万' :: b ∧ (∀ c ∈ a, c ∉ t!"百千") ∧ '万' ∉ b := by
  have none : ∀ {m}, m ≠ 0 → m < 10000 → '万' ∉ thousands m := by
    intro m h1 h2 hc
    exact absurd ((named_thousands m h1 h2).chars _ hc) (by decide)
  unfold wan withUnit
  split
  · rename_i h
    exact .inl (none h0 h)
  · rename_i h
    right
    refine ⟨_, _, rfl, ?_, ?_⟩
    · have e : thousands (n / 10 ^ 4) = ZhTn.Spec.tens (n / 10 ^ 4) := by
        unfold thousands hundreds withUnit
        rw [if_pos (by omega), if_pos (by omega)]
      rw [e]
      have key : ∀ c ∈ t!"零十一二三四五六七八九", c ∉ t!"百千" := by decide
      exact fun c hc => key c ((named_tens _ (by omega) (by omega)).chars c hc)
    · unfold rest
      split
      · simp
      · rename_i hm
        have := none hm (Nat.mod_lt _ (by decide))
        split
        · rw [List.mem_cons]
          rintro (h | h)
          · exact absurd h (by decide)
          · exact this h
        · exact this

/-! ### 十 and 两 at the beginning -/

/-- A text that is part of a name, as far as its shape goes. -/
structure Numeral (million : Bool) (x : Str) : Prop where
  chars : ∀ c ∈ x, c ∈ numc
  chain : x.IsChain adj
  low : million = true ∨ Low x

theorem Numeral.infix {m : Bool} {x u : Str} (h : Numeral m x) (hu : u <:+: x) : Numeral m u :=
  ⟨fun c hc => h.chars c (hu.mem hc), h.chain.infix hu, h.low.imp id fun h => h.infix hu⟩

theorem numeral_wan {m : Bool} {n : Nat} (h0 : n ≠ 0) (hn : n < 10 ^ 6 ∨ m = true ∧ n < 10 ^ 8) : Numeral m (wan n) := by
  have h1 := named_wan n h0 (by omega)
  have up : ∀ c ∈ t!"零万千百十一二三四五六七八九", c ∈ numc := by decide
  refine ⟨fun c hc => up c (h1.chars c hc), h1.chain, ?_⟩
  rcases hn with hn | hn
  · right
    rcases wan_parts h0 hn with h | ⟨a, b, e, h2, h3⟩
    · exact low_none h
    · rw [e]; exact low_of h2 h3
  · exact .inl hn.1

/-- Changing the first character to 两 before a unit. -/
theorem numeral_liang {m : Bool} {c : Char} {y : Str} (h : Numeral m ('二' :: c :: y)) (hc : c ∈ ['百', '千', '万', '亿']) :
    Numeral m ('两' :: c :: y) := by
  refine ⟨?_, ?_, h.low.imp id ?_⟩
  · intro d hd
    rcases List.mem_cons.1 hd with rfl | hd
    · decide
    · exact h.chars d (by simp only [List.mem_cons] at hd ⊢; tauto)
  · have h1 := h.chain
    rw [List.isChain_cons_cons] at h1 ⊢
    have : ∀ c ∈ ['百', '千', '万', '亿'], adj '两' c := by decide
    exact ⟨this c hc, h1.2⟩
  · intro h1 a b e d hd
    cases a with
    | nil => cases hd
    | cons a0 a =>
      have e1 : c :: y = a ++ '万' :: b := List.tail_eq_of_cons_eq e
      obtain rfl : '两' = a0 := List.head_eq_of_cons_eq e
      rcases List.mem_cons.1 hd with rfl | hd
      · decide
      · exact h1 ('二' :: a) b (by rw [e1]; rfl) d (by simp [hd])

theorem numeral_chinese {m : Bool} {n : Nat} (hn : n < 10 ^ 6 ∨ m = true ∧ n < 10 ^ 8) : Numeral m (chinese n) := by
  by_cases h0 : n = 0
  · subst h0
    rw [show chinese 0 = ['零'] by decide +kernel]
    exact ⟨by decide, by simp, .inr (low_none (by decide))⟩
  have h1 := numeral_wan h0 hn
  rw [← yi_small (by omega)] at h1
  have h2 : Numeral m (name n) := by
    unfold name shi
    split
    · rename_i e
      rw [e] at h1
      exact h1.infix (List.suffix_cons _ _).isInfix
    · exact h1
  unfold chinese liang
  split
  · rename_i e
    rw [e] at h2
    split
    · rename_i hc
      exact numeral_liang h2 hc
    · exact h2
  · exact h2

theorem chinese_first {n : Nat} (hn : n < 10 ^ 8) : ∃ c r, chinese n = c :: r ∧ c ∈ '零' :: '十' :: '两' :: nine := by
  by_cases h0 : n = 0
  · subst h0
    exact ⟨'零', [], by decide +kernel, by decide⟩
  have h1 := (named_wan n h0 hn).first
  rw [← yi_small hn] at h1
  have h2 : ∃ c r, name n = c :: r ∧ c ∈ '十' :: nine := by
    unfold name shi
    split
    · exact ⟨_, _, rfl, by decide⟩
    · obtain ⟨c, r, e, hc⟩ := h1
      exact ⟨c, r, e, List.mem_cons_of_mem _ hc⟩
  unfold chinese liang
  split
  · split
    · exact ⟨_, _, rfl, by decide⟩
    · exact ⟨_, _, rfl, by decide⟩
  · obtain ⟨c, r, e, hc⟩ := h2
    refine ⟨c, r, e, ?_⟩
    have : ∀ c ∈ '十' :: nine, c ∈ '零' :: '十' :: '两' :: nine := by decide
    exact this c hc

theorem chinese_ne {n : Nat} (hn : n < 10 ^ 8) : chinese n ≠ [] := by
  obtain ⟨c, r, e, _⟩ := chinese_first hn
  rw [e]; simp

example : Numeral false t!"两千零三十" := ⟨by decide, by decide, .inr (low_none (by decide))⟩
example : ¬ [t!"三", t!"五"].flatten.IsChain adj := by decide

end Verif.ZhItn
