import Verif.JaItn.Local
import Verif.JaItn.Edge
import Verif.JaItn.NumberProps
import Verif.Wfst.Single
import Verif.Wfst.Letter

/-
Japanese text with names of numbers in it: which tokens read a name, and what the verbalizer writes for it.
-/

namespace Verif.JaItn

open Verif.Wfst
open Verif.JaItn.Spec
open Verif.JaTn.Spec (japanese digitName digitVal signs big)
open Verif.Token.Spec (esc write writeAll Tok Writable IsName)
open Verif.NBest (Pipeline normalize)

theorem see_eq (h : Bool) (x : Str) : see h x = x.map (half h) := by
  unfold see half
  cases h <;> simp

/-! ### Characters of names -/

/-- The characters of names of numbers. -/
def numc : Str := t!"〇一二三四五六七八九十百千万億点"

theorem half_numc (h : Bool) : ∀ c ∈ numc, half h c = c := by
  have : ∀ h, numc.all (fun c => half h c == c) = true := by decide +kernel
  intro c hc
  simpa using List.all_eq_true.1 (this h) c hc

theorem map_numc {h : Bool} {x : Str} (hx : ∀ c ∈ x, c ∈ numc) : x.map (half h) = x := by
  have : x.map (half h) = x.map id := List.map_congr_left fun c hc => half_numc h c (hx c hc)
  rw [this]; simp

theorem name_mem {d : Nat} (hd : d < 10) : digitName d ∈ t!"〇一二三四五六七八九" := by
  have : ∀ d < 10, digitName d ∈ t!"〇一二三四五六七八九" := by decide
  exact this d hd

theorem names_mem {es : List Nat} (he : ∀ d ∈ es, d < 10) : ∀ c ∈ es.map digitName, c ∈ t!"〇一二三四五六七八九" := by
  intro c hc
  obtain ⟨d, hd, rfl⟩ := List.mem_map.1 hc
  exact name_mem (he d hd)

section
variable {s z m : Bool} {x y : Str}

/-- The characters of a row of digits with points. -/
theorem dotted_mem {ds : List Nat} {ess : List (List Nat)} (hd : ∀ d ∈ ds, d ≠ 0 ∧ d < 10)
    (he : ∀ es ∈ ess, es ≠ [] ∧ ∀ d ∈ es, d < 10) :
    ∀ c ∈ ds.map digitName ++ ess.flatMap (fun es => '点' :: es.map digitName), c ∈ t!"〇一二三四五六七八九点" := by
  have up : ∀ c ∈ t!"〇一二三四五六七八九", c ∈ t!"〇一二三四五六七八九点" := by decide
  intro c hc
  rcases List.mem_append.1 hc with hc | hc
  · exact up c (names_mem (fun d h => (hd d h).2) c hc)
  · obtain ⟨es, hes, hc⟩ := List.mem_flatMap.1 hc
    rcases List.mem_cons.1 hc with rfl | hc
    · decide
    · exact up c (names_mem (he es hes).2 c hc)

theorem Spec.Stands.numc (h : Stands s z m x y) : ∀ c ∈ x, c ∈ JaItn.numc := by
  have up1 : ∀ c ∈ t!"〇一二三四五六七八九十百千万億", c ∈ JaItn.numc := by decide
  have up2 : ∀ c ∈ t!"〇一二三四五六七八九", c ∈ JaItn.numc := by decide
  have up3 : ∀ c ∈ t!"〇一二三四五六七八九点", c ∈ JaItn.numc := by decide
  cases h with
  | whole _ _ hn => exact fun c hc => up1 c (japanese_chars hn c hc)
  | small _ hn => exact fun c hc => up1 c (japanese_chars (by omega) c hc)
  | row he _ => exact fun c hc => up2 c (names_mem he c hc)
  | point hn _ he =>
    intro c hc
    rcases List.mem_append.1 hc with hc | hc
    · exact up1 c (japanese_chars (by omega) c hc)
    · rcases List.mem_cons.1 hc with rfl | hc
      · decide
      · exact up2 c (names_mem he c hc)
  | dotted _ hd _ he => exact fun c hc => up3 c (dotted_mem hd he c hc)

theorem clear_numc {x : Str} (h : ∀ c ∈ x, c ∈ numc) : Clear zeros x := by
  intro n hn hi
  have : ∀ n ∈ zeros, ∃ c ∈ n, c ∉ numc := by decide
  obtain ⟨c, hc, hq⟩ := this n hn
  exact hq (h c (hi.mem hc))

/-- The first character of a name. -/
theorem japanese_first {n : Nat} (hn : n < 10 ^ 12) : ∃ c r, japanese n = c :: r ∧ c ∈ heads := by
  have hd := (exactly_body false hn _ 0).2 ⟨rfl, rfl⟩
  have hs : (edgeOf (mark heads) zeros (positiveInteger false ||| bigBody)).any (fun s => s.firsts.isEmpty && s.free.isEmpty) = true := by
    decide +kernel
  obtain ⟨s, e, hs⟩ := (Option.any_eq_true _ _).1 hs
  simp only [Bool.and_eq_true, List.isEmpty_iff] at hs
  have up1 : ∀ c ∈ t!"〇一二三四五六七八九十百千万億", c ∈ JaItn.numc := by decide
  have hf := edgeOf_den e hd (clear_numc fun c hc => up1 c (japanese_chars hn c hc))
  cases ej : japanese n with
  | nil =>
    rw [ej] at hf
    have := hf.free (by intro c hc; cases hc)
    rw [hs.2] at this; cases this
  | cons c r =>
    refine ⟨c, r, rfl, ?_⟩
    rw [ej, List.map_cons] at hf
    by_contra hc
    have := hf.first (by rw [dig_mark]; simpa using hc)
    rw [hs.1] at this; cases this

theorem names_first {es : List Nat} (hne : es ≠ []) (he : ∀ d ∈ es, d < 10) (r : Str) :
    ∃ c q, es.map digitName ++ r = c :: q ∧ c ∈ heads := by
  cases es with
  | nil => exact absurd rfl hne
  | cons d es =>
    refine ⟨_, _, rfl, ?_⟩
    have : ∀ c ∈ t!"〇一二三四五六七八九", c ∈ heads := by decide
    exact this _ (name_mem (he d (by simp)))

theorem Spec.Stands.first (h : Stands s z m x y) : ∃ c r, x = c :: r ∧ c ∈ heads := by
  cases h with
  | whole _ _ hn => exact japanese_first hn
  | small _ hn => exact japanese_first (by omega)
  | @row es he hl =>
    have := names_first (es := es) (by rintro rfl; simp at hl) he []
    simpa using this
  | @point n _ hn _ _ =>
    obtain ⟨c, r, e, hc⟩ := japanese_first (n := n) (by omega)
    exact ⟨c, _, by rw [e]; rfl, hc⟩
  | dotted hd h1 _ _ => exact names_first hd (fun d h => (h1 d h).2) _

theorem last_of {x : Str} (hne : x ≠ []) {q : Str} (h : ∀ c ∈ x, c ∈ q) : ∃ r c, x = r ++ [c] ∧ c ∈ q :=
  ⟨x.dropLast, x.getLast hne, (List.dropLast_append_getLast hne).symm, h _ (List.getLast_mem hne)⟩

theorem Spec.Stands.last (h : Stands s z m x y) : ∃ r c, x = r ++ [c] ∧ c ∈ numberChars := by
  have up1 : ∀ c ∈ t!"〇一二三四五六七八九十百千万億", c ∈ numberChars := by decide
  have up2 : ∀ c ∈ t!"〇一二三四五六七八九", c ∈ numberChars := by decide
  have hne : x ≠ [] := by
    obtain ⟨c, r, rfl, _⟩ := h.first
    simp
  have names : ∀ {es : List Nat} {r : Str}, es ≠ [] → (∀ d ∈ es, d < 10) →
      ∃ q c, r ++ es.map digitName = q ++ [c] ∧ c ∈ numberChars := by
    intro es r hne he
    obtain ⟨q, c, e, hc⟩ := last_of (x := es.map digitName) (by simpa using hne) (names_mem he)
    exact ⟨r ++ q, c, by rw [e, List.append_assoc], up2 c hc⟩
  cases h with
  | whole _ _ hn => exact last_of hne fun c hc => up1 c (japanese_chars hn c hc)
  | small _ hn => exact last_of hne fun c hc => up1 c (japanese_chars (by omega) c hc)
  | row he _ => exact last_of hne fun c hc => up2 c (names_mem he c hc)
  | @point n es hn h1 he =>
    have := names (r := japanese n ++ ['点']) h1 he
    simpa using this
  | @dotted ds ess h1 h2 h3 h4 =>
    have hl := List.getLast_mem h3
    obtain ⟨h5, h6⟩ := h4 _ hl
    have := names (r := ds.map digitName ++ ess.dropLast.flatMap (fun es => '点' :: es.map digitName) ++ ['点']) h5 h6
    obtain ⟨q, c, e, hc⟩ := this
    refine ⟨q, c, ?_, hc⟩
    rw [← e]
    conv_lhs => rw [← List.dropLast_append_getLast h3]
    simp

/-! ### What is written for them -/

/-- A name from ten on has a unit. -/
theorem japanese_unit {n : Nat} (h : 10 ≤ n) (hn : n < 10 ^ 12) : ∃ c ∈ japanese n, c ∈ t!"十百千万億" := by
  by_cases h8 : 10 ^ 8 ≤ n
  · exact ⟨'億', by rw [japanese_yi h8 hn]; simp, by simp⟩
  by_cases h4 : 10 ^ 4 ≤ n
  · refine ⟨'万', ?_, by simp⟩
    unfold japanese
    rw [if_neg (by omega), show n / 10 ^ 4 % 10 ^ 4 = n / 10 ^ 4 by omega]
    have : '万' ∈ big '万' (n / 10 ^ 4) := by
      unfold big; rw [if_neg (by omega)]; simp
    exact List.mem_append_left _ (List.mem_append_right _ this)
  have e : japanese n = lo4 false n := by
    unfold japanese
    rw [if_neg (by omega), show n / 10 ^ 8 = 0 by omega, show n / 10 ^ 4 % 10 ^ 4 = 0 by omega, lo4_below (by omega),
      show n % 10 ^ 4 = n by omega]
    rfl
  rw [e]
  by_cases h3 : 1000 ≤ n
  · exact ⟨'千', mem_thousand h3, by simp⟩
  rw [lo4_small (by omega)]
  by_cases h2 : 100 ≤ n
  · exact ⟨'百', mem_hundred h2, by simp⟩
  rw [lo3_small (by omega)]
  have : ∀ n < 100, n < 10 ∨ '十' ∈ lo2 n := by decide +kernel
  exact ⟨'十', (this n (by omega)).resolve_left (by omega), by simp⟩

theorem japanese_small {n : Nat} (h : n < 10) : japanese n = [digitName n] := by
  have : ∀ n < 10, japanese n = [digitName n] := by decide +kernel
  exact this n h

/-- Characters that are written one by one. -/
def letters : List (Char × Char) :=
  [('〇', '0'), ('零', '0'), ('一', '1'), ('二', '2'), ('三', '3'), ('四', '4'), ('五', '5'), ('六', '6'), ('七', '7'),
   ('八', '8'), ('九', '9'), ('点', '.')]
def letQ (c : Char) : Bool := (letters.lookup c).isSome
def letF (c : Char) : Char := (letters.lookup c).getD c

theorem letters_cardinal : ∀ s z m, (letC letQ letF (cardinalG ⟨false, s, z, m⟩)).2 = true := by decide +kernel

theorem letQ_mem : ∀ c ∈ t!"〇一二三四五六七八九点", letQ c = true := by decide

theorem letF_names {es : List Nat} (he : ∀ d ∈ es, d < 10) : (es.map digitName).map letF = es.map Nat.digitChar := by
  rw [List.map_map]
  have : ∀ d < 10, letF (digitName d) = Nat.digitChar d := by decide
  exact List.map_congr_left fun d hd => this d (he d hd)

/-- One thing is written for a text of such characters. -/
theorem exactly_letters (k : Config) {x y : Str} (hx : ∀ c ∈ x, c ∈ t!"〇一二三四五六七八九点") (hy : x.map letF = y)
    (h : (cardinalG k).den x y 0) : Exactly (cardinalG k) x y := by
  intro y' w
  constructor
  · intro hd
    rw [← hy]
    exact letter_den (letters_cardinal k.standalone k.zeroToNine k.million) hd fun c hc => letQ_mem c (hx c hc)
  · rintro ⟨rfl, rfl⟩; exact h

theorem den_base {k : Config} {x y : Str} {w : W} (h : (cardinalBase k.million).den x y w) : (cardinalG k).den x y w := by
  unfold cardinalG
  split
  · split
    · exact .inl h
    · exact .inl h
  · exact h

theorem den_digits {es : List Nat} (hne : es ≠ []) (he : ∀ d ∈ es, d < 10) :
    digits.plus.den (es.map digitName) (es.map Nat.digitChar) 0 := (exactly_digits hne he _ 0).2 ⟨rfl, rfl⟩

theorem den_digit {d : Nat} (hd : d < 10) : digits.den [digitName d] [Nat.digitChar d] 0 := by
  have one : ∀ d < 10, runsTo digits [digitName d] [Nat.digitChar d] = true := by decide +kernel
  exact (exactly_run (by decide +kernel) (one d hd) _ 0).2 ⟨rfl, rfl⟩

theorem exactly_row (k : Config) {es : List Nat} (he : ∀ d ∈ es, d < 10)
    (hl : 3 ≤ es.length ∨ es.length = 2 ∧ k.standalone = true ∧ k.zeroToNine = false) :
    Exactly (cardinalG k) (es.map digitName) (es.map Nat.digitChar) := by
  have up : ∀ c ∈ t!"〇一二三四五六七八九", c ∈ t!"〇一二三四五六七八九点" := by decide
  refine exactly_letters k (fun c hc => up c (names_mem he c hc)) (letF_names he) ?_
  rcases hl with hl | ⟨hl, hs, hz⟩
  · match es, hl, he with
    | a :: b :: c :: es, _, he =>
      refine den_base (.inl (.inr ⟨[_, _], [_, _], 0, _, _, 0, ⟨[_], [_], 0, [_], [_], 0, den_digit (he a (by simp)),
        ⟨[_], [_], 0, [], [], 0, den_digit (he b (by simp)), ⟨rfl, rfl, rfl⟩, rfl, rfl, rfl⟩, rfl, rfl, rfl⟩,
        den_digits (es := c :: es) (by simp) (fun d hd => he d (by simp [hd])), rfl, rfl, rfl⟩))
  · match es, hl, he with
    | [a, b], _, he =>
      unfold cardinalG
      rw [if_pos hs, if_neg (by simp [hz])]
      refine .inr ⟨[], [], 0, _, _, 0, .inl ⟨rfl, rfl, rfl⟩, ?_, rfl, rfl, rfl⟩
      exact .inl (.inl (.inl (.inl (.inl (.inl ⟨[_], [_], 0, _, _, 0, den_digit (he a (by simp)),
        den_digits (es := [b]) (by simp) (fun d hd => he d (by simp [hd])), rfl, rfl, rfl⟩)))))

theorem den_dot : dotG.den ['点'] ['.'] 0 := ⟨by decide, rfl⟩

theorem exactly_dotted (k : Config) {ds : List Nat} {ess : List (List Nat)} (h1 : ds ≠ []) (h2 : ∀ d ∈ ds, d ≠ 0 ∧ d < 10)
    (h3 : ess ≠ []) (h4 : ∀ es ∈ ess, es ≠ [] ∧ ∀ d ∈ es, d < 10) :
    Exactly (cardinalG k) (ds.map digitName ++ ess.flatMap fun es => '点' :: es.map digitName)
      (ds.map Nat.digitChar ++ ess.flatMap fun es => '.' :: es.map Nat.digitChar) := by
  refine exactly_letters k (dotted_mem h2 h4) ?_ ?_
  · rw [List.map_append, letF_names fun d hd => (h2 d hd).2]
    congr 1
    clear h3
    induction ess with
    | nil => rfl
    | cons es ess ih =>
      rw [List.flatMap_cons, List.flatMap_cons, List.map_append, List.map_cons, letF_names (h4 es (by simp)).2,
        ih fun e he => h4 e (by simp [he])]
      rfl
  · have part : ∀ {es : List Nat}, es ≠ [] ∧ (∀ d ∈ es, d < 10) →
        (dotG + digits.plus).den ('点' :: es.map digitName) ('.' :: es.map Nat.digitChar) 0 := fun h =>
      ⟨_, _, _, _, _, _, den_dot, den_digits h.1 h.2, rfl, rfl, rfl⟩
    have star : ∀ {ess : List (List Nat)}, (∀ es ∈ ess, es ≠ [] ∧ ∀ d ∈ es, d < 10) → Star (dotG + digits.plus).den
        (ess.flatMap fun es => '点' :: es.map digitName) (ess.flatMap fun es => '.' :: es.map Nat.digitChar) 0 := by
      intro ess h
      induction ess with
      | nil => exact .nil
      | cons es ess ih => exact Star.cons (part (h es (by simp))) (ih fun e he => h e (by simp [he]))
    have dig : ∀ {ds : List Nat}, (∀ d ∈ ds, d ≠ 0 ∧ d < 10) → Star digitG.den (ds.map digitName) (ds.map Nat.digitChar) 0 := by
      intro ds h
      have one : ∀ d < 10, d = 0 ∨ runsTo digitG [digitName d] [Nat.digitChar d] = true := by decide +kernel
      induction ds with
      | nil => exact .nil
      | cons d ds ih =>
        obtain ⟨h5, h6⟩ := h d (by simp)
        exact Star.cons ((exactly_run (by decide +kernel) ((one d h6).resolve_left h5) _ 0).2 ⟨rfl, rfl⟩)
          (ih fun e he => h e (by simp [he]))
    have plus : ∀ {g : G} {x y : Str} {w : W}, Star g.den x y w → x ≠ [] → g.plus.den x y w := by
      intro g x y w h hne
      cases h with
      | nil => exact absurd rfl hne
      | cons g1 g2 => exact ⟨_, _, _, _, _, _, g1, g2, rfl, rfl, rfl⟩
    refine den_base (.inl (.inl (.inl ⟨_, _, 0, _, _, 0, plus (dig h2) (by simpa using h1), plus (star h4) ?_, rfl, rfl, rfl⟩)))
    cases ess with
    | nil => exact absurd rfl h3
    | cons es ess => simp

theorem exactly_point (k : Config) {n : Nat} {es : List Nat} (hn : n < 10 ^ 8) (hne : es ≠ []) (he : ∀ d ∈ es, d < 10) :
    Exactly (cardinalG k) (japanese n ++ '点' :: es.map digitName) (digitsWith k.million n ++ '.' :: es.map Nat.digitChar) := by
  have key : Exactly (decimal k.million) (japanese n ++ '点' :: es.map digitName)
      (digitsWith k.million n ++ '.' :: es.map Nat.digitChar) := by
    intro y w
    have := C85_decimal k.million n hn es hne he [] [] (by decide) y w
    simpa using this
  by_cases h : n < 10
  · refine exactly_letters k ?_ ?_ (den_base (.inl (.inl (.inr ((key _ 0).2 ⟨rfl, rfl⟩)))))
    · rw [japanese_small h]
      have up : ∀ c ∈ t!"〇一二三四五六七八九", c ∈ t!"〇一二三四五六七八九点" := by decide
      intro c hc
      rcases List.mem_append.1 hc with hc | hc
      · rw [List.mem_singleton.1 hc]
        exact up _ (name_mem h)
      · rcases List.mem_cons.1 hc with rfl | hc
        · decide
        · exact up c (names_mem he c hc)
    · have e : digitsWith k.million n = [Nat.digitChar n] := by
        unfold digitsWith
        rw [if_pos (.inl (by omega)), Nat.toDigits_of_lt_base h]
      have := letF_names (es := [n]) (by simpa using h)
      have e2 : letF (digitName n) = Nat.digitChar n := (List.cons.inj this).1
      rw [e, japanese_small h, List.map_append, List.map_cons (a := '点'), letF_names he, List.map_cons, e2]
      rfl
  · obtain ⟨u, hu, hq⟩ := japanese_unit (by omega) (show n < 10 ^ 12 by omega)
    have hu' : u ∈ japanese n ++ '点' :: es.map digitName := List.mem_append_left _ hu
    have hp : '点' ∈ japanese n ++ '点' :: es.map digitName := by simp
    have hpa : ∀ c ∈ japanese n ++ '点' :: es.map digitName, c ∉ t!"パ" := by
      have hs := (Stands.point (standalone := true) (zeroToNine := true) (million := true) hn hne he).numc
      have : ∀ c ∈ numc, c ∉ t!"パ" := by decide
      exact fun c hc => this c (hs c hc)
    have hbase : Exactly (cardinalBase k.million) (japanese n ++ '点' :: es.map digitName)
        (digitsWith k.million n ++ '.' :: es.map Nat.digitChar) := by
      have m1 : ∀ m, must t!"パ" (percent m) = true := by decide +kernel
      refine Exactly.left (Exactly.left (Exactly.right ?_ key) ?_) ?_
      · exact never_shuns (q := t!"十百千万億") (by decide +kernel) hu' hq
      · exact never_shuns (q := t!"点") (by decide +kernel) hp (by simp)
      · exact never_must (m1 _) hpa
    unfold cardinalG
    have s1 : ∀ m, shuns t!"点" (number m ||| bigInteger) = true := by decide +kernel
    have s2 : ∀ m, shuns t!"点" (numberTwoPlus m) = true := by decide +kernel
    split
    · split
      · exact Exactly.left hbase (never_shuns (s1 _) hp (by simp))
      · exact Exactly.left hbase (never_shuns (s2 _) hp (by simp))
    · exact hbase

/-- Without a sign, the sign is left out. -/
theorem unsigned {g : G} {x y : Str} {w : W} (hx : ∀ c ∈ x, c ∉ signChars) : (signG.ques + g).den x y w ↔ g.den x y w := by
  constructor
  · rintro ⟨x₁, y₁, w₁, x₂, y₂, w₂, g1, g2, rfl, rfl, rfl⟩
    rcases den_ques.1 g1 with ⟨rfl, rfl, rfl⟩ | g1
    · rw [List.nil_append, List.nil_append, show (0 : W) + w₂ = w₂ from Int.zero_add _]; exact g2
    · exfalso
      have h2 : ∀ e ∈ sign, ∃ c ∈ e.1, c ∈ signChars := by decide
      obtain ⟨c, hc, hq⟩ := h2 _ (den_tab.1 g1).1
      exact hx c (List.mem_append_left _ hc) hq
  · intro h
    exact ⟨[], [], 0, x, y, w, .inl ⟨rfl, rfl, rfl⟩, h, rfl, rfl, (Int.zero_add _).symm⟩

theorem exactly_whole (k : Config) {n : Nat} (hs : k.standalone = true) (hz : k.zeroToNine = true ∨ 10 ≤ n) (hn : n < 10 ^ 12) :
    Exactly (cardinalG k) (japanese n) (digitsWith k.million n) := by
  have hc : ∀ {q : Str}, (∀ c ∈ t!"〇一二三四五六七八九十百千万億", c ∉ q) → ∀ c ∈ japanese n, c ∉ q :=
    fun h c hc => h c (japanese_chars hn c hc)
  have row : 10 ≤ n → Never (digits.pow 2 + digits.plus) (japanese n) := by
    intro h
    obtain ⟨u, hu, hq⟩ := japanese_unit h hn
    exact never_shuns (q := t!"十百千万億") (by decide +kernel) hu hq
  have hbase : Never (cardinalBase k.million) (japanese n) := by
    have m1 : ∀ m, must t!"パ" (percent m) = true := by decide +kernel
    have m2 : ∀ m, must t!"点" ((digitG.plus + (dotG + digits.plus).plus) ||| decimal m) = true := by decide +kernel
    refine Never.or (Never.or (never_must (m2 _) (hc (by decide))) ?_) (never_must (m1 _) (hc (by decide)))
    by_cases h : 10 ≤ n
    · exact row h
    · have : ∀ n < 10, ((digits.pow 2 + digits.plus).outputs (japanese n)).isEmpty = true := by decide +kernel
      exact never_run (by decide +kernel) (this n (by omega))
  unfold cardinalG
  rw [if_pos hs]
  split
  · refine Exactly.right hbase ?_
    intro y w
    have := C85_integer k.million n hn [] [] (by decide) y w
    simpa [anyInteger] using this
  · rename_i hz'
    have h10 : 10 ≤ n := hz.resolve_left hz'
    refine Exactly.right hbase ?_
    have hun : ∀ c ∈ japanese n, c ∉ signChars := japanese_unsigned hn
    obtain ⟨u, hu, hq⟩ := japanese_unit h10 hn
    have n1 : Never digits (japanese n) := never_shuns (q := t!"十百千万億") (by decide +kernel) hu hq
    have n2 : Never (digits + digits.plus) (japanese n) := never_shuns (q := t!"十百千万億") (by decide +kernel) hu hq
    intro y w
    rw [← exactly_body k.million hn y w]
    unfold numberTwoPlus
    rw [unsigned hun]
    have hb : bigInteger.den (japanese n) y w ↔ bigBody.den (japanese n) y w := unsigned hun
    simp only [den_or, hb, positiveInteger, tenThousandMinus, iff_false_intro (n1 y w), iff_false_intro (n2 y w), false_or]

end

/-! ### Who reads them -/

/-- Characters of the words beside numbers: every such word has one. -/
def wordy : Str := t!"つのはらイトラルロンヶー个人位個倍円冊分匹台名回囲対年度才方日時月本杯枚歳氏泊湖番畳目秒第箇紀結話負足週部階面馬"

theorem not_wordy {g : G} (hm : must wordy g = true) {x y : Str} {w : W} (hx : ∀ c ∈ x, c ∈ numc) (hd : g.den x y w) : False := by
  have : ∀ c ∈ numc, c ∉ wordy := by decide
  obtain ⟨c, hc, hq⟩ := must_den hm hd
  exact this c (hx c hc) hq

theorem must_date : ∀ h, must wordy (dateRule h).tagger = true := by decide +kernel
theorem must_fraction : ∀ h, must wordy (fractionRule h).tagger = true := by decide +kernel
theorem must_time : ∀ h, must wordy (timeRule h).tagger = true := by decide +kernel
theorem must_whitelist : ∀ h, must wordy (whitelistRule h).tagger = true := by decide +kernel
theorem must_math (k : Config) : must wordy (mathRule k).tagger = true :=
  every_config (P := fun k => must wordy (mathRule k).tagger) (by decide +kernel) k
theorem must_measure (k : Config) : must wordy (measureRule k).tagger = true :=
  every_config (P := fun k => must wordy (measureRule k).tagger) (by decide +kernel) k
theorem must_money (k : Config) : must wordy (moneyRule k).tagger = true :=
  every_config (P := fun k => must wordy (moneyRule k).tagger) (by decide +kernel) k
theorem must_ordinal (k : Config) : must wordy (ordinalRule k).tagger = true :=
  every_config (P := fun k => must wordy (ordinalRule k).tagger) (by decide +kernel) k

/-- The tagger reads a name as a cardinal or character by character. -/
theorem stands_tagger {k : Config} {x t : Str} {w : W} (hx : ∀ c ∈ x, c ∈ numc) (hd : (taggerU k).den x t w) :
    (∃ y w₀, (cardinalG k).den x y w₀ ∧ w₀ + 106000 = w ∧ t = write (valueTok t!"cardinal" x) ++ t!" ") ∨
    (∃ c, x = [c] ∧ t = write (charTok c) ++ [' '] ∧ w = 10000000) := by
  obtain ⟨s, hs, j, w₀, hj, h1, rfl⟩ := ((tagger_union _).2 _ (taggerUnion_eq k) x t w).1 hd
  simp only [rules, List.mem_cons, List.not_mem_nil, or_false] at hs
  rcases hs with rfl | rfl | rfl | rfl | rfl | rfl | rfl | rfl | rfl | rfl
  · cases hj
    obtain ⟨m, rfl, h2⟩ := den_addTokens.1 h1
    obtain ⟨rfl, _, z, h3⟩ := den_tagField.1 h2
    have h4 := (den_pre.1 h3).2
    rw [map_numc hx] at h4
    refine .inl ⟨z, w₀, h4, rfl, ?_⟩
    rw [write_valueTok]; simp
  · cases hj
    obtain ⟨m, rfl, h2⟩ := den_addTokens.1 h1
    obtain ⟨rfl, _, z, h3⟩ := den_tagField.1 h2
    obtain ⟨c, _, hc, _, rfl⟩ := (den_pre.1 h3).2
    obtain ⟨d, rfl, _⟩ := List.map_eq_singleton_iff.1 hc
    exact .inr ⟨d, rfl, by simp [write, charTok], by decide⟩
  · exact (not_wordy (must_date _) hx h1).elim
  · exact (not_wordy (must_fraction _) hx h1).elim
  · exact (not_wordy (must_math _) hx h1).elim
  · exact (not_wordy (must_measure _) hx h1).elim
  · exact (not_wordy (must_money _) hx h1).elim
  · exact (not_wordy (must_ordinal _) hx h1).elim
  · exact (not_wordy (must_time _) hx h1).elim
  · exact (not_wordy (must_whitelist _) hx h1).elim

/-- Every token costs at least as much as one of the whitelist. -/
theorem tag_ge (k : Config) {u t : Str} {w : W} (hd : (taggerU k).den u t w) : (101000 : Int) ≤ w := by
  obtain ⟨s, hs, j, w₀, hj, h1, rfl⟩ := ((tagger_union _).2 _ (taggerUnion_eq k) u t w).1 hd
  have key : ∀ a b : Int, 0 ≤ a → 101000 ≤ b → 101000 ≤ a + b := by intros; omega
  have all : ∀ k, ((rules k).all fun s => costs s.rule.tagger && (s.taggerWeight.any fun j => decide ((101000 : Int) ≤ j))) = true :=
    every_config (by decide +kernel)
  have h2 := List.all_eq_true.1 (all k) s hs
  rw [Bool.and_eq_true, hj] at h2
  exact key w₀ j (costs_den h2.1 h1) (by simpa using h2.2)

/-- The token of a number. -/
def cardTok (x : Str) : Tok := valueTok t!"cardinal" x

theorem vtext_numc {x : Str} (h : ∀ c ∈ x, c ∈ numc) : VText x := by
  have : ∀ c ∈ numc, vchar c = true := by decide
  exact fun c hc => this c (h c hc)

theorem esc_numc {x : Str} (h : ∀ c ∈ x, c ∈ numc) : esc x = x := by
  have h1 : '"' ∉ numc ∧ '\\' ∉ numc := by decide
  exact esc_bare (fun hc => h1.1 (h _ hc)) (fun hc => h1.2 (h _ hc))

theorem den_cardinal {k : Config} {x y : Str} {w : W} (hx : ∀ c ∈ x, c ∈ numc) :
    (cardinal k).den x y w ↔ (cardinalG k).den x y w := by
  unfold cardinal
  rw [den_pre, map_numc hx]
  exact ⟨fun h => h.2, fun h => ⟨vtext_numc hx, h⟩⟩

theorem verb_cardinal (k : Config) {x y : Str} {w : W} (hx : ∀ c ∈ x, c ∈ numc) :
    (verbalizerU k).den (write (cardTok x)) y w ↔ (cardinalG k).den x y w := by
  have here : ∀ {m : Str} {g : G}, ' ' ∉ m → (deleteTokens m g).den (write (cardTok x)) y w → m = t!"cardinal" :=
    fun hm h => ((delete_write (by decide) hm).1 h).1
  have own : (cardinalRule k).verbalizer.den (write (cardTok x)) y w ↔ (cardinalG k).den x y w := by
    refine (delete_write (by decide) (by decide)).trans ?_
    rw [List.flatMap_nil, List.append_nil, ← den_cardinal hx]
    simp only [true_and]
    have := verbalize_tagged t!"value" (cardinal k) x y w (vtext_numc hx)
    simpa [fieldT] using this
  rw [(verbalizer_union _).2 _ (verbalizerUnion_eq k)]
  constructor
  · rintro ⟨s, hs, _, h1⟩
    simp only [rules, List.mem_cons, List.not_mem_nil, or_false] at hs
    rcases hs with rfl | rfl | rfl | rfl | rfl | rfl | rfl | rfl | rfl | rfl
    · exact own.1 h1
    all_goals exact absurd (here (by decide) h1) (by decide)
  · intro h
    exact ⟨⟨cardinalRule k, some 106000, true⟩, by simp [rules], rfl, own.2 h⟩

theorem spoken_one {vu : G} {k : Tok} {y : Str} {w : W} (h : Spoken vu [k] y w) : vu.den (write k) y w := by
  cases h with
  | @cons _ _ y z w v h1 h2 =>
    cases h2
    rw [List.append_nil, show w + (0 : W) = w from Int.add_zero _]
    exact h1

/-- A name that is written in digits. -/
theorem winner_exactly {k : Config} {p : Pipeline W} (hp : Piped p tokenOrders (taggerU k) (verbalizerU k)) {x y z : Str}
    (hx : ∀ c ∈ x, c ∈ numc) (hne : x ≠ []) (he : Exactly (cardinalG k) x y) : Winner p x z ↔ z = y := by
  have hv := vtext_numc hx
  have htag : (taggerU k).den x (write (cardTok x) ++ t!" ") 106000 := by
    have h1 : (cardinalRule k).tagger.den x (write (cardTok x) ++ t!" ") 0 := by
      refine den_addTokens.2 ⟨_, ?_, den_tagField.2 ⟨rfl, hv, y, (den_cardinal hx).2 ((he y 0).2 ⟨rfl, rfl⟩)⟩⟩
      rw [cardTok, write_valueTok]
      simp
    exact tag_union (taggerUnion_eq k) (s := ⟨cardinalRule k, some 106000, true⟩) (by simp [rules]) rfl h1
  have hb : Best (taggerU k) x [cardTok x] 106000 := by
    refine best_single hne (a := 101000) (by decide) (by decide) htag (fun _ _ _ h => tag_ge k h) fun t w h hw => ?_
    rcases stands_tagger hx h with ⟨y', w₀, h1, rfl, rfl⟩ | ⟨c, _, _, rfl⟩
    · obtain ⟨_, rfl⟩ := (he _ _).1 h1
      exact ⟨rfl, by decide⟩
    · exact absurd hw (by decide)
  have hwr : Writable (cardTok x) := writable_value (by decide)
  have hr : reord tokenOrders [cardTok x] = [cardTok x] := by
    simp only [reord, List.map_cons, List.map_nil]
    rw [Verif.Token.chosenFields_exempt hwr.2.2 (.inl (show tokenOrders t!"cardinal" = none by decide))]
  refine best_winner hp hne hb ?_ ?_ ?_ ?_
  · have : spaced [cardTok x] = t!"cardinal { value: \"" ++ x ++ t!"\" } " := by
      simp [spaced, cardTok, write_valueTok, esc_numc hx]
    rw [this]
    intro c hc
    simp only [List.mem_append] at hc
    rcases hc with (hc | hc) | hc
    · revert c; decide
    · exact hv c hc
    · revert c; decide
  · intro t ht
    rw [List.mem_singleton.1 ht]
    exact hwr
  · rw [hr]
    refine ⟨0 + 0, ?_⟩
    have : Spoken (verbalizerU k) [cardTok x] (y ++ []) (0 + 0) :=
      .cons ((verb_cardinal k hx).2 ((he y 0).2 ⟨rfl, rfl⟩)) .nil
    rwa [List.append_nil] at this
  · rw [hr]
    intro z v h
    exact ((he _ _).1 ((verb_cardinal k hx).1 (spoken_one h))).1

/-- A digit that is left as it is. -/
theorem never_small (k : Config) {n : Nat} (hk : k.standalone = false ∨ k.zeroToNine = false) (hn : n < 10) :
    Never (cardinalG k) [digitName n] := by
  have h1 : ∀ s z m, s = false ∨ z = false → ∀ n < 10, ((cardinalG ⟨false, s, z, m⟩).outputs [digitName n]).isEmpty = true := by
    decide +kernel
  have h2 : ∀ s z m, (cardinalG ⟨false, s, z, m⟩).ok = true := by decide +kernel
  exact never_run (h2 k.standalone k.zeroToNine k.million) (h1 k.standalone k.zeroToNine k.million hk n hn)

theorem never_small_nil (k : Config) : Never (cardinalG k) [] := by
  have h1 : ∀ s z m, ((cardinalG ⟨false, s, z, m⟩).outputs []).isEmpty = true := by decide +kernel
  have h2 : ∀ s z m, (cardinalG ⟨false, s, z, m⟩).ok = true := by decide +kernel
  exact never_run (h2 k.standalone k.zeroToNine k.million) (h1 k.standalone k.zeroToNine k.million)

/-- A name by itself. -/
theorem winner_stands {k : Config} {p : Pipeline W} (hp : Piped p tokenOrders (taggerU k) (verbalizerU k)) {x y z : Str}
    (hs : Stands k.standalone k.zeroToNine k.million x y) : Winner p x z ↔ z = y := by
  have hx := hs.numc
  have hne : x ≠ [] := by
    obtain ⟨c, r, rfl, _⟩ := hs.first
    simp
  cases hs with
  | whole h1 h2 h3 => exact winner_exactly hp hx hne (exactly_whole k h1 h2 h3)
  | @small n h1 h2 =>
    rw [japanese_small h2] at hx ⊢
    rw [winner_plain hp (fallback k) (onlyChar k) (vtext_numc hx) (by simp) ?_]
    · rw [List.flatMap_cons, List.flatMap_nil, List.append_nil, half_numc _ _ (hx (digitName n) (by simp))]
    · intro u hu t w hd
      have hlen : u.length ≤ 1 := by simpa using hu.length_le
      rcases stands_tagger (fun c hc => hx c (hu.mem hc)) hd with ⟨y', w₀, h3, _, _⟩ | ⟨c, rfl, h3, _⟩
      · exfalso
        cases u with
        | nil =>
          exact never_small_nil k _ _ h3
        | cons c u =>
          have : u = [] := by
            cases u with
            | nil => rfl
            | cons => simp at hlen
          subst this
          have hc : c = digitName n := by simpa using hu.mem (List.mem_singleton_self c)
          rw [hc] at h3
          exact never_small k h1 h2 _ _ h3
      · exact ⟨c, rfl, h3⟩
  | row h1 h2 => exact winner_exactly hp hx hne (exactly_row k h1 h2)
  | point h1 h2 h3 => exact winner_exactly hp hx hne (exactly_point k h1 h2 h3)
  | dotted h1 h2 h3 h4 => exact winner_exactly hp hx hne (exactly_dotted k h1 h2 h3 h4)

end Verif.JaItn
