import Verif.Wfst.Props
import Verif.Wfst.Spec

/-
Taggers write tokens: the outputs of a tagger are written tokens, each followed by a space, whose
values are pieces of the input in order. The paths of a tagger are cut into inserted text, quoted
fields and dropped text; a decidable check on these paths gives the property for all inputs.
-/

namespace Verif.Wfst

open Verif.Token.Spec (esc write writeAll Tok Writable IsName Distinct)
open Spec (Quoted quotes values orderMarker)

/-- A step of a tagger: insert text, quote a field, drop a literal. -/
inductive Atom where
  | ins (s : Str)
  | fld
  | skip (s : Str)
  deriving DecidableEq

/-- The texts read and written along a path. -/
inductive Fills : List Atom → Str → Str → Prop
  | nil : Fills [] [] []
  | ins {s as x t} : Fills as x t → Fills (.ins s :: as) x (s ++ t)
  | fld {v as x t} : VText v → Fills as x t → Fills (.fld :: as) (v ++ x) (esc v ++ t)
  | skip {s as x t} : Fills as x t → Fills (.skip s :: as) (s ++ x) t

theorem Fills.append {p q x t x' t'} (h : Fills p x t) (h' : Fills q x' t') :
    Fills (p ++ q) (x ++ x') (t ++ t') := by
  induction h with
  | nil => exact h'
  | ins _ ih => rw [List.append_assoc]; exact .ins ih
  | fld hv _ ih => rw [List.append_assoc, List.append_assoc]; exact .fld hv ih
  | skip _ ih => rw [List.append_assoc]; exact .skip ih

/-- Every path of the grammar is one of the listed ones. -/
def Flat (g : G) (A : List (List Atom)) : Prop :=
  ∀ x t w, g.den x t w → ∃ p ∈ A, Fills p x t

theorem flat_insert {v : Str} : Flat (insert v) [[.ins v]] := by
  intro x t w h
  obtain ⟨rfl, rfl, _⟩ := den_insert.1 h
  exact ⟨_, List.mem_singleton.2 rfl, by simpa using Fills.ins (s := t) Fills.nil⟩

theorem flat_del {s : Str} : Flat (del s) [[.skip s]] := by
  intro x t w h
  obtain ⟨rfl, rfl, _⟩ := den_del.1 h
  exact ⟨_, List.mem_singleton.2 rfl, by simpa using Fills.skip (s := x) Fills.nil⟩

theorem flat_tagField {n : Str} {g : G} :
    Flat (tagField n g) [[.ins (n ++ t!": \""), .fld, .ins t!"\""]] := by
  intro x t w h
  obtain ⟨rfl, hv, _⟩ := den_tagField.1 h
  refine ⟨_, List.mem_singleton.2 rfl, ?_⟩
  have := Fills.ins (s := n ++ t!": \"") (.fld hv (.ins (s := t!"\"") .nil))
  simpa using this

theorem flat_char : Flat CHAR [[.fld]] := by
  intro x t w h
  obtain ⟨rfl, _, hv⟩ := den_CHAR_star.1 (show (G.star CHAR).den x t w from Star.one h)
  exact ⟨_, List.mem_singleton.2 rfl, by simpa using Fills.fld hv .nil⟩

theorem flat_nil : Flat (.lit []) [[]] := by
  intro x t w h
  obtain ⟨rfl, rfl, _⟩ := h
  exact ⟨_, List.mem_singleton.2 rfl, .nil⟩

theorem esc_plain {s : Str} (h : s.all plainChar = true) : esc s = s := by
  induction s with
  | nil => rfl
  | cons c s ih =>
    simp only [List.all_cons, Bool.and_eq_true] at h
    have := (plainChar_iff.1 h.1).2
    rw [esc_cons, if_neg this, ih h.2]; rfl

theorem flat_lit {s : Str} (h : s.all plainChar = true) : Flat (.lit s) [[.fld]] := by
  intro x t w hd
  obtain ⟨rfl, rfl, _⟩ := hd
  refine ⟨_, List.mem_singleton.2 rfl, ?_⟩
  have hv : VText t := fun c hc => (plainChar_iff.1 (List.all_eq_true.1 h c hc)).1
  have := Fills.fld hv .nil
  rw [esc_plain h] at this
  simpa using this

/-- All concatenations of a path of `A` and a path of `B`. -/
def paths (A B : List (List Atom)) : List (List Atom) := A.flatMap fun p => B.map fun q => p ++ q

theorem flat_add {a b : G} {A B} (ha : Flat a A) (hb : Flat b B) : Flat (a + b) (paths A B) := by
  rintro x t w ⟨x₁, y₁, w₁, x₂, y₂, w₂, h1, h2, rfl, rfl, rfl⟩
  obtain ⟨p, hp, h1⟩ := ha _ _ _ h1
  obtain ⟨q, hq, h2⟩ := hb _ _ _ h2
  exact ⟨p ++ q, List.mem_flatMap.2 ⟨p, hp, List.mem_map.2 ⟨q, hq, rfl⟩⟩, h1.append h2⟩

theorem flat_or {a b : G} {A B} (ha : Flat a A) (hb : Flat b B) : Flat (a ||| b) (A ++ B) := by
  rintro x t w (h | h)
  · obtain ⟨p, hp, h⟩ := ha _ _ _ h
    exact ⟨p, List.mem_append_left _ hp, h⟩
  · obtain ⟨p, hp, h⟩ := hb _ _ _ h
    exact ⟨p, List.mem_append_right _ hp, h⟩

theorem flat_ques {a : G} {A} (ha : Flat a A) : Flat a.ques ([] :: A) := by
  rintro x t w (h | h)
  · obtain ⟨rfl, rfl, _⟩ := h
    exact ⟨_, List.mem_cons_self, .nil⟩
  · obtain ⟨p, hp, h⟩ := ha _ _ _ h
    exact ⟨p, List.mem_cons_of_mem _ hp, h⟩

theorem flat_wt {a : G} {A k} (ha : Flat a A) : Flat (.wt a k) A := by
  rintro x t w ⟨w₀, h, _⟩
  exact ha _ _ _ h

theorem flat_addTokens {n : Str} {a : G} {A} (ha : Flat a A) :
    Flat (addTokens n a) (paths (paths [[.ins (n ++ t!" { ")]] A) [[.ins t!" } "]]) :=
  flat_add (flat_add flat_insert ha) flat_insert

/-- Splits a tagger into its paths. -/
macro "flat" : tactic => `(tactic| repeat' first
  | exact flat_tagField | exact flat_char | exact flat_insert | exact flat_del | exact flat_nil
  | exact flat_lit (by decide +kernel)
  | apply flat_addTokens | apply flat_ques | apply flat_wt | apply flat_add | apply flat_or)

/-! ### Checking the paths -/

/-- The written text with a hole for each quoted field. -/
abbrev Pat := List (Option Char)

def Atom.pat : Atom → Pat
  | .ins s => s.map some
  | .fld => [none]
  | .skip _ => []

/-- Puts the escaped texts into the holes. -/
def fill : Pat → List Str → Str
  | [], _ => []
  | some c :: p, vs => c :: fill p vs
  | none :: p, [] => fill p []
  | none :: p, v :: vs => esc v ++ fill p vs

def holes (p : Pat) : Nat := (p.filter Option.isNone).length

theorem fill_map (s : Str) (p : Pat) (vs : List Str) : fill (s.map some ++ p) vs = s ++ fill p vs := by
  induction s with
  | nil => rfl
  | cons c s ih => simp [fill, ih]

theorem holes_map (s : Str) : holes (s.map some) = 0 := by
  induction s with
  | nil => rfl
  | cons c s ih => simpa [holes] using ih

theorem holes_append (p q : Pat) : holes (p ++ q) = holes p + holes q := by simp [holes]

theorem fill_append (p q : Pat) (vs us : List Str) (h : holes p = vs.length) :
    fill (p ++ q) (vs ++ us) = fill p vs ++ fill q us := by
  induction p generalizing vs with
  | nil =>
    have : vs = [] := List.length_eq_zero_iff.1 (by simpa [holes] using h.symm)
    subst this; rfl
  | cons o p ih =>
    cases o with
    | some c =>
      have h' : holes p = vs.length := by simpa [holes] using h
      simp [fill, ih vs h']
    | none =>
      cases vs with
      | nil => simp [holes] at h
      | cons v vs =>
        have h' : holes p = vs.length := by simpa [holes] using h
        simp [fill, ih vs h']

/-- A token with its field names; the value is quoted from the input or fixed. -/
structure Shape where
  name : Str
  fields : List (Str × Option Str)
  deriving DecidableEq

def valuePat : Option Str → Pat
  | none => [none]
  | some s => (esc s).map some

def fieldPat (f : Str × Option Str) : Pat :=
  (t!" " ++ f.1 ++ t!": \"").map some ++ valuePat f.2 ++ (t!"\"").map some

def Shape.pat (s : Shape) : Pat :=
  (s.name ++ t!" {").map some ++ s.fields.flatMap fieldPat ++ (t!" } ").map some

/-- The fields with the quoted texts put in. -/
def fillFields : List (Str × Option Str) → List Str → List (Str × Str)
  | [], _ => []
  | (k, some s) :: fs, vs => (k, s) :: fillFields fs vs
  | (k, none) :: fs, [] => (k, []) :: fillFields fs []
  | (k, none) :: fs, v :: vs => (k, v) :: fillFields fs vs

/-- Fixed values are markers; quoted fields have other names. -/
def fieldOk (ms : List (Str × Str)) (f : Str × Option Str) : Bool :=
  match f.2 with
  | none => !decide (f.1 ∈ ms.map Prod.fst)
  | some s => decide ((f.1, s) ∈ ms)

def Shape.ok (ms : List (Str × Str)) (s : Shape) : Bool :=
  decide (IsName s.name) && s.fields.all (fun f => decide (IsName f.1) && fieldOk ms f) &&
    decide (s.fields.map Prod.fst).Nodup

theorem fillFields_names (fs : List (Str × Option Str)) (vs : List Str) :
    (fillFields fs vs).map Prod.fst = fs.map Prod.fst := by
  induction fs generalizing vs with
  | nil => rfl
  | cons f fs ih =>
    obtain ⟨k, o⟩ := f
    cases o with
    | some s => simp [fillFields, ih]
    | none => cases vs <;> simp [fillFields, ih]

theorem holes_fields_cons (k : Str) (o : Option Str) (fs : List (Str × Option Str)) :
    holes ((k, o) :: fs |>.flatMap fieldPat) = (if o = none then 1 else 0) + holes (fs.flatMap fieldPat) := by
  rw [List.flatMap_cons, holes_append]
  congr 1
  unfold fieldPat
  rw [holes_append, holes_append, holes_map, holes_map]
  cases o with
  | none => rfl
  | some s => simp [valuePat, holes_map]

/-- The quoted values of the filled fields are the texts put in. -/
theorem fillFields_values {ms : List (Str × Str)} (fs : List (Str × Option Str)) (vs : List Str)
    (hok : fs.all (fieldOk ms) = true) (h : holes (fs.flatMap fieldPat) = vs.length) (n : Str) :
    quotes ms ⟨n, fillFields fs vs⟩ = vs := by
  unfold quotes
  simp only
  induction fs generalizing vs with
  | nil =>
    have : vs = [] := List.length_eq_zero_iff.1 (by simpa [holes] using h.symm)
    subst this; rfl
  | cons f fs ih =>
    obtain ⟨k, o⟩ := f
    rw [holes_fields_cons] at h
    simp only [List.all_cons, Bool.and_eq_true] at hok
    cases o with
    | some s =>
      have hk : (k, s) ∈ ms := of_decide_eq_true hok.1
      have h' : holes (fs.flatMap fieldPat) = vs.length := by simpa using h
      simp only [fillFields]
      rw [List.filter_cons_of_neg (by rw [decide_eq_true hk]; decide)]
      exact ih vs hok.2 h'
    | none =>
      cases vs with
      | nil => simp at h
      | cons v vs =>
        have hk : k ∉ ms.map Prod.fst := by
          have := hok.1
          simp only [fieldOk, Bool.not_eq_true', decide_eq_false_iff_not] at this
          exact this
        have h' : holes (fs.flatMap fieldPat) = vs.length := by
          simp only [if_true, List.length_cons] at h; omega
        have hne : (k, v) ∉ ms := fun he => hk (List.mem_map_of_mem (f := Prod.fst) he)
        simp only [fillFields]
        rw [List.filter_cons_of_pos (by rw [decide_eq_false hne]; rfl), List.map_cons, ih vs hok.2 h']

theorem fill_fields (fs : List (Str × Option Str)) (vs : List Str)
    (h : holes (fs.flatMap fieldPat) = vs.length) :
    fill (fs.flatMap fieldPat) vs = (fillFields fs vs).flatMap
      (fun f => " ".toList ++ f.1 ++ ": \"".toList ++ esc f.2 ++ "\"".toList) := by
  induction fs generalizing vs with
  | nil => rfl
  | cons f fs ih =>
    obtain ⟨k, o⟩ := f
    rw [holes_fields_cons] at h
    cases o with
    | some s =>
      have h' : holes (fs.flatMap fieldPat) = vs.length := by simpa using h
      simp only [fillFields, List.flatMap_cons, fieldPat, valuePat, List.append_assoc]
      rw [fill_map, fill_map, fill_map, ih vs h']
      simp
    | none =>
      cases vs with
      | nil => simp at h
      | cons v vs =>
        have h' : holes (fs.flatMap fieldPat) = vs.length := by
          simp only [if_true, List.length_cons] at h; omega
        simp only [fillFields, List.flatMap_cons, fieldPat, valuePat, List.append_assoc]
        rw [fill_map, show ∀ q : Pat, fill ([none] ++ q) (v :: vs) = esc v ++ fill q vs
          from fun _ => rfl, fill_map, ih vs h']
        simp

/-- The tokens with the quoted texts put in. -/
def fillToks : List Shape → List Str → List Tok
  | [], _ => []
  | s :: ss, vs =>
    let n := holes (s.fields.flatMap fieldPat)
    ⟨s.name, fillFields s.fields (vs.take n)⟩ :: fillToks ss (vs.drop n)

theorem holes_shape (s : Shape) : holes s.pat = holes (s.fields.flatMap fieldPat) := by
  unfold Shape.pat
  rw [holes_append, holes_append, holes_map, holes_map]; omega

/-- Written tokens, each followed by a space. -/
def spaced (ks : List Tok) : Str := ks.flatMap fun k => write k ++ t!" "

theorem fill_toks (ss : List Shape) (vs : List Str) (h : holes (ss.flatMap Shape.pat) = vs.length) :
    fill (ss.flatMap Shape.pat) vs = spaced (fillToks ss vs) := by
  induction ss generalizing vs with
  | nil => rfl
  | cons s ss ih =>
    rw [List.flatMap_cons, holes_append, holes_shape] at h
    set n := holes (s.fields.flatMap fieldPat) with hn
    have hv : vs = vs.take n ++ vs.drop n := (List.take_append_drop _ _).symm
    have h1 : n = (vs.take n).length := by rw [List.length_take]; omega
    rw [List.flatMap_cons]
    conv_lhs => rw [hv]
    rw [fill_append _ _ _ _ (by rw [holes_shape]; omega), ih _ (by rw [List.length_drop]; omega)]
    simp only [fillToks, spaced, List.flatMap_cons]
    congr 1
    unfold Shape.pat
    rw [List.append_assoc, fill_map, show vs.take n = vs.take n ++ [] by simp,
      fill_append _ _ _ _ (by rw [← hn]; simpa using h1), fill_fields _ _ (by rw [← hn]; exact h1),
      show ((t!" } ").map some : Pat) = (t!" } ").map some ++ [] by rfl, fill_map]
    simp [write, fill, ← hn]

theorem fillToks_values {ms : List (Str × Str)} (ss : List Shape) (vs : List Str)
    (hok : ∀ s ∈ ss, s.ok ms = true) (h : holes (ss.flatMap Shape.pat) = vs.length) :
    (fillToks ss vs).flatMap (quotes ms) = vs := by
  induction ss generalizing vs with
  | nil =>
    have : vs = [] := List.length_eq_zero_iff.1 (by simpa [holes] using h.symm)
    subst this; rfl
  | cons s ss ih =>
    rw [List.flatMap_cons, holes_append, holes_shape] at h
    set n := holes (s.fields.flatMap fieldPat) with hn
    have hs := hok s (by simp)
    simp only [Shape.ok, Bool.and_eq_true] at hs
    simp only [fillToks, List.flatMap_cons]
    rw [ih _ (fun s hs => hok s (by simp [hs])) (by rw [← hn, List.length_drop]; omega),
      fillFields_values _ _ _ (by rw [← hn, List.length_take]; omega), ← hn, List.take_append_drop]
    rw [List.all_eq_true]
    intro f hf
    have := List.all_eq_true.1 hs.1.2 f hf
    rw [Bool.and_eq_true] at this
    exact this.2

theorem fillToks_writable {ms : List (Str × Str)} (ss : List Shape) (vs : List Str)
    (hok : ∀ s ∈ ss, s.ok ms = true) :
    ∀ k ∈ fillToks ss vs, Writable k := by
  induction ss generalizing vs with
  | nil => simp [fillToks]
  | cons s ss ih =>
    intro k hk
    rcases List.mem_cons.1 hk with rfl | hk
    · have hs := hok s (by simp)
      simp only [Shape.ok, Bool.and_eq_true, decide_eq_true_eq] at hs
      refine ⟨hs.1.1, ?_, ?_⟩
      · intro f hf
        have : f.1 ∈ s.fields.map Prod.fst := by
          rw [← fillFields_names]; exact List.mem_map_of_mem hf
        obtain ⟨f', hf', he⟩ := List.mem_map.1 this
        have := List.all_eq_true.1 hs.1.2 f' hf'
        simp only [Bool.and_eq_true, decide_eq_true_eq] at this
        rw [← he]; exact this.1
      · show ((fillFields _ _).map Prod.fst).Nodup
        rw [fillFields_names]; exact hs.2
    · exact ih _ (fun s hs => hok s (by simp [hs])) k hk

/-- The text of a pattern up to a character. -/
def untilChar (c : Char) : Pat → Str × Pat
  | [] => ([], [])
  | none :: p => ([], p)
  | some d :: p => if d = c then ([], p) else let r := untilChar c p; (d :: r.1, r.2)

/-- Reads fields and tokens off a pattern; the result is only used after comparing its pattern. -/
def guessFields : Nat → Pat → List (Str × Option Str) × Pat
  | 0, p => ([], p)
  | n + 1, p =>
    match p with
    | some ' ' :: some '}' :: some ' ' :: p => ([], p)
    | some ' ' :: p =>
      let (k, p) := untilChar ':' p
      match p with
      | some ' ' :: some '"' :: none :: some '"' :: p =>
        let (fs, p) := guessFields n p; ((k, none) :: fs, p)
      | some ' ' :: some '"' :: p =>
        let (v, p) := untilChar '"' p
        let (fs, p) := guessFields n p; ((k, some v) :: fs, p)
      | p => ([], p)
    | p => ([], p)

def guess : Nat → Pat → List Shape
  | 0, _ => []
  | _, [] => []
  | n + 1, p =>
    let (name, p) := untilChar ' ' p
    let (fs, p) := guessFields p.length (p.drop 1)
    ⟨name, fs⟩ :: guess n p

def Atom.sepOk (sep : Char → Bool) : Atom → Bool
  | .skip s => s.all sep
  | _ => true

/-- The check on one path. -/
def pathOkBut (ms : List (Str × Str)) (sep : Char → Bool) (p : List Atom) : Bool :=
  let pat := p.flatMap Atom.pat
  let ss := guess pat.length pat
  decide (ss.flatMap Shape.pat = pat) && ss.all (Shape.ok ms) && !ss.isEmpty && p.all (Atom.sepOk sep)

/-- The check on one path, with `preserve_order` as the only marker. -/
abbrev pathOk (sep : Char → Bool) (p : List Atom) : Bool := pathOkBut orderMarker sep p

/-- Text of separator characters. -/
def Seps (sep : Char → Bool) (s : Str) : Prop := ∀ c ∈ s, sep c = true

theorem Quoted.append {sep : Char → Bool} {vs us x y} (h : Quoted (Seps sep) vs x)
    (h' : Quoted (Seps sep) us y) : Quoted (Seps sep) (vs ++ us) (x ++ y) := by
  induction h with
  | @done s hs =>
    cases h' with
    | done hs' =>
      refine .done ?_
      intro c hc
      rcases List.mem_append.1 hc with hc | hc
      · exact hs c hc
      · exact hs' c hc
    | next hs' hq =>
      rw [← List.append_assoc]
      refine .next ?_ hq
      intro c hc
      rcases List.mem_append.1 hc with hc | hc
      · exact hs c hc
      · exact hs' c hc
  | next hs _ ih =>
    simp only [List.append_assoc, List.cons_append]
    exact .next hs ih

theorem Fills.fill {sep : Char → Bool} {p x t} (h : Fills p x t) (hs : p.all (Atom.sepOk sep) = true) :
    ∃ vs, holes (p.flatMap Atom.pat) = vs.length ∧ t = Wfst.fill (p.flatMap Atom.pat) vs ∧
      Quoted (Seps sep) vs x := by
  have hnil : Seps sep [] := by intro c hc; cases hc
  induction h with
  | nil => exact ⟨[], rfl, rfl, .done hnil⟩
  | @ins s as x t _ ih =>
    simp only [List.all_cons, Bool.and_eq_true] at hs
    obtain ⟨vs, h1, h2, h3⟩ := ih hs.2
    refine ⟨vs, ?_, ?_, h3⟩
    · rw [List.flatMap_cons, holes_append, Atom.pat, holes_map, h1]; omega
    · rw [List.flatMap_cons, Atom.pat, fill_map, ← h2]
  | @fld v as x t _ _ ih =>
    simp only [List.all_cons, Bool.and_eq_true] at hs
    obtain ⟨vs, h1, h2, h3⟩ := ih hs.2
    refine ⟨v :: vs, ?_, ?_, .next (s := []) hnil h3⟩
    · rw [List.flatMap_cons, holes_append, Atom.pat, h1, List.length_cons]
      simp [holes]; omega
    · rw [List.flatMap_cons, Atom.pat, List.singleton_append, Wfst.fill, ← h2]
  | @skip s as x t _ ih =>
    simp only [List.all_cons, Bool.and_eq_true] at hs
    obtain ⟨vs, h1, h2, h3⟩ := ih hs.2
    have : Seps sep s := List.all_eq_true.1 hs.1
    refine ⟨vs, by simpa [Atom.pat] using h1, by simpa [Atom.pat] using h2, ?_⟩
    simpa using Quoted.append (.done this) h3

/-- The outputs of a grammar are tokens, each followed by a space, that quote the input. -/
def TokensBut (ms : List (Str × Str)) (sep : Char → Bool) (g : G) : Prop :=
  ∀ x t w, g.den x t w → ∃ ks : List Tok, ks ≠ [] ∧ t = spaced ks ∧ (∀ k ∈ ks, Writable k) ∧
    Quoted (Seps sep) (ks.flatMap (quotes ms)) x

/-- The same with `preserve_order` as the only marker. -/
abbrev Tokens (sep : Char → Bool) (g : G) : Prop := TokensBut orderMarker sep g

theorem Flat.tokens {ms} {g : G} {A} {sep : Char → Bool} (h : Flat g A)
    (hA : A.all (pathOkBut ms sep) = true) : TokensBut ms sep g := by
  intro x t w hd
  obtain ⟨p, hp, hf⟩ := h _ _ _ hd
  have hc := List.all_eq_true.1 hA p hp
  simp only [pathOkBut, Bool.and_eq_true, decide_eq_true_eq] at hc
  generalize guess _ _ = ss at hc
  obtain ⟨⟨⟨hss, hok⟩, hne⟩, hsep⟩ := hc
  obtain ⟨vs, h1, h2, h3⟩ := hf.fill hsep
  rw [← hss] at h1 h2
  have hok' := List.all_eq_true.1 hok
  refine ⟨fillToks ss vs, ?_, ?_, fillToks_writable ss vs hok', ?_⟩
  · cases ss with
    | nil => simp at hne
    | cons s ss => simp [fillToks]
  · rw [h2, fill_toks ss vs h1]
  · rw [fillToks_values ss vs hok' h1]; exact h3

theorem TokensBut.add {ms} {sep : Char → Bool} {a b : G} (ha : TokensBut ms sep a) (hb : TokensBut ms sep b) :
    TokensBut ms sep (a + b) := by
  rintro x t w ⟨x₁, y₁, w₁, x₂, y₂, w₂, h1, h2, rfl, rfl, rfl⟩
  obtain ⟨ks, h11, rfl, h13, h14⟩ := ha _ _ _ h1
  obtain ⟨ls, h21, rfl, h23, h24⟩ := hb _ _ _ h2
  refine ⟨ks ++ ls, by simp [h11], by simp [spaced], ?_, ?_⟩
  · intro k hk
    rcases List.mem_append.1 hk with hk | hk
    · exact h13 k hk
    · exact h23 k hk
  · rw [List.flatMap_append]; exact Quoted.append h14 h24

theorem TokensBut.or {ms} {sep : Char → Bool} {a b : G} (ha : TokensBut ms sep a) (hb : TokensBut ms sep b) :
    TokensBut ms sep (a ||| b) := by
  rintro x t w (h | h)
  · exact ha _ _ _ h
  · exact hb _ _ _ h

theorem TokensBut.add_ques {ms} {sep : Char → Bool} {a b : G} (ha : TokensBut ms sep a) (hb : TokensBut ms sep b) :
    TokensBut ms sep (a + b.ques) := by
  rintro x t w ⟨x₁, y₁, w₁, x₂, y₂, w₂, h1, (⟨rfl, rfl, rfl⟩ | h2), rfl, rfl, rfl⟩
  · simpa using ha _ _ _ h1
  · exact ha.add hb _ _ _ ⟨_, _, _, _, _, _, h1, h2, rfl, rfl, rfl⟩

/-- The tagger of a pipeline: any number of rule matches, final space removed. -/
def stream (g : G) : G := .comp (.star g) (buildRule (del t!" ") .any .edge)

theorem spaced_writeAll {ks : List Tok} (h : ks ≠ []) : spaced ks = writeAll ks ++ [' '] := by
  induction ks with
  | nil => exact absurd rfl h
  | cons k ks ih =>
    cases ks with
    | nil => simp [spaced, writeAll, List.intercalate]
    | cons l ls =>
      have := ih (by simp)
      rw [show spaced (k :: l :: ls) = write k ++ t!" " ++ spaced (l :: ls) from rfl, this]
      simp [writeAll, List.intercalate]

theorem star_tokens {ms} {sep : Char → Bool} {g : G} (hg : TokensBut ms sep g) {x t : Str} {w : W}
    (h : Star g.den x t w) : ∃ ks : List Tok, t = spaced ks ∧ (∀ k ∈ ks, Writable k) ∧
      Quoted (Seps sep) (ks.flatMap (quotes ms)) x ∧ (ks = [] → x = []) := by
  induction h with
  | nil => exact ⟨[], rfl, by simp, .done (by intro c hc; cases hc), fun _ => rfl⟩
  | cons h1 _ ih =>
    obtain ⟨ks, h11, rfl, h13, h14⟩ := hg _ _ _ h1
    obtain ⟨ls, rfl, h23, h24, _⟩ := ih
    refine ⟨ks ++ ls, by simp [spaced], ?_, ?_, by simp [h11]⟩
    · intro k hk
      rcases List.mem_append.1 hk with hk | hk
      · exact h13 k hk
      · exact h23 k hk
    · rw [List.flatMap_append]; exact Quoted.append h14 h24

/-- Taggings of a non-empty text are written token streams that quote it. -/
theorem stream_tokens {ms} {sep : Char → Bool} {g : G} (hg : TokensBut ms sep g) {x t : Str} {w : W}
    (h : (stream g).den x t w) (hx : x ≠ []) : ∃ ks : List Tok, ks ≠ [] ∧ t = writeAll ks ∧
      (∀ k ∈ ks, Writable k) ∧ Quoted (Seps sep) (ks.flatMap (quotes ms)) x := by
  obtain ⟨m, w₁, w₂, h1, h2, _⟩ := h
  obtain ⟨_, rfl, _⟩ := den_dropFinal.1 h2
  obtain ⟨ks, rfl, h3, h4, h5⟩ := star_tokens hg h1
  have hne : ks ≠ [] := fun hk => hx (h5 hk)
  refine ⟨ks, hne, ?_, h3, h4⟩
  rw [spaced_writeAll hne, dropFinalSpace_append]

end Verif.Wfst
