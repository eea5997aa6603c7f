import Verif.Wfst.Best
import Verif.Wfst.Loose
import Verif.Wfst.Utter

/-
Normalization is local: where no token crosses a place in the text, the best results of the whole are the
best results of the two sides, put together.
-/

namespace Verif.Wfst

open Verif.Token (Orders chosenFields)
open Verif.Token.Spec (esc write writeAll Tok Writable IsName NameChar Distinct Block)
open Verif.NBest (Pipeline normalize grammar)
open Verif.NBest.Spec (Cost Cheapest)

/-! ### Where a token ends -/

/-- Outside quotes, inside, after a backslash inside. -/
inductive Mode where
  | out | quoted | escaped
  deriving DecidableEq

/-- The mode after a character; none after a closing brace outside quotes. -/
def Mode.next : Mode → Char → Option Mode
  | .out, c => if c = '}' then none else if c = '"' then some .quoted else some .out
  | .quoted, c => if c = '\\' then some .escaped else if c = '"' then some .out else some .quoted
  | .escaped, _ => some .quoted

def scan : Mode → Str → Option Mode
  | m, [] => some m
  | m, c :: s => (m.next c).bind fun m => scan m s

theorem scan_append (m : Mode) (s t : Str) : scan m (s ++ t) = (scan m s).bind fun m => scan m t := by
  induction s generalizing m with
  | nil => rfl
  | cons c s ih =>
    rw [List.cons_append, scan, scan]
    cases m.next c with
    | none => rfl
    | some m => exact ih m

theorem scan_esc (v : Str) : scan .quoted (esc v) = some .quoted := by
  induction v with
  | nil => rfl
  | cons c v ih =>
    rw [esc_cons]
    by_cases h : c = '"' ∨ c = '\\'
    · rw [if_pos h]
      show ((Mode.next .quoted '\\').bind fun m => scan m (c :: esc v)) = _
      exact ih
    · rw [if_neg h]
      have h1 : c ≠ '"' := fun e => h (.inl e)
      have h2 : c ≠ '\\' := fun e => h (.inr e)
      show ((Mode.next .quoted c).bind fun m => scan m (esc v)) = _
      rw [show Mode.next .quoted c = some .quoted by simp [Mode.next, h1, h2]]
      exact ih

theorem scan_name {n : Str} (h : ∀ c ∈ n, NameChar c) : scan .out n = some .out := by
  induction n with
  | nil => rfl
  | cons c n ih =>
    have hc := h c (by simp)
    have h1 : c ≠ '}' := by rintro rfl; revert hc; decide
    have h2 : c ≠ '"' := by rintro rfl; revert hc; decide
    rw [scan, show Mode.next .out c = some .out by simp [Mode.next, h1, h2]]
    exact ih fun d hd => h d (by simp [hd])

/-- Two ways of closing the same text are the same. -/
theorem scan_unique {m m' r r' : Str} (h : scan .out m = some .out) (h' : scan .out m' = some .out)
    (e : m ++ '}' :: r = m' ++ '}' :: r') : m = m' ∧ r = r' := by
  have key : ∀ {m m' r r' : Str}, scan .out m = some .out → scan .out m' = some .out →
      ∀ a, m' = m ++ a → '}' :: r = a ++ '}' :: r' → a = [] := by
    intro m m' r r' h h' a e1 e2
    cases a with
    | nil => rfl
    | cons c a =>
      have hc : c = '}' := (List.cons.inj e2).1.symm
      subst hc
      rw [e1, scan_append, h] at h'
      cases h'
  rcases List.append_eq_append_iff.1 e with ⟨a, h1, h2⟩ | ⟨a, h1, h2⟩
  · have := key h h' a h1 h2
    subst this
    simp at h1 h2
    exact ⟨h1.symm, h2⟩
  · have := key h' h a h1 h2
    subst this
    simp at h1 h2
    exact ⟨h1, h2.symm⟩

/-- The grammar takes the scan from one mode to the other. -/
def Keeps (a b : Mode) (g : G) : Prop := ∀ x y w, g.den x y w → scan a x = some b

theorem keeps_add {a b c : Mode} {g h : G} (hg : Keeps a b g) (hh : Keeps b c h) : Keeps a c (g + h) := by
  rintro x y w ⟨x₁, y₁, w₁, x₂, y₂, w₂, h1, h2, rfl, _, _⟩
  rw [scan_append, hg _ _ _ h1]
  exact hh _ _ _ h2

theorem keeps_or {a b : Mode} {g h : G} (hg : Keeps a b g) (hh : Keeps a b h) : Keeps a b (g ||| h) :=
  fun x y w hd => hd.elim (hg x y w) (hh x y w)

theorem keeps_ques {a : Mode} {g : G} (hg : Keeps a a g) : Keeps a a g.ques := by
  intro x y w hd
  rcases den_ques.1 hd with ⟨rfl, _⟩ | hd
  · rfl
  · exact hg _ _ _ hd

theorem keeps_wt {a b : Mode} {g : G} {k : W} (hg : Keeps a b g) : Keeps a b (.wt g k) := by
  rintro x y w ⟨w₀, h, _⟩; exact hg _ _ _ h

theorem keeps_del {a b : Mode} {s : Str} (h : scan a s = some b) : Keeps a b (del s) := by
  intro x y w hd
  rw [(den_del.1 hd).1]; exact h

theorem keeps_lit {a b : Mode} {s : Str} (h : scan a s = some b) : Keeps a b (.lit s) := by
  intro x y w hd
  rw [(den_lit.1 hd).1]; exact h

theorem keeps_insert {a : Mode} {s : Str} : Keeps a a (insert s) := by
  intro x y w hd
  rw [(den_insert.1 hd).1]; rfl

theorem keeps_cross {a b : Mode} {s t : Str} (h : scan a s = some b) : Keeps a b (crossS s t) := by
  intro x y w hd
  rw [(den_crossS.1 hd).1]; exact h

theorem keeps_bare {g : G} (h : Bare g) : Keeps .quoted .quoted g := by
  intro x y w hd
  rw [← h x ⟨y, w, hd⟩]
  exact scan_esc x

theorem keeps_field {n : Str} {g : Option G} {sp : Bool} (hn : IsName n) : Keeps .out .out (verbalizeField n g sp) := by
  intro x y w hd
  obtain ⟨m, rfl, h⟩ := den_verbalizeField.1 hd
  obtain ⟨v, rfl⟩ : ∃ v, m = esc v := by
    cases g with
    | none => exact ⟨y, (den_decoded_none.1 h).1⟩
    | some g => obtain ⟨v, rfl, _⟩ := den_decoded_some.1 h; exact ⟨v, rfl⟩
  have h0 : scan .out (if sp then t!" " else []) = some .out := by cases sp <;> decide
  rw [scan_append, scan_append, scan_append, scan_append, h0, Option.bind_some, scan_name hn.2, Option.bind_some,
    show scan .out t!": \"" = some .quoted by decide, Option.bind_some, scan_esc]
  rfl

theorem keeps_raw {s t : Str} {g : G} (hs : scan .out s = some .quoted) (hg : Bare g) (ht : scan .quoted t = some .out) :
    Keeps .out .out (del s + g + del t) := keeps_add (keeps_add (keeps_del hs) (keeps_bare hg)) (keeps_del ht)

/-- Takes apart a verbalizer of fields. -/
macro "keeps" : tactic => `(tactic| repeat' with_reducible first
  | exact keeps_insert | exact keeps_field (by decide) | refine keeps_raw rfl ?_ rfl | exact keeps_del rfl
  | exact keeps_lit rfl | apply keeps_ques | apply keeps_wt | refine keeps_add (b := .out) ?_ ?_ | apply keeps_or)

/-! ### Verbalizers read one token at a time -/

/-- Every text that the grammar reads is a text up to its closing brace, with or without a space behind. -/
def OneTok (vu : G) : Prop := ∀ p y w, vu.den p y w → ∃ m, scan .out m = some .out ∧ (∃ d s, m = d :: s ∧ d ≠ ' ') ∧
  (p = m ++ t!"}" ∨ p = m ++ t!"} ") ∧ vu.den (m ++ t!"}") y w ∧ vu.den (m ++ t!"} ") y w

theorem oneTok_delete {n : Str} {g : G} (hn : IsName n) (hg : Keeps .out .out g) : OneTok (deleteTokens n g) := by
  intro p y w hd
  obtain ⟨m, sp, hsp, rfl, h⟩ := den_deleteTokens.1 hd
  refine ⟨n ++ t!" { " ++ m ++ t!" ", ?_, ?_, ?_, ?_, ?_⟩
  · rw [scan_append, scan_append, scan_append, scan_name hn.2, Option.bind_some,
      show scan .out t!" { " = some .out by decide, Option.bind_some, hg _ _ _ h]
    rfl
  · cases n with
    | nil => exact absurd rfl hn.1
    | cons c n =>
      refine ⟨c, n ++ t!" { " ++ m ++ t!" ", by simp, ?_⟩
      rintro rfl
      have := hn.2 ' ' (by simp)
      revert this; decide
  · rcases hsp with rfl | rfl
    · left; simp
    · right; simp
  · exact den_deleteTokens.2 ⟨m, [], .inl rfl, by simp, h⟩
  · exact den_deleteTokens.2 ⟨m, [' '], .inr rfl, by simp, h⟩

theorem oneTok_or {a b : G} (ha : OneTok a) (hb : OneTok b) : OneTok (a ||| b) := by
  rintro p y w (h | h)
  · obtain ⟨m, h1, h2, h3, h4, h5⟩ := ha _ _ _ h
    exact ⟨m, h1, h2, h3, .inl h4, .inl h5⟩
  · obtain ⟨m, h1, h2, h3, h4, h5⟩ := hb _ _ _ h
    exact ⟨m, h1, h2, h3, .inr h4, .inr h5⟩

theorem oneTok_comp {a post : G} (ha : OneTok a) : OneTok (.comp a post) := by
  rintro p y w ⟨z, w₁, w₂, h, h', rfl⟩
  obtain ⟨m, h1, h2, h3, h4, h5⟩ := ha _ _ _ h
  exact ⟨m, h1, h2, h3, ⟨z, w₁, w₂, h4, h', rfl⟩, ⟨z, w₁, w₂, h5, h', rfl⟩⟩

theorem oneTok_union {specs : List RuleSpec} {v : G} (h : verbalizerUnion specs = some v)
    (hs : ∀ s ∈ specs, s.verbalize = true → OneTok s.rule.verbalizer) : OneTok v := by
  intro p y w hd
  obtain ⟨s, hm, hv, h1⟩ := ((verbalizer_union specs).2 v h p y w).1 hd
  obtain ⟨m, h1, h2, h3, h4, h5⟩ := hs s hm hv _ _ _ h1
  exact ⟨m, h1, h2, h3, ((verbalizer_union specs).2 v h _ y w).2 ⟨s, hm, hv, h4⟩,
    ((verbalizer_union specs).2 v h _ y w).2 ⟨s, hm, hv, h5⟩⟩

theorem scan_fields {fs : List (Str × Str)} (h : ∀ f ∈ fs, IsName f.1) :
    scan .out (fs.flatMap fun f => ' ' :: fieldT f) = some .out := by
  induction fs with
  | nil => rfl
  | cons f fs ih =>
    rw [List.flatMap_cons, scan_append]
    have : scan .out (' ' :: fieldT f) = some .out := by
      show scan .out (fieldT f) = _
      unfold fieldT
      rw [scan_append, scan_append, scan_append, scan_name (h f (by simp)).2, Option.bind_some,
        show scan .out t!": \"" = some .quoted by decide, Option.bind_some, scan_esc]
      rfl
    rw [this]
    exact ih fun g hg => h g (by simp [hg])

theorem write_closed {k : Tok} (h : Writable k) : ∃ m, write k = m ++ t!"}" ∧ scan .out m = some .out ∧
    ∃ d s, m = d :: s ∧ d ≠ ' ' := by
  obtain ⟨n, fs⟩ := k
  refine ⟨n ++ t!" {" ++ (fs.flatMap fun f => ' ' :: fieldT f) ++ t!" ", ?_, ?_, ?_⟩
  · simp [write, fieldT]
  · rw [scan_append, scan_append, scan_append, scan_name h.1.2, Option.bind_some,
      show scan .out t!" {" = some .out by decide, Option.bind_some, scan_fields h.2.1]
    rfl
  · obtain ⟨h1, h2⟩ := h.1
    cases n with
    | nil => exact absurd rfl h1
    | cons c n =>
      refine ⟨c, n ++ t!" {" ++ (fs.flatMap fun f => ' ' :: fieldT f) ++ t!" ", by simp, ?_⟩
      rintro rfl
      have := h2 ' ' (by simp)
      revert this; decide

/-- What is said for a list of tokens: each token by itself. -/
inductive Spoken (vu : G) : List Tok → Str → W → Prop
  | nil : Spoken vu [] [] 0
  | cons {k ks y z w v} : vu.den (write k) y w → Spoken vu ks z v → Spoken vu (k :: ks) (y ++ z) (w + v)

theorem Spoken.append {vu : G} {ks ls : List Tok} {y z : Str} {w v : W} (h : Spoken vu ks y w) (h' : Spoken vu ls z v) :
    Spoken vu (ks ++ ls) (y ++ z) (w + v) := by
  induction h with
  | nil => simpa using h'
  | @cons k ks y₁ y₂ w₁ w₂ h1 _ ih =>
    rw [List.append_assoc, show w₁ + w₂ + v = w₁ + (w₂ + v) from Int.add_assoc _ _ _]
    exact .cons h1 ih

theorem Spoken.split {vu : G} {ks ls : List Tok} {y : Str} {w : W} (h : Spoken vu (ks ++ ls) y w) :
    ∃ y₁ w₁ y₂ w₂, Spoken vu ks y₁ w₁ ∧ Spoken vu ls y₂ w₂ ∧ y = y₁ ++ y₂ ∧ w = w₁ + w₂ := by
  induction ks generalizing y w with
  | nil => exact ⟨[], 0, y, w, .nil, h, rfl, (Int.zero_add _).symm⟩
  | cons k ks ih =>
    cases h with
    | @cons _ _ y z w v h1 h2 =>
      obtain ⟨y₁, w₁, y₂, w₂, h3, h4, rfl, rfl⟩ := ih h2
      exact ⟨y ++ y₁, w + w₁, y₂, w₂, .cons h1 h3, h4, by simp, (Int.add_assoc _ _ _).symm⟩

theorem star_spoken {vu : G} (hv : OneTok vu) {ks : List Tok} (hw : ∀ k ∈ ks, Writable k) {y : Str} {w : W} :
    Star vu.den (writeAll ks) y w ↔ Spoken vu ks y w := by
  have hnil : ∀ {s y w}, Star vu.den s y w → s = [] → y = [] ∧ w = 0 := by
    intro s y w hs
    cases hs with
    | nil => intro _; exact ⟨rfl, rfl⟩
    | @cons x₁ y₁ _ x₂ y₂ _ h1 h2 =>
      intro e
      obtain ⟨rfl, rfl⟩ := List.append_eq_nil_iff.1 e
      obtain ⟨m, _, ⟨d, s, rfl, _⟩, h | h, _⟩ := hv _ _ _ h1 <;> cases h
  induction ks generalizing y w with
  | nil =>
    constructor
    · intro h
      obtain ⟨rfl, rfl⟩ := hnil h rfl
      exact .nil
    · intro h
      cases h
      exact .nil
  | cons k ks ih =>
    have ih' := fun {y w} => ih (fun l hl => hw l (by simp [hl])) (y := y) (w := w)
    obtain ⟨m, hm, hs, d, s, hds, hd⟩ := write_closed (hw k (by simp))
    obtain ⟨r, hr, hwr⟩ : ∃ r, writeAll (k :: ks) = write k ++ r ∧
        (r = [] ∧ ks = [] ∨ ks ≠ [] ∧ r = ' ' :: writeAll ks) := by
      cases ks with
      | nil => exact ⟨[], by simp [writeAll, List.intercalate], .inl ⟨rfl, rfl⟩⟩
      | cons d ks => exact ⟨' ' :: writeAll (d :: ks), by simp [writeAll, List.intercalate], .inr ⟨by simp, rfl⟩⟩
    rw [hr]
    constructor
    · intro h
      generalize hx : write k ++ r = x at h
      cases h with
      | nil => exact absurd (List.append_eq_nil_iff.1 hx).1 (write_ne k)
      | @cons x₁ y₁ w₁ x₂ y₂ w₂ h1 h2 =>
        obtain ⟨m', hs', _, hp, hd1, _⟩ := hv _ _ _ h1
        have e : ∃ sp, x₁ = m' ++ '}' :: sp ∧ (sp = [] ∨ sp = [' ']) := by
          rcases hp with rfl | rfl
          · exact ⟨[], rfl, .inl rfl⟩
          · exact ⟨[' '], rfl, .inr rfl⟩
        obtain ⟨sp, rfl, hsp⟩ := e
        rw [hm, List.append_assoc, List.append_assoc] at hx
        obtain ⟨rfl, he⟩ := scan_unique hs hs' hx
        rw [← hm] at hd1
        refine .cons hd1 (ih'.1 ?_)
        rcases hsp with rfl | rfl
        · rcases hwr with ⟨rfl, rfl⟩ | ⟨hx, rfl⟩
          · have : x₂ = [] := by simpa using he.symm
            subst this
            exact h2
          · exfalso
            have : x₂ = ' ' :: writeAll ks := by simpa using he.symm
            subst this
            generalize hs' : ' ' :: writeAll ks = s' at h2
            cases h2 with
            | nil => simp at hs'
            | @cons z₁ y₁ w₁ z₂ y₂ w₂ h3 h4 =>
              obtain ⟨m', _, ⟨d, s, rfl, hd⟩, hp, _⟩ := hv _ _ _ h3
              rcases hp with rfl | rfl <;> exact hd (List.cons.inj hs').1.symm
        · rcases hwr with ⟨rfl, rfl⟩ | ⟨hx, rfl⟩
          · simp at he
          · have : x₂ = writeAll ks := by simpa using he.symm
            subst this
            exact h2
    · intro h
      cases h with
      | @cons _ _ y z w v h1 h2 =>
        rcases hwr with ⟨rfl, rfl⟩ | ⟨hx, rfl⟩
        · cases h2
          simpa using Star.one h1
        · obtain ⟨m', _, ⟨d', s', hds', hd'⟩, hp, _, h3⟩ := hv _ _ _ h1
          have e : write k ++ t!" " = m' ++ t!"} " := by
            rcases hp with hp | hp
            · rw [hp]; simp
            · exfalso
              rw [hm] at hp
              have := congrArg List.getLast? hp
              simp at this
          rw [← e] at h3
          have := Star.cons h3 (ih'.2 h2)
          simpa using this

/-! ### Winners -/

/-- A best result of the text: no result costs less. -/
def Winner (p : Pipeline W) (x z : Str) : Prop :=
  ∃ c, Cost (grammar p x) z c ∧ ∀ z' c', Cost (grammar p x) z' c' → c ≤ c'

/-- The first result of normalization is a best one. -/
theorem first_winner {p : Pipeline W} {fuel : Nat} {x : Str} {n : Int} {out} (hne : x ≠ [])
    (h : normalize p fuel x (.int n) = some (.ok out)) : ∃ z, out.toList.head? = some z ∧ Winner p x z := by
  obtain ⟨l, hl, hch⟩ := Verif.NBest.C26_cheapest p fuel x n out hne h
  obtain ⟨hne', _⟩ := Verif.NBest.C25_distinct p fuel x n out hne h
  rw [← hl] at hne' ⊢
  cases l with
  | nil => exact absurd rfl hne'
  | cons a l =>
    refine ⟨a.1, rfl, a.2, (hch.least a (by simp)).1, ?_⟩
    intro z' c' hc
    by_contra hlt
    obtain ⟨u, hu, hle⟩ := hch.noneSkipped a (by simp) _ _ hc (not_le.1 hlt)
    rcases List.mem_cons.1 hu with e | hu
    · rw [← e] at hlt; exact hlt hle
    · exact hlt (le_trans ((List.pairwise_cons.1 hch.sorted).1 _ hu) hle)

/-- The tokens with their fields in the order of the schema. -/
def reord (orders : Orders) (ks : List Tok) : List Tok := ks.map fun k => ⟨k.name, chosenFields orders k⟩

theorem reord_append (orders : Orders) (ks ls : List Tok) : reord orders (ks ++ ls) = reord orders ks ++ reord orders ls := by
  simp [reord]

/-- A tagging of the text, as it is written and as tokens. -/
def Tagged (tu : G) (x t : Str) (ks : List Tok) (w : W) : Prop :=
  Star tu.den x t w ∧ VText t ∧ ∃ bs, t = spacedB bs ∧ List.Forall₂ Block bs ks ∧ ∀ k ∈ ks, Distinct k

/-- A lightest verbalization of a lightest tagging, among the taggings that have a verbalization. -/
structure Wins (orders : Orders) (tu vu : G) (x z t : Str) (ks : List Tok) (w v : W) : Prop where
  tagged : Tagged tu x t ks w
  spoken : Spoken vu (reord orders ks) z v
  lightest : ∀ t' ks' w' z' v', Tagged tu x t' ks' w' → Spoken vu (reord orders ks') z' v' → w ≤ w'
  shortest : ∀ z' v', Spoken vu (reord orders ks) z' v' → v ≤ v'

/-- The pieces of a pipeline that makes normalization local. -/
structure Piped (p : Pipeline W) (orders : Orders) (tu vu : G) : Prop where
  runs : Runs p orders (stream tu) (.star vu)
  tagOk : (stream tu).ok = true
  verbOk : (G.star vu).ok = true
  tokens : ∃ ms sep, LooseBut ms sep tu
  repeatFree : Verif.Token.RepeatFree orders
  oneTok : OneTok vu

theorem block_writable {bs : List Str} {ks : List Tok} (h : List.Forall₂ Block bs ks) (hd : ∀ k ∈ ks, Distinct k) :
    ∀ k ∈ ks, Writable k := by
  have fields : ∀ {b fs}, Verif.Token.Spec.Fields b fs → ∀ f ∈ fs, IsName f.1 := by
    intro b fs h
    induction h with
    | close => simp
    | field _ hk _ _ ih =>
      intro f hf
      rcases List.mem_cons.1 hf with rfl | hf
      · exact hk
      · exact ih f hf
  intro k hk
  refine ⟨?_, ?_, hd k hk⟩ <;> clear hd <;> induction h <;> simp_all
  · rename_i b k' bs ks hb _ ih
    rcases hk with rfl | hk
    · obtain ⟨hn, _⟩ := hb
      exact hn
    · exact ih hk
  · rename_i b k' bs ks hb _ ih
    rcases hk with rfl | hk
    · obtain ⟨_, hf⟩ := hb
      intro a c hac
      exact fields hf _ _ hac
    · exact ih hk

theorem spacedB_append (bs cs : List Str) : spacedB (bs ++ cs) = spacedB bs ++ spacedB cs := by simp [spacedB]

section
variable {p : Pipeline W} {orders : Orders} {tu vu : G}

theorem Tagged.writable {x t : Str} {ks : List Tok} {w : W} (h : Tagged tu x t ks w) : ∀ k ∈ ks, Writable k := by
  obtain ⟨_, _, bs, _, h1, h2⟩ := h
  exact block_writable h1 h2

theorem Tagged.ne {x t : Str} {ks : List Tok} {w : W} (hne : x ≠ []) (hp : Piped p orders tu vu)
    (h : Tagged tu x t ks w) : ks ≠ [] := by
  rintro rfl
  obtain ⟨h1, _, bs, rfl, hb, _⟩ := h
  cases hb
  obtain ⟨ms, sep, ht⟩ := hp.tokens
  obtain ⟨ks, cs, h4, h6, _, _, h5⟩ := star_loose ht h1
  cases cs with
  | nil => cases h6; exact hne (h5 rfl)
  | cons k cs =>
    have := congrArg List.length h4
    simp [spacedB] at this

theorem Tagged.stream {x t : Str} {ks : List Tok} {w : W} (h : Tagged tu x t ks w) :
    (stream tu).den x (dropFinalSpace t) w :=
  ⟨_, w, 0, h.1, den_dropFinal.2 ⟨h.2.1, rfl, rfl⟩, (Int.add_zero _).symm⟩

theorem tagged_of {x t : Str} {w : W} (hp : Piped p orders tu vu) (h : (Wfst.stream tu).den x t w) :
    ∃ t' ks, t = dropFinalSpace t' ∧ Tagged tu x t' ks w := by
  obtain ⟨s, w₁, w₂, h1, h2, rfl⟩ := h
  obtain ⟨h3, rfl, rfl⟩ := den_dropFinal.1 h2
  obtain ⟨ms, sep, ht⟩ := hp.tokens
  obtain ⟨ks, bs, rfl, h5, h7, _, h6⟩ := star_loose ht h1
  refine ⟨_, ks, rfl, ?_, h3, bs, rfl, h5, h7⟩
  rw [show (w₁ + 0 : W) = w₁ from Int.add_zero _]
  exact h1

theorem reord_writable (hp : Piped p orders tu vu) {ks : List Tok} (h : ∀ k ∈ ks, Writable k) :
    ∀ k ∈ reord orders ks, Writable k := by
  intro k hk
  obtain ⟨l, hl, rfl⟩ := List.mem_map.1 hk
  exact Verif.Token.writable_chosen hp.repeatFree (h l hl)

theorem reorder_tagged (hp : Piped p orders tu vu) {x t : Str} {ks : List Tok} {w : W} (h : Tagged tu x t ks w)
    (hks : ks ≠ []) : (grammar p x).reorder (dropFinalSpace t) = some (writeAll (reord orders ks)) := by
  show (Verif.Token.reorder p.orders (dropFinalSpace t)).toOption = _
  obtain ⟨_, _, bs, rfl, h1, h2⟩ := h
  obtain ⟨s, e, hn, hst⟩ := stream_blocks h1 hks
  obtain ⟨toks, h3, h4⟩ := (Verif.Token.C03_parse_iff_grammar s ks).2 ⟨hn, hst, h2⟩
  rw [hp.runs.orders, e, dropFinalSpace_append, Verif.Token.reorder_denotes h3 h4]
  rfl

theorem verb_spoken (hp : Piped p orders tu vu) {x t : Str} {ks : List Tok} {w v : W} {z : Str}
    (h : Tagged tu x t ks w) : (G.star vu).den (writeAll (reord orders ks)) z v ↔ Spoken vu (reord orders ks) z v :=
  star_spoken hp.oneTok (reord_writable hp h.writable)

/-- Tokens that are written alike are said alike. -/
theorem spoken_same (hp : Piped p orders tu vu) {x t : Str} (hx : x ≠ []) {ks ls : List Tok} {w v u : W} {z : Str}
    (h1 : Tagged tu x t ks w) (h2 : Tagged tu x t ls v) (hs : Spoken vu (reord orders ks) z u) :
    Spoken vu (reord orders ls) z u := by
  have h3 := reorder_tagged hp h1 (h1.ne hx hp)
  rw [reorder_tagged hp h2 (h2.ne hx hp)] at h3
  refine (verb_spoken hp h2).1 ?_
  rw [Option.some.inj h3]
  exact (verb_spoken hp h1).2 hs

/-- What a cost says about tokens. -/
theorem cost_tagged (hp : Piped p orders tu vu) {x z : Str} {c : W} (hne : x ≠ []) (h : Cost (grammar p x) z c) :
    ∃ s ks w v m, Tagged tu x s ks w ∧ ks ≠ [] ∧ Spoken vu (reord orders ks) z v ∧ c = w + v - m ∧ m ≤ v ∧
      ∀ z' v', Spoken vu (reord orders ks) z' v' → m ≤ v' := by
  obtain ⟨t, tw, r, v, m, h1, h2, h3, h4, rfl⟩ := h
  obtain ⟨s, ks, rfl, ht⟩ := tagged_of hp ((hp.runs.tags _ _ _).1 h1).1
  have hks := ht.ne hne hp
  rw [reorder_tagged hp ht hks] at h2
  cases h2
  refine ⟨s, ks, tw, v, m, ht, hks, (verb_spoken hp ht).1 ((hp.runs.verbs _ _ _).1 h3).1, rfl, h4.2 ⟨z, h3⟩, ?_⟩
  intro z' v' hs
  obtain ⟨d, hd⟩ := exists_cost hp.verbOk ((verb_spoken hp ht).2 hs)
  exact le_trans (h4.2 ⟨z', (hp.runs.verbs _ _ _).2 hd⟩) (hd.2 ((verb_spoken hp ht).2 hs))

/-- The cost of a tagging with its lightest verbalization. -/
theorem tagged_cost (hp : Piped p orders tu vu) {x z t : Str} {ks : List Tok} {w v : W} (hne : x ≠ [])
    (ht : Tagged tu x t ks w) (hs : Spoken vu (reord orders ks) z v) : ∃ z' c, Cost (grammar p x) z' c ∧ c ≤ w := by
  have hd := ht.stream
  have hks := ht.ne hne hp
  obtain ⟨c, hc⟩ := exists_cost hp.tagOk hd
  obtain ⟨m, hm⟩ := exists_least hp.verbOk ((verb_spoken hp ht).2 hs)
  obtain ⟨z', hz⟩ := hm.1
  refine ⟨z', c, ⟨_, c, _, m, m, (hp.runs.tags _ _ _).2 hc, reorder_tagged hp ht hks, (hp.runs.verbs _ _ _).2 hz, ?_,
    (Int.add_sub_cancel c m).symm⟩, hc.2 hd⟩
  have : {u | ∃ z, (grammar p x).verb (writeAll (reord orders ks)) z = some u} =
      {u | ∃ z, CostOf (.star vu) (writeAll (reord orders ks)) z u} := by
    ext u
    exact exists_congr fun z => hp.runs.verbs _ _ _
  rw [this]
  exact hm

theorem winner_iff (hp : Piped p orders tu vu) {x z : Str} (hne : x ≠ []) :
    Winner p x z ↔ ∃ t ks w v, Wins orders tu vu x z t ks w v := by
  constructor
  · rintro ⟨c, hc, hmin⟩
    obtain ⟨t, ks, w, v, m, ht, hks, hs, rfl, hmv, hm⟩ := cost_tagged hp hne hc
    have key : ∀ w v m d : Int, m ≤ v → w + v - m ≤ d → w ≤ d ∧ (d ≤ w → v ≤ m) := by intros; omega
    refine ⟨t, ks, w, v, ht, hs, ?_, ?_⟩
    · intro t' ks' w' z' v' ht' hs'
      obtain ⟨z'', c', hc', hle⟩ := tagged_cost hp hne ht' hs'
      exact le_trans (key w v m c' hmv (hmin _ _ hc')).1 hle
    · intro z' v' hs'
      obtain ⟨z'', c', hc', hle⟩ := tagged_cost hp hne ht hs
      exact le_trans ((key w v m c' hmv (hmin _ _ hc')).2 hle) (hm _ _ hs')
  · rintro ⟨t, ks, w, v, ht, hs, hw, hv⟩
    have hd := ht.stream
    have hks := ht.ne hne hp
    refine ⟨w, ⟨_, w, _, v, v, (hp.runs.tags _ _ _).2 ⟨hd, ?_⟩, reorder_tagged hp ht hks,
      (hp.runs.verbs _ _ _).2 ⟨(verb_spoken hp ht).2 hs, ?_⟩, ⟨⟨z, (hp.runs.verbs _ _ _).2 ⟨(verb_spoken hp ht).2 hs, ?_⟩⟩, ?_⟩,
      (Int.add_sub_cancel w v).symm⟩, ?_⟩
    · intro u hu
      obtain ⟨t', ks', e, ht'⟩ := tagged_of hp hu
      have hks' := ht'.ne hne hp
      have h1 := reorder_tagged hp ht hks
      rw [e, reorder_tagged hp ht' hks'] at h1
      have h2 : writeAll (reord orders ks') = writeAll (reord orders ks) := Option.some.inj h1
      refine hw t' ks' u z v ht' ((verb_spoken hp ht').1 ?_)
      rw [h2]
      exact (verb_spoken hp ht).2 hs
    · exact fun u hu => hv _ _ ((verb_spoken hp ht).1 hu)
    · exact fun u hu => hv _ _ ((verb_spoken hp ht).1 hu)
    · rintro u ⟨z', hz'⟩
      exact hv _ _ ((verb_spoken hp ht).1 ((hp.runs.verbs _ _ _).1 hz').1)
    · intro z' c' hc'
      obtain ⟨t', ks', w', v', m', ht', _, hs', rfl, hmv, _⟩ := cost_tagged hp hne hc'
      have key : ∀ w v m d : Int, m ≤ v → d ≤ w → d ≤ w + v - m := by intros; omega
      exact key w' v' m' w hmv (hw _ _ _ _ _ ht' hs')

/-- **Locality.** Where no token crosses from `x` to `y`, the best results of `x ++ y` are those of `x` followed
by those of `y`. -/
theorem winner_append (hp : Piped p orders tu vu) {x y z : Str} (hx : x ≠ []) (hy : y ≠ []) (hc : NoCross tu x y) :
    Winner p (x ++ y) z ↔ ∃ z₁ z₂, Winner p x z₁ ∧ Winner p y z₂ ∧ z = z₁ ++ z₂ := by
  have joined : ∀ {s t ks ls w v}, Tagged tu x s ks w → Tagged tu y t ls v →
      Tagged tu (x ++ y) (s ++ t) (ks ++ ls) (w + v) := by
    rintro s t ks ls w v ⟨h1, h2, bs, rfl, h3, h3'⟩ ⟨h4, h5, cs, rfl, h6, h6'⟩
    refine ⟨h1.append h4, ?_, bs ++ cs, (spacedB_append _ _).symm, List.rel_append h3 h6, ?_⟩
    · intro c hc
      exact (List.mem_append.1 hc).elim (h2 c) (h5 c)
    · intro k hk
      exact (List.mem_append.1 hk).elim (h3' k) (h6' k)
  have parted : ∀ {t ks w}, Tagged tu (x ++ y) t ks w → ∃ t₁ t₂ ks₁ ks₂ w₁ w₂, t = t₁ ++ t₂ ∧ w = w₁ + w₂ ∧
      Tagged tu x t₁ ks₁ w₁ ∧ Tagged tu y t₂ ks₂ w₂ := by
    rintro t ks w ⟨h1, h2, h3⟩
    obtain ⟨t₁, w₁, t₂, w₂, h4, h5, rfl, rfl⟩ := star_split hc h1
    obtain ⟨ms, sep, ht⟩ := hp.tokens
    obtain ⟨ks₁, bs, rfl, h7, h7', _⟩ := star_loose ht h4
    obtain ⟨ks₂, cs, rfl, h8, h8', _⟩ := star_loose ht h5
    exact ⟨_, _, ks₁, ks₂, w₁, w₂, rfl, rfl, ⟨h4, fun c hc => h2 c (by simp [hc]), bs, rfl, h7, h7'⟩,
      ⟨h5, fun c hc => h2 c (by simp [hc]), cs, rfl, h8, h8'⟩⟩
  have hxy : x ++ y ≠ [] := by simp [hx]
  have add_le : ∀ a b c d : Int, a ≤ c → b ≤ d → a + b ≤ c + d := by intros; omega
  have cancel_right : ∀ a b c : Int, a + b ≤ c + b → a ≤ c := by intros; omega
  have cancel_left : ∀ a b c : Int, b + a ≤ b + c → a ≤ c := by intros; omega
  rw [winner_iff hp hxy]
  constructor
  · rintro ⟨t, ks, w, v, ht, hs, hw, hv⟩
    obtain ⟨t₁, t₂, ks₁, ks₂, w₁, w₂, rfl, rfl, ht₁, ht₂⟩ := parted ht
    have htj := joined ht₁ ht₂
    have hs' := spoken_same hp hxy ht htj hs
    rw [reord_append] at hs'
    obtain ⟨z₁, v₁, z₂, v₂, hs₁, hs₂, rfl, rfl⟩ := hs'.split
    refine ⟨z₁, z₂, (winner_iff hp hx).2 ⟨t₁, ks₁, w₁, v₁, ht₁, hs₁, ?_, ?_⟩,
      (winner_iff hp hy).2 ⟨t₂, ks₂, w₂, v₂, ht₂, hs₂, ?_, ?_⟩, rfl⟩
    · intro t' ks' w' z' v' ht' hs'
      exact cancel_right w₁ w₂ w' (hw _ (ks' ++ ks₂) (w' + w₂) (z' ++ z₂) (v' + v₂) (joined ht' ht₂)
        (by rw [reord_append]; exact hs'.append hs₂))
    · intro z' v' hs'
      exact cancel_right v₁ v₂ v' (hv (z' ++ z₂) (v' + v₂)
        (spoken_same hp hxy htj ht (by rw [reord_append]; exact hs'.append hs₂)))
    · intro t' ks' w' z' v' ht' hs'
      exact cancel_left w₂ w₁ w' (hw _ (ks₁ ++ ks') (w₁ + w') (z₁ ++ z') (v₁ + v') (joined ht₁ ht')
        (by rw [reord_append]; exact hs₁.append hs'))
    · intro z' v' hs'
      exact cancel_left v₂ v₁ v' (hv (z₁ ++ z') (v₁ + v')
        (spoken_same hp hxy htj ht (by rw [reord_append]; exact hs₁.append hs')))
  · rintro ⟨z₁, z₂, hz₁, hz₂, rfl⟩
    obtain ⟨t₁, ks₁, w₁, v₁, ht₁, hs₁, hw₁, hv₁⟩ := (winner_iff hp hx).1 hz₁
    obtain ⟨t₂, ks₂, w₂, v₂, ht₂, hs₂, hw₂, hv₂⟩ := (winner_iff hp hy).1 hz₂
    refine ⟨t₁ ++ t₂, ks₁ ++ ks₂, w₁ + w₂, v₁ + v₂, joined ht₁ ht₂, by rw [reord_append]; exact hs₁.append hs₂, ?_, ?_⟩
    · intro t' ks' w' z' v' ht' hs'
      obtain ⟨s₁, s₂, ls₁, ls₂, u₁, u₂, rfl, rfl, ht₁', ht₂'⟩ := parted ht'
      have hs'' := spoken_same hp hxy ht' (joined ht₁' ht₂') hs'
      rw [reord_append] at hs''
      obtain ⟨y₁, q₁, y₂, q₂, g₁, g₂, _, _⟩ := hs''.split
      exact add_le w₁ w₂ u₁ u₂ (hw₁ _ _ _ _ _ ht₁' g₁) (hw₂ _ _ _ _ _ ht₂' g₂)
    · intro z' v' hs'
      rw [reord_append] at hs'
      obtain ⟨y₁, q₁, y₂, q₂, g₁, g₂, _, rfl⟩ := hs'.split
      exact add_le v₁ v₂ q₁ q₂ (hv₁ _ _ g₁) (hv₂ _ _ g₂)

end

end Verif.Wfst
