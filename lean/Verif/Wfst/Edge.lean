import Verif.Wfst.Lemmas

/-
How digits and other characters come together in the inputs of a grammar: the texts that can stand before the
first digit and the characters that can stand after a digit. The summary of a grammar is put
together from those of its parts. Texts are looked at through a change `f` of single characters.
-/

namespace Verif.Wfst

/-- The digits of both widths. -/
def dig (c : Char) : Bool := (48 ≤ c.toNat && c.toNat ≤ 57) || (65296 ≤ c.toNat && c.toNat ≤ 65305)

/-- The text has no digit. -/
def Free (x : Str) : Prop := ∀ c ∈ x, dig c = false

theorem free_nil : Free [] := fun c hc => by cases hc

theorem free_append {x y : Str} : Free (x ++ y) ↔ Free x ∧ Free y := by
  simp only [Free, List.mem_append]
  exact ⟨fun h => ⟨fun c hc => h c (.inl hc), fun c hc => h c (.inr hc)⟩,
    fun h c hc => hc.elim (h.1 c) (h.2 c)⟩

/-- What the inputs of a grammar can look like: the texts before their first digit, the inputs without digits,
whether they can end with a digit, and the characters that can stand after a digit. -/
structure Sum where
  lead : List Str
  free : List Str
  ld : Bool
  after : Str
  deriving DecidableEq

namespace Sum

/-- The text is as the summary says. -/
structure Fits (s : Sum) (x : Str) : Prop where
  lead : ∀ q b r, x = q ++ b :: r → Free q → dig b = true → q ∈ s.lead
  free : Free x → x ∈ s.free
  last : ∀ c, x.getLast? = some c → dig c = true → s.ld = true
  after : ∀ q a b r, x = q ++ a :: b :: r → dig a = true → dig b = false → b ∈ s.after

/-- The characters other than digits at the beginning. -/
def firsts (s : Sum) : Str := (s.lead ++ s.free).filterMap List.head?

/-- The texts of the one list, each followed by the texts of the other. -/
def pairs (l m : List Str) : List Str := l.flatMap fun u => m.map (u ++ ·)

def cat (s t : Sum) : Sum where
  lead := s.lead ++ pairs s.free t.lead
  free := pairs s.free t.free
  ld := t.ld || (t.free.contains [] && s.ld)
  after := s.after ++ t.after ++ if s.ld then t.firsts else []

def alt (s t : Sum) : Sum where
  lead := s.lead ++ t.lead
  free := s.free ++ t.free
  ld := s.ld || t.ld
  after := s.after ++ t.after

def nil : Sum := ⟨[], [[]], false, []⟩

def pow (s : Sum) : Nat → Sum
  | 0 => nil
  | n + 1 => s.cat (s.pow n)

/-- Repetitions, if every text that is not empty has a digit. -/
def many (s : Sum) : Sum where
  lead := s.lead
  free := [[]]
  ld := s.ld
  after := s.after ++ if s.ld then s.firsts else []

/-- The text before the first digit, if there is one. -/
def leads (x : Str) : List Str := if x.all (!dig ·) then [] else [x.takeWhile (!dig ·)]

/-- The characters after a digit in a text. -/
def afters : Str → Str
  | a :: b :: x => if dig a && !dig b then b :: afters (b :: x) else afters (b :: x)
  | _ => []

/-- The summary of a text. -/
def text (x : Str) : Sum where
  lead := leads x
  free := if x.all (!dig ·) then [x] else []
  ld := (x.getLast?.map dig).getD false
  after := afters x

/-- The summary of some texts. -/
def texts (l : List Str) : Sum where
  lead := l.flatMap fun x => (text x).lead
  free := l.flatMap fun x => (text x).free
  ld := l.any fun x => (text x).ld
  after := l.flatMap fun x => (text x).after

/-- Every text of the one summary is a text of the other. -/
def le (s t : Sum) : Bool :=
  s.lead.all (t.lead.contains ·) && s.free.all (t.free.contains ·) && (!s.ld || t.ld) &&
    s.after.all (t.after.contains ·)

theorem takeWhile_free : ∀ (q : Str) {b : Char} {r : Str}, Free q → dig b = true →
    (q ++ b :: r).takeWhile (!dig ·) = q
  | [], b, r, _, hb => by simp [hb]
  | c :: q, b, r, hf, hb => by
    have := takeWhile_free q (r := r) (fun d hd => hf d (by simp [hd])) hb
    have hc := hf c (by simp)
    simp [hc, this]

theorem afters_next : ∀ q : Str, ∀ a b r, dig a = true → dig b = false → b ∈ afters (q ++ a :: b :: r)
  | [], a, b, r, ha, hb => by simp [afters, ha, hb]
  | [c], a, b, r, ha, hb => by
    simp [afters, ha, hb]
  | c :: d :: q, a, b, r, ha, hb => by
    have := afters_next (d :: q) a b r ha hb
    show b ∈ afters (c :: d :: (q ++ a :: b :: r))
    unfold afters
    split
    · exact List.mem_cons_of_mem _ this
    · exact this

theorem fits_text (x : Str) : (text x).Fits x where
  lead := by
    rintro q b r rfl hf hb
    have : (q ++ b :: r).all (!dig ·) = false := by simp [hb]
    simp only [text, leads, this, Bool.false_eq_true, if_false, List.mem_singleton]
    exact (takeWhile_free q hf hb).symm
  free hf := by
    have : x.all (!dig ·) = true := by simpa [Free] using hf
    simp [text, this]
  last c h hd := by simp [text, h, hd]
  after := by rintro q a b r rfl hf hb; exact afters_next q a b r hf hb

/-- A summary that says more. -/
structure Le (s t : Sum) : Prop where
  lead : s.lead ⊆ t.lead
  free : s.free ⊆ t.free
  ld : s.ld = true → t.ld = true
  after : s.after ⊆ t.after

theorem le_iff {s t : Sum} (h : s.le t = true) : Le s t := by
  simp only [le, Bool.and_eq_true, Bool.or_eq_true, Bool.not_eq_true', List.all_eq_true, List.contains_eq_mem,
    decide_eq_true_eq] at h
  obtain ⟨⟨⟨h1, h2⟩, h3⟩, h4⟩ := h
  refine ⟨h1, h2, fun h => ?_, h4⟩
  rcases h3 with h3 | h3 <;> simp_all

theorem Fits.mono {s t : Sum} {x : Str} (h : s.Fits x) (hl : Le s t) : t.Fits x where
  lead q b r e hf hb := hl.lead (h.lead q b r e hf hb)
  free hf := hl.free (h.free hf)
  last c e hd := hl.ld (h.last c e hd)
  after q a b r e hf hb := hl.after (h.after q a b r e hf hb)

/-- Two neighbours in two texts, one after the other: both in the first, both in the second, or one in each. -/
theorem neighbours {x y q r : Str} {a b : Char} (e : x ++ y = q ++ a :: b :: r) :
    (∃ r', x = q ++ a :: b :: r' ∧ r = r' ++ y) ∨ (x = q ++ [a] ∧ y = b :: r) ∨
      (∃ q', q = x ++ q' ∧ y = q' ++ a :: b :: r) := by
  rcases List.append_eq_append_iff.1 e with ⟨q', h1, h2⟩ | ⟨z, h1, h2⟩
  · exact .inr (.inr ⟨q', h1, h2⟩)
  · cases z with
    | nil =>
      refine .inr (.inr ⟨[], by simpa using h1.symm, by simpa using h2.symm⟩)
    | cons c z =>
      simp only [List.cons_append, List.cons.injEq] at h2
      obtain ⟨rfl, h2⟩ := h2
      cases z with
      | nil => exact .inr (.inl ⟨h1, by simpa using h2.symm⟩)
      | cons d z =>
        simp only [List.cons_append, List.cons.injEq] at h2
        obtain ⟨rfl, h2⟩ := h2
        exact .inl ⟨z, h1, h2⟩

/-- The first character is one of those the summary has. -/
theorem Fits.first {s : Sum} {c : Char} {r : Str} (h : s.Fits (c :: r)) (hc : dig c = false) :
    c ∈ s.firsts := by
  have : ∃ q, c :: q ∈ s.lead ++ s.free := by
    by_cases hf : Free (c :: r)
    · exact ⟨r, List.mem_append_right _ (h.free hf)⟩
    · obtain ⟨q, b, t, e, hq, hb⟩ : ∃ q b t, r = q ++ b :: t ∧ Free q ∧ dig b = true := by
        have hr : ¬ Free r := fun hr => hf fun d hd => by
          rcases List.mem_cons.1 hd with rfl | hd
          · exact hc
          · exact hr d hd
        clear * - hr
        induction r with
        | nil => exact absurd free_nil hr
        | cons d r ih =>
          by_cases hd : dig d = true
          · exact ⟨[], d, r, rfl, free_nil, hd⟩
          · have hd : dig d = false := by simpa using hd
            obtain ⟨q, b, t, e, hq, hb⟩ := ih fun hr' => hr fun e he => by
              rcases List.mem_cons.1 he with rfl | he
              · exact hd
              · exact hr' e he
            refine ⟨d :: q, b, t, by rw [e]; rfl, fun e he => ?_, hb⟩
            rcases List.mem_cons.1 he with rfl | he
            · exact hd
            · exact hq e he
      refine ⟨q, List.mem_append_left _ (h.lead (c :: q) b t (by rw [e]; rfl) (fun d hd => ?_) hb)⟩
      rcases List.mem_cons.1 hd with rfl | hd
      · exact hc
      · exact hq d hd
  obtain ⟨q, hq⟩ := this
  exact List.mem_filterMap.2 ⟨_, hq, rfl⟩

theorem mem_pairs {l m : List Str} {u v : Str} (hu : u ∈ l) (hv : v ∈ m) : u ++ v ∈ pairs l m :=
  List.mem_flatMap.2 ⟨u, hu, List.mem_map.2 ⟨v, hv, rfl⟩⟩

theorem Fits.cat {s t : Sum} {x y : Str} (h : s.Fits x) (h' : t.Fits y) : (s.cat t).Fits (x ++ y) where
  lead q b r e hf hb := by
    rcases List.append_eq_append_iff.1 e with ⟨q', h1, h2⟩ | ⟨z, h1, h2⟩
    · rw [h1] at hf ⊢
      obtain ⟨hf1, hf2⟩ := free_append.1 hf
      exact List.mem_append_right _ (mem_pairs (h.free hf1) (h'.lead _ _ _ h2 hf2 hb))
    · cases z with
      | nil =>
        have e1 : q = x := by simpa using h1.symm
        subst e1
        refine List.mem_append_right _ ?_
        have := mem_pairs (h.free hf) (h'.lead [] b r (by simpa using h2.symm) free_nil hb)
        simpa using this
      | cons c z =>
        simp only [List.cons_append, List.cons.injEq] at h2
        obtain ⟨rfl, h2⟩ := h2
        exact List.mem_append_left _ (h.lead q b z h1 hf hb)
  free hf := by
    obtain ⟨hf1, hf2⟩ := free_append.1 hf
    exact mem_pairs (h.free hf1) (h'.free hf2)
  last c e hd := by
    by_cases hy : y = []
    · subst hy
      have h1 := h.last c (by simpa using e) hd
      have h2 := h'.free free_nil
      simp [Sum.cat, h1, h2]
    · have h1 := h'.last c (by rwa [List.getLast?_append_of_ne_nil _ hy] at e) hd
      simp [Sum.cat, h1]
  after q a b r e ha hb := by
    rcases neighbours e with ⟨r', e1, _⟩ | ⟨e1, e2⟩ | ⟨q', e1, e2⟩
    · simp [Sum.cat, h.after q a b r' e1 ha hb]
    · have h1 := h.last a (by simp [e1]) ha
      subst e2
      have h2 := h'.first hb
      simp [Sum.cat, h1, h2]
    · simp [Sum.cat, h'.after q' a b r e2 ha hb]

theorem le_alt_left {s t : Sum} : Le s (s.alt t) where
  lead := by simp [alt]
  free := by simp [alt]
  ld h := by simp [alt, h]
  after := by simp [alt]

theorem le_alt_right {s t : Sum} : Le t (s.alt t) where
  lead := by simp [alt]
  free := by simp [alt]
  ld h := by simp [alt, h]
  after := by simp [alt]

theorem le_many {s : Sum} (hs : s.free.all (·.isEmpty) = true) : Le (s.cat s.many) s.many := by
  have hs : ∀ u ∈ s.free, u = [] := by simpa using hs
  have hp : ∀ m : List Str, pairs s.free m ⊆ m := by
    intro m u hu
    obtain ⟨v, hv, hu⟩ := List.mem_flatMap.1 hu
    obtain ⟨z, hz, rfl⟩ := List.mem_map.1 hu
    rw [hs v hv]; exact hz
  have hfirst : s.many.firsts ⊆ s.firsts := by
    intro c hc
    obtain ⟨u, hu, h1⟩ := List.mem_filterMap.1 hc
    rcases List.mem_append.1 hu with hu | hu
    · exact List.mem_filterMap.2 ⟨u, List.mem_append_left _ hu, h1⟩
    · rw [List.mem_singleton.1 hu] at h1; cases h1
  refine ⟨?_, ?_, ?_, ?_⟩
  · intro u hu
    rcases List.mem_append.1 hu with hu | hu
    · exact hu
    · exact hp _ hu
  · exact hp _
  · intro h
    simpa [cat, many] using h
  · intro c hc
    cases hn : s.ld
    · simpa [cat, many, hn] using hc
    · simp only [cat, many, hn, if_true, List.mem_append] at hc ⊢
      rcases hc with (hc | hc) | hc
      · exact .inl hc
      · exact hc
      · exact .inr (hfirst (by simpa [many, hn] using hc))

theorem le_texts {l : List Str} {x : Str} (hx : x ∈ l) : Le (text x) (texts l) where
  lead c h := List.mem_flatMap.2 ⟨x, hx, h⟩
  free c h := List.mem_flatMap.2 ⟨x, hx, h⟩
  ld h := List.any_eq_true.2 ⟨x, hx, h⟩
  after c h := List.mem_flatMap.2 ⟨x, hx, h⟩

theorem fits_nil {s : Sum} (h : [] ∈ s.free) : s.Fits [] :=
  ⟨fun q b r e => by simp at e, fun _ => h, fun c h => by simp at h,
    fun q a b r e => by simp at e⟩

end Sum

/-- Every input of the grammar, seen through `f`, is as the summary says. -/
def Edge (f : Char → Char) (g : G) (s : Sum) : Prop := ∀ x y w, g.den x y w → s.Fits (x.map f)

variable {f : Char → Char} {a b g : G} {s t : Sum}

theorem Edge.mono (h : Edge f g s) (hl : s.le t = true) : Edge f g t :=
  fun x y w hd => (h x y w hd).mono (Sum.le_iff hl)

theorem Edge.of_le (h : Edge f g s) (hl : Sum.Le s t) : Edge f g t := fun x y w hd => (h x y w hd).mono hl

theorem edge_add (ha : Edge f a s) (hb : Edge f b t) : Edge f (a + b) (s.cat t) := by
  rintro x y w ⟨x₁, y₁, w₁, x₂, y₂, w₂, h1, h2, rfl, _⟩
  rw [List.map_append]
  exact (ha _ _ _ h1).cat (hb _ _ _ h2)

theorem edge_or (ha : Edge f a s) (hb : Edge f b t) : Edge f (a ||| b) (s.alt t) := by
  rintro x y w (h | h)
  · exact (ha _ _ _ h).mono Sum.le_alt_left
  · exact (hb _ _ _ h).mono Sum.le_alt_right

theorem edge_ques (ha : Edge f a s) : Edge f a.ques (Sum.nil.alt s) := by
  intro x y w h
  rcases den_ques.1 h with ⟨rfl, _⟩ | h
  · exact Sum.fits_nil (by simp [Sum.alt, Sum.nil])
  · exact (ha _ _ _ h).mono Sum.le_alt_right

theorem edge_star (ha : Edge f a s) (hs : s.free.all (·.isEmpty) = true) : Edge f (.star a) s.many := by
  intro x y w h
  change Star a.den x y w at h
  induction h with
  | nil => exact Sum.fits_nil (by simp [Sum.many])
  | cons h1 _ ih =>
    rw [List.map_append]
    exact ((ha _ _ _ h1).cat ih).mono (Sum.le_many hs)

theorem edge_plus (ha : Edge f a s) (hs : s.free.all (·.isEmpty) = true) : Edge f a.plus (s.cat s.many) :=
  edge_add ha (edge_star ha hs)

theorem edge_pow (ha : Edge f a s) (n : Nat) : Edge f (a.pow n) (s.pow n) := by
  induction n with
  | zero =>
    intro x y w h
    obtain ⟨rfl, _⟩ := den_pow_zero.1 h
    exact Sum.fits_nil (by simp [Sum.pow, Sum.nil])
  | succ n ih =>
    intro x y w h
    exact edge_add ha ih x y w h

theorem edge_lit {u : Str} : Edge f (.lit u) (.text (u.map f)) := by
  rintro x y w ⟨rfl, _⟩
  exact Sum.fits_text _

theorem edge_del {u : Str} : Edge f (del u) (.text (u.map f)) := by
  intro x y w h
  obtain ⟨rfl, _⟩ := den_del.1 h
  exact Sum.fits_text _

theorem edge_cross {u v : Str} : Edge f (crossS u v) (.text (u.map f)) := by
  intro x y w h
  obtain ⟨rfl, _⟩ := den_crossS.1 h
  exact Sum.fits_text _

theorem edge_insert {u : Str} : Edge f (insert u) .nil := by
  intro x y w h
  obtain ⟨rfl, _⟩ := den_insert.1 h
  exact Sum.fits_nil (by simp [Sum.nil])

theorem edge_tab {l : List (Str × Str)} : Edge f (.tab l) (.texts (l.map fun e => e.1.map f)) := by
  rintro x y w ⟨h, _⟩
  exact (Sum.fits_text _).mono (Sum.le_texts (List.mem_map.2 ⟨_, h, rfl⟩))

/-- A table without characters that are changed. -/
theorem edge_fixed {l : List (Str × Str)} (h : ∀ e ∈ l, e.1.map f = e.1) : Edge f (.tab l) (.texts (l.map Prod.fst)) := by
  rintro x y w ⟨hm, _⟩
  rw [h _ hm]
  exact (Sum.fits_text _).mono (Sum.le_texts (List.mem_map.2 ⟨_, hm, rfl⟩))

/-- A table of words without digits. -/
theorem edge_words {l : List (Str × Str)} (hl : (l.all fun e => e.1.all (!dig ·)) = true)
    (h : ∀ e ∈ l, e.1.map f = e.1) : Edge f (.tab l) ⟨[], l.map Prod.fst, false, []⟩ := by
  rintro x y w ⟨hm, _⟩
  rw [h _ hm]
  have hf : ∀ c ∈ x, dig c = false := by simpa using List.all_eq_true.1 hl _ hm
  refine ⟨?_, fun _ => List.mem_map.2 ⟨_, hm, rfl⟩, ?_, ?_⟩
  · rintro q b r rfl _ hb
    rw [hf b (by simp)] at hb; cases hb
  · intro c hc hd
    rw [hf c (List.mem_of_getLast? hc)] at hd; cases hd
  · rintro q a b r rfl ha _
    rw [hf a (by simp)] at ha; cases ha

/-- A table of words of digits only. -/
theorem edge_numerals {l : List (Str × Str)} (hl : (l.all fun e => !e.1.isEmpty && e.1.all dig) = true)
    (hf : ∀ c, dig c = true → dig (f c) = true) : Edge f (.tab l) ⟨[[]], [], true, []⟩ := by
  rintro x y w ⟨hm, _⟩
  have hl := List.all_eq_true.1 hl _ hm
  simp only [Bool.and_eq_true, Bool.not_eq_true', List.isEmpty_eq_false_iff] at hl
  obtain ⟨hne, hd⟩ := hl
  have hd : ∀ c ∈ x.map f, dig c = true := by
    intro c hc
    obtain ⟨d, hd', rfl⟩ := List.mem_map.1 hc
    exact hf d (List.all_eq_true.1 hd d hd')
  have hne : x.map f ≠ [] := by simpa using hne
  generalize x.map f = x at hne hd
  refine ⟨?_, ?_, fun _ _ _ => rfl, ?_⟩
  · rintro q b r rfl hq hb
    cases q with
    | nil => simp
    | cons c q =>
      have := hd c (by simp)
      rw [hq c (by simp)] at this; cases this
  · intro hfree
    obtain ⟨c, hc⟩ := List.exists_mem_of_ne_nil _ hne
    have := hd c hc
    rw [hfree c hc] at this; cases this
  · rintro q a b r rfl _ hb
    rw [hd b (by simp)] at hb; cases hb

theorem edge_wt {k : W} (ha : Edge f a s) : Edge f (.wt a k) s := by
  rintro x y w ⟨w₀, h, _⟩
  exact ha _ _ _ h

theorem edge_comp (ha : Edge f a s) : Edge f (.comp a b) s := by
  rintro x y w ⟨m, w₁, w₂, h, _⟩
  exact ha _ _ _ h

theorem edge_addTokens {n : Str} (ha : Edge f a s) : Edge f (addTokens n a) s := by
  intro x y w h
  obtain ⟨m, _, h⟩ := den_addTokens.1 h
  exact ha _ _ _ h

theorem edge_tagField {n : Str} (ha : Edge f a s) : Edge f (tagField n a) s := by
  intro x y w h
  obtain ⟨_, _, z, h⟩ := den_tagField.1 h
  exact ha _ _ _ h

/-- A grammar behind the change of characters. -/
theorem edge_map (hf : ∀ c, f (f c) = f c) (h : ∀ x y w, g.den x y w → a.den (x.map f) y w) (ha : Edge f a s) :
    Edge f g s := by
  intro x y w hg
  have := ha _ _ _ (h x y w hg)
  rwa [List.map_map, show f ∘ f = f from funext hf] at this

/-- The same if the grammar behind the change is looked at as it is. -/
theorem edge_under (h : ∀ x y w, g.den x y w → a.den (x.map f) y w) (ha : Edge id a s) : Edge f g s := by
  intro x y w hg
  have := ha _ _ _ (h x y w hg)
  rwa [List.map_id] at this

/-! ### Characters that are deleted between digits -/

section
variable {D : Rel} {l : Str} {dg : Char → Bool}

/-- The first part without digits stays, and so does the next character. -/
theorem thin_lead {pre x y : Str} {w : W} (h : Rewrites D (.chr dg) (.chr dg) pre x y w) (hpre : ∀ c ∈ pre, dg c = false) :
    ∀ q r, x = q ++ r → (∀ c ∈ q, dg c = false) →
      ∃ r', y = q ++ r' ∧ (r = [] → r' = []) ∧ ∀ b r₀, r = b :: r₀ → ∃ r₁, r' = b :: r₁ := by
  induction h with
  | done =>
    intro q r e _
    obtain ⟨rfl, rfl⟩ := List.append_eq_nil_iff.1 e.symm
    exact ⟨[], rfl, fun _ => rfl, fun b r₀ e => by cases e⟩
  | @keep pre c x y w _ _ ih =>
    intro q r e hq
    cases q with
    | nil =>
      rw [List.nil_append] at e
      subst e
      refine ⟨c :: y, rfl, fun e => by (cases e), fun b r₀ e' => ?_⟩
      obtain ⟨rfl, _⟩ := List.cons.inj e'
      exact ⟨y, rfl⟩
    | cons d q =>
      obtain ⟨rfl, e'⟩ := List.cons.inj e
      obtain ⟨r', rfl, h⟩ := ih (fun b hb => by
        rcases List.mem_append.1 hb with hb | hb
        · exact hpre b hb
        · rw [List.mem_singleton.1 hb]; exact hq c (by simp)) q r e' (fun b hb => hq b (by simp [hb]))
      exact ⟨r', rfl, h⟩
  | @change pre u v w t y w' hl =>
    exfalso
    simp only [Ctx.left] at hl
    cases hp : pre.getLast? with
    | none => rw [hp] at hl; cases hl
    | some c =>
      rw [hp, Option.any_some, hpre c (List.mem_of_getLast? hp)] at hl
      cases hl

/-- The last character stays. -/
theorem thin_last (hD : ∀ u v w, D u v w → v = []) {pre x y : Str} {w : W}
    (h : Rewrites D (.chr dg) (.chr dg) pre x y w) : y.getLast? = x.getLast? := by
  induction h with
  | done => rfl
  | @keep pre c x y w _ _ ih => rw [List.getLast?_cons, List.getLast?_cons, ih]
  | @change pre u v w t y w' _ _ hd hr _ ih =>
    rw [hD _ _ _ hd, List.nil_append, ih]
    cases t with
    | nil => cases hr
    | cons c t => rw [List.getLast?_append]; simp [List.getLast?_cons]

/-- Neighbours that are not deleted stay neighbours. -/
theorem thin_next (hD : ∀ u v w, D u v w → v = [] ∧ ∃ c, u = [c] ∧ c ∈ l) {pre x y : Str} {w : W}
    (h : Rewrites D (.chr dg) (.chr dg) pre x y w) :
    ∀ q a b r, x = q ++ a :: b :: r → a ∉ l → b ∉ l → ∃ q' r', y = q' ++ a :: b :: r' := by
  induction h with
  | done => intro q a b r e; simp at e
  | @keep pre c x y w _ h ih =>
    intro q a b r e ha hb
    cases q with
    | nil =>
      obtain ⟨rfl, e'⟩ := List.cons.inj e
      generalize hp : pre ++ [c] = pre' at h
      cases h with
      | done => cases e'
      | keep =>
        obtain ⟨rfl, _⟩ := List.cons.inj e'
        exact ⟨[], _, rfl⟩
      | change _ _ hd =>
        obtain ⟨_, c', rfl, h'⟩ := hD _ _ _ hd
        obtain ⟨rfl, _⟩ := List.cons.inj e'
        exact absurd h' hb
    | cons d q =>
      obtain ⟨rfl, e'⟩ := List.cons.inj e
      obtain ⟨q', r', rfl⟩ := ih q a b r e' ha hb
      exact ⟨c :: q', r', rfl⟩
  | @change pre u v w t y w' _ _ hd _ _ ih =>
    intro q a b r e ha hb
    obtain ⟨rfl, c', rfl, h'⟩ := hD _ _ _ hd
    cases q with
    | nil =>
      obtain ⟨rfl, _⟩ := List.cons.inj e
      exact absurd h' ha
    | cons d q =>
      obtain ⟨_, e'⟩ := List.cons.inj e
      exact ih q a b r e' ha hb

end

/-- A grammar behind the deletion of some characters between digits. -/
theorem edge_thin {r : G} {l : Str} {dg : Char → Bool} (hD : ∀ u v w, r.den u v w → v = [] ∧ ∃ c, u = [c] ∧ c ∈ l)
    (hl : ∀ c ∈ l, f c = c ∧ dig c = false) (hdg : ∀ c, dg c = true → dig (f c) = true) (ha : Edge f a s) :
    Edge f (.comp (.rw r (.chr dg) (.chr dg)) a) { s with after := s.after ++ l } := by
  rintro x z w ⟨y, w₁, w₂, ⟨_, h1⟩, h2, _⟩
  have hfit := ha _ _ _ h2
  have non : ∀ {q : Str}, Free (q.map f) → ∀ c ∈ q, dg c = false := by
    intro q hq c hc
    by_contra hd
    have := hdg c (by simpa using hd)
    rw [hq (f c) (List.mem_map_of_mem hc)] at this; cases this
  refine ⟨?_, ?_, ?_, ?_⟩
  · intro q b r e hq hb
    obtain ⟨q, r', rfl, rfl, e'⟩ := List.map_eq_append_iff.1 e
    obtain ⟨b, r, rfl, rfl, rfl⟩ := List.map_eq_cons_iff.1 e'
    obtain ⟨r', rfl, _, h⟩ := thin_lead h1 (fun c hc => by cases hc) q _ rfl (non hq)
    obtain ⟨r₁, rfl⟩ := h b r rfl
    exact hfit.lead (q.map f) (f b) (r₁.map f) (by simp) hq hb
  · intro hx
    obtain ⟨r', rfl, h, _⟩ := thin_lead h1 (fun c hc => by cases hc) x [] (by simp) (non hx)
    rw [h rfl, List.append_nil] at hfit
    exact hfit.free hx
  · intro c e hd
    refine hfit.last c ?_ hd
    rw [List.getLast?_map, thin_last (fun u v w h => (hD u v w h).1) h1, ← List.getLast?_map, e]
  · intro q a b r e hda hdb
    obtain ⟨q, r', rfl, rfl, e'⟩ := List.map_eq_append_iff.1 e
    obtain ⟨a, r', rfl, rfl, e''⟩ := List.map_eq_cons_iff.1 e'
    obtain ⟨b, r, rfl, rfl, rfl⟩ := List.map_eq_cons_iff.1 e''
    by_cases hb : b ∈ l
    · rw [(hl b hb).1]
      exact List.mem_append_right _ hb
    · have hal : a ∉ l := fun h => by
        rw [(hl a h).1, (hl a h).2] at hda; cases hda
      obtain ⟨q', r', rfl⟩ := thin_next hD h1 q a b r rfl hal hb
      exact List.mem_append_left _ (hfit.after (q'.map f) (f a) (f b) (r'.map f) (by simp) hda hdb)

/-! ### What comes after a part with a digit -/

/-- The characters other than digits at the beginning and after digits are in the list. -/
structure Trail (l : Str) (x : Str) : Prop where
  first : ∀ c r, x = c :: r → dig c = false → c ∈ l
  after : ∀ q a b r, x = q ++ a :: b :: r → dig a = true → dig b = false → b ∈ l

theorem Trail.append {l x y : Str} (hx : Trail l x) (hy : Trail l y) : Trail l (x ++ y) where
  first c r e hc := by
    cases x with
    | nil => exact hy.first c r e hc
    | cons d x =>
      obtain ⟨rfl, _⟩ := List.cons.inj e
      exact hx.first d x rfl hc
  after q a b r e ha hb := by
    rcases Sum.neighbours e with ⟨r', e1, _⟩ | ⟨e1, e2⟩ | ⟨q', e1, e2⟩
    · exact hx.after q a b r' e1 ha hb
    · exact hy.first b r e2 hb
    · exact hy.after q' a b r e2 ha hb

theorem Trail.nil {l : Str} : Trail l [] := ⟨fun _ _ e => by (cases e), fun q _ _ _ e => by (simp at e)⟩

theorem Sum.Fits.trail {l x : Str} (h : s.Fits x) (h1 : s.firsts ⊆ l) (h2 : s.after ⊆ l) : Trail l x where
  first c r e hc := by subst e; exact h1 (h.first hc)
  after q a b r e ha hb := h2 (h.after q a b r e ha hb)

/-- The same for all inputs of a grammar. -/
def Trails (f : Char → Char) (g : G) (l : Str) : Prop := ∀ x y w, g.den x y w → Trail l (x.map f)

theorem Edge.trails {l : Str} (h : Edge f g s) (h1 : s.firsts ⊆ l) (h2 : s.after ⊆ l) : Trails f g l :=
  fun x y w hd => (h x y w hd).trail h1 h2

theorem trails_add {l : Str} (ha : Trails f a l) (hb : Trails f b l) : Trails f (a + b) l := by
  rintro x y w ⟨x₁, y₁, w₁, x₂, y₂, w₂, h1, h2, rfl, _⟩
  rw [List.map_append]
  exact (ha _ _ _ h1).append (hb _ _ _ h2)

theorem trails_or {l : Str} (ha : Trails f a l) (hb : Trails f b l) : Trails f (a ||| b) l := by
  rintro x y w (h | h)
  · exact ha _ _ _ h
  · exact hb _ _ _ h

theorem trails_ques {l : Str} (ha : Trails f a l) : Trails f a.ques l := by
  intro x y w h
  rcases den_ques.1 h with ⟨rfl, _⟩ | h
  · exact Trail.nil
  · exact ha _ _ _ h

theorem trails_wt {l : Str} {k : W} (ha : Trails f a l) : Trails f (.wt a k) l := by
  rintro x y w ⟨w₀, h, _⟩
  exact ha _ _ _ h

theorem trails_tagField {l n : Str} (ha : Trails f a l) : Trails f (tagField n a) l := by
  intro x y w h
  obtain ⟨_, _, z, h⟩ := den_tagField.1 h
  exact ha _ _ _ h

/-- A part with a digit, and what comes after it. -/
theorem fits_trail {l : Str} {L : List Str} {d : Bool} {A x y : Str} (ha : Sum.Fits ⟨L, [], d, A⟩ x) (hl : A ⊆ l) (hb : Trail l y) :
    Sum.Fits ⟨L, [], true, l⟩ (x ++ y) := by
  refine ⟨?_, ?_, fun _ _ _ => rfl, ?_⟩
  · intro q b r e hf hb
    rcases List.append_eq_append_iff.1 e with ⟨q', h1, h2⟩ | ⟨z, h1, h2⟩
    · rw [h1] at hf
      exact absurd (ha.free (free_append.1 hf).1) (by simp)
    · cases z with
      | nil =>
        rw [List.append_nil] at h1
        subst h1
        exact absurd (ha.free hf) (by simp)
      | cons c z =>
        obtain ⟨rfl, _⟩ := List.cons.inj h2
        exact ha.lead q _ z h1 hf hb
  · intro hf
    exact absurd (ha.free (free_append.1 hf).1) (by simp)
  · have hx : Trail l y → ∀ q a b r, x ++ y = q ++ a :: b :: r → dig a = true → dig b = false → b ∈ l := by
      intro hy q a b r e hda hdb
      rcases Sum.neighbours e with ⟨r', e1, _⟩ | ⟨e1, e2⟩ | ⟨q', e1, e2⟩
      · exact hl (ha.after q a b r' e1 hda hdb)
      · exact hy.first b r e2 hdb
      · exact hy.after q' a b r e2 hda hdb
    exact hx hb

/-- The same for grammars. -/
theorem edge_trail {l : Str} {L : List Str} {d : Bool} {A : Str} (ha : Edge f a ⟨L, [], d, A⟩) (hl : A ⊆ l) (hb : Trails f b l) :
    Edge f (a + b) ⟨L, [], true, l⟩ := by
  rintro x y w ⟨x₁, y₁, w₁, x₂, y₂, w₂, h1, h2, rfl, _⟩
  rw [List.map_append]
  exact fits_trail (ha _ _ _ h1) hl (hb _ _ _ h2)

end Verif.Wfst
