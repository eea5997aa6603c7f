import Verif.Wfst.Edge
import Verif.Wfst.Must

/-
The summaries of Edge.lean worked out by a function, for inputs that have none of some words `N` in them: the entries
of tables with such a word do not matter.
-/

namespace Verif.Wfst

/-- None of the words is in the text. -/
def Clear (N : List Str) (x : Str) : Prop := ∀ n ∈ N, ¬ n <:+: x

theorem Clear.infix {N : List Str} {u x : Str} (h : Clear N x) (hu : u <:+: x) : Clear N u :=
  fun n hn hi => h n hn (hi.trans hu)

theorem clear_append {N : List Str} {x y : Str} (h : Clear N (x ++ y)) : Clear N x ∧ Clear N y :=
  ⟨h.infix (List.prefix_append x y).isInfix, h.infix (List.suffix_append x y).isInfix⟩

/-- Each element once. -/
def nub {α : Type} [BEq α] : List α → List α
  | [] => []
  | a :: l => let m := nub l; if m.contains a then m else a :: m

theorem mem_nub {α : Type} [BEq α] [LawfulBEq α] {l : List α} {a : α} (h : a ∈ l) : a ∈ nub l := by
  induction l with
  | nil => cases h
  | cons b l ih =>
    simp only [nub]
    split
    · rename_i hc
      rcases List.mem_cons.1 h with rfl | h
      · simpa using hc
      · exact ih h
    · rcases List.mem_cons.1 h with rfl | h
      · simp
      · exact List.mem_cons_of_mem _ (ih h)

namespace Sum

/-- The summary without repetitions. -/
def tidy (s : Sum) : Sum := ⟨nub s.lead, nub s.free, s.ld, nub s.after⟩

theorem le_tidy {s : Sum} : Le s s.tidy := ⟨fun _ => mem_nub, fun _ => mem_nub, id, fun _ => mem_nub⟩

end Sum

/-- The entries without the words. -/
def clearOf (N : List Str) (l : List (Str × Str)) : List Str := (l.map Prod.fst).filter fun x => !hasWord N x

theorem mem_clearOf {N : List Str} {l : List (Str × Str)} {e : Str × Str} (h : e ∈ l) (hc : Clear N e.1) : e.1 ∈ clearOf N l := by
  refine List.mem_filter.2 ⟨List.mem_map_of_mem h, ?_⟩
  cases hw : hasWord N e.1 with
  | false => rfl
  | true =>
    obtain ⟨n, hn, hi⟩ := hasWord_iff.1 hw
    exact absurd hi (hc n hn)

/-- The summary of a grammar, if there is one. -/
def edgeOf (f : Char → Char) (N : List Str) : G → Option Sum
  | .lit s => some (.text (s.map f))
  | .cross a _ => edgeOf f N a
  | .tab l => some (Sum.texts ((clearOf N l).map (List.map f))).tidy
  | .cat a b => match edgeOf f N a, edgeOf f N b with
    | some s, some t => some (s.cat t).tidy
    | _, _ => none
  | .alt a b => match edgeOf f N a, edgeOf f N b with
    | some s, some t => some (s.alt t).tidy
    | _, _ => none
  | .star a => match edgeOf f N a with
    | some s => if s.free.all (·.isEmpty) then some s.many.tidy else none
    | none => none
  | .wt a _ => edgeOf f N a
  | .cls _ | .comp _ _ | .proj _ | .rw _ _ _ | .diff _ _ => none

theorem edgeOf_den {f : Char → Char} {N : List Str} {g : G} {s : Sum} (h : edgeOf f N g = some s) {x y : Str} {w : W}
    (hd : g.den x y w) (hc : Clear N x) : s.Fits (x.map f) := by
  induction g generalizing s x y w with
  | lit u =>
    obtain ⟨rfl, _⟩ := hd
    cases h
    exact Sum.fits_text _
  | cross a v ih =>
    obtain ⟨_, hd⟩ := hd
    exact ih h hd hc
  | tab l =>
    cases h
    exact ((Sum.fits_text _).mono (Sum.le_texts (List.mem_map_of_mem (mem_clearOf hd.1 hc)))).mono Sum.le_tidy
  | cat a b iha ihb =>
    obtain ⟨x₁, y₁, w₁, x₂, y₂, w₂, h1, h2, rfl, _⟩ := hd
    simp only [edgeOf] at h
    split at h
    · rename_i s₁ s₂ e1 e2
      cases h
      rw [List.map_append]
      exact ((iha e1 h1 (clear_append hc).1).cat (ihb e2 h2 (clear_append hc).2)).mono Sum.le_tidy
    · cases h
  | alt a b iha ihb =>
    simp only [edgeOf] at h
    split at h
    · rename_i s₁ s₂ e1 e2
      cases h
      rcases hd with hd | hd
      · exact ((iha e1 hd hc).mono Sum.le_alt_left).mono Sum.le_tidy
      · exact ((ihb e2 hd hc).mono Sum.le_alt_right).mono Sum.le_tidy
    · cases h
  | star a ih =>
    simp only [edgeOf] at h
    split at h
    · rename_i s₁ e1
      split at h
      · rename_i hs
        cases h
        refine Sum.Fits.mono ?_ Sum.le_tidy
        change Star a.den x y w at hd
        induction hd with
        | nil => exact Sum.fits_nil (by simp [Sum.many])
        | cons h1 _ ih' =>
          rw [List.map_append]
          exact ((ih e1 h1 (clear_append hc).1).cat (ih' (clear_append hc).2)).mono (Sum.le_many hs)
      · cases h
    · cases h
  | wt a k ih =>
    obtain ⟨w₀, hd, _⟩ := hd
    exact ih h hd hc
  | cls _ => cases h
  | comp _ _ => cases h
  | proj _ => cases h
  | rw _ _ _ => cases h
  | diff _ _ => cases h

/-- The characters other than digits at the beginning and after digits of the inputs of a grammar. -/
def trailOf (f : Char → Char) (N : List Str) : G → Option Str
  | .lit s => let t := Sum.text (s.map f); some (nub (t.firsts ++ t.after))
  | .cross a _ => trailOf f N a
  | .tab l => let t := Sum.texts ((clearOf N l).map (List.map f)); some (nub (t.firsts ++ t.after))
  | .cat a b | .alt a b => match trailOf f N a, trailOf f N b with
    | some s, some t => some (nub (s ++ t))
    | _, _ => none
  | .star a => trailOf f N a
  | .wt a _ => trailOf f N a
  | .cls _ | .comp _ _ | .proj _ | .rw _ _ _ | .diff _ _ => none

theorem Trail.mono {l m x : Str} (h : Trail l x) (hl : l ⊆ m) : Trail m x where
  first c r e hc := hl (h.first c r e hc)
  after q a b r e ha hb := hl (h.after q a b r e ha hb)

theorem trailOf_den {f : Char → Char} {N : List Str} {g : G} {l : Str} (h : trailOf f N g = some l) {x y : Str} {w : W}
    (hd : g.den x y w) (hc : Clear N x) : Trail l (x.map f) := by
  have base : ∀ {s : Sum} {x : Str}, s.Fits x → Trail (nub (s.firsts ++ s.after)) x := fun hs =>
    hs.trail (fun _ hc => mem_nub (List.mem_append_left _ hc)) (fun _ hc => mem_nub (List.mem_append_right _ hc))
  have left : ∀ {s t : Str}, s ⊆ nub (s ++ t) := by
    intro s t c hc; exact mem_nub (List.mem_append_left _ hc)
  have right : ∀ {s t : Str}, t ⊆ nub (s ++ t) := by
    intro s t c hc; exact mem_nub (List.mem_append_right _ hc)
  induction g generalizing l x y w with
  | lit u =>
    obtain ⟨rfl, _⟩ := hd
    cases h
    exact base (Sum.fits_text _)
  | cross a v ih =>
    obtain ⟨_, hd⟩ := hd
    exact ih h hd hc
  | tab l =>
    cases h
    exact base ((Sum.fits_text _).mono (Sum.le_texts (List.mem_map_of_mem (mem_clearOf hd.1 hc))))
  | cat a b iha ihb =>
    obtain ⟨x₁, y₁, w₁, x₂, y₂, w₂, h1, h2, rfl, _⟩ := hd
    simp only [trailOf] at h
    split at h
    · rename_i s₁ s₂ e1 e2
      cases h
      rw [List.map_append]
      exact ((iha e1 h1 (clear_append hc).1).mono left).append ((ihb e2 h2 (clear_append hc).2).mono right)
    · cases h
  | alt a b iha ihb =>
    simp only [trailOf] at h
    split at h
    · rename_i s₁ s₂ e1 e2
      cases h
      rcases hd with hd | hd
      · exact (iha e1 hd hc).mono left
      · exact (ihb e2 hd hc).mono right
    · cases h
  | star a ih =>
    change Star a.den x y w at hd
    induction hd with
    | nil => exact Trail.nil
    | cons h1 _ ih' =>
      rw [List.map_append]
      exact (ih h h1 (clear_append hc).1).append (ih' (clear_append hc).2)
  | wt a k ih =>
    obtain ⟨w₀, hd, _⟩ := hd
    exact ih h hd hc
  | cls _ => cases h
  | comp _ _ => cases h
  | proj _ => cases h
  | rw _ _ _ => cases h
  | diff _ _ => cases h

/-! ### Behind a change of characters -/

section
variable {c f : Char → Char} {N : List Str} {a b g : G} {s t : Sum}

/-- Every input of the grammar that has, once it is changed by `c`, none of the words in it, is as the summary says. -/
def EdgeN (c f : Char → Char) (N : List Str) (g : G) (s : Sum) : Prop :=
  ∀ x y w, g.den x y w → Clear N (x.map c) → s.Fits ((x.map c).map f)

theorem EdgeN.mono (h : EdgeN c f N g s) (hl : s.le t = true) : EdgeN c f N g t :=
  fun x y w hd hc => (h x y w hd hc).mono (Sum.le_iff hl)

/-- A grammar behind the change. -/
theorem edgeN_under (h : ∀ x y w, g.den x y w → a.den (x.map c) y w) (hs : (edgeOf f N a).isSome = true) :
    EdgeN c f N g ((edgeOf f N a).getD .nil) := by
  intro x y w hd hc
  obtain ⟨s, e⟩ := Option.isSome_iff_exists.1 hs
  have := edgeOf_den e (h x y w hd) hc
  rwa [e]

theorem edgeN_add (ha : EdgeN c f N a s) (hb : EdgeN c f N b t) : EdgeN c f N (a + b) (s.cat t) := by
  rintro x y w ⟨x₁, y₁, w₁, x₂, y₂, w₂, h1, h2, rfl, _⟩ hc
  rw [List.map_append] at hc
  rw [List.map_append, List.map_append]
  exact (ha _ _ _ h1 (clear_append hc).1).cat (hb _ _ _ h2 (clear_append hc).2)

theorem edgeN_or (ha : EdgeN c f N a s) (hb : EdgeN c f N b t) : EdgeN c f N (a ||| b) (s.alt t) := by
  rintro x y w (h | h) hc
  · exact (ha _ _ _ h hc).mono Sum.le_alt_left
  · exact (hb _ _ _ h hc).mono Sum.le_alt_right

theorem edgeN_ques (ha : EdgeN c f N a s) : EdgeN c f N a.ques (Sum.nil.alt s) := by
  intro x y w h hc
  rcases den_ques.1 h with ⟨rfl, _⟩ | h
  · exact Sum.fits_nil (by simp [Sum.alt, Sum.nil])
  · exact (ha _ _ _ h hc).mono Sum.le_alt_right

theorem edgeN_insert {u : Str} : EdgeN c f N (insert u) .nil := by
  intro x y w h hc
  obtain ⟨rfl, _⟩ := den_insert.1 h
  exact Sum.fits_nil (by simp [Sum.nil])

theorem edgeN_addTokens {n : Str} (ha : EdgeN c f N a s) : EdgeN c f N (addTokens n a) s := by
  intro x y w h hc
  obtain ⟨m, _, h⟩ := den_addTokens.1 h
  exact ha _ _ _ h hc

theorem edgeN_tagField {n : Str} (ha : EdgeN c f N a s) : EdgeN c f N (tagField n a) s := by
  intro x y w h hc
  obtain ⟨_, _, z, h⟩ := den_tagField.1 h
  exact ha _ _ _ h hc

/-- A part with a digit, and what comes after it. -/
theorem edgeN_trail {l : Str} {L : List Str} {d : Bool} {A : Str} (ha : EdgeN c f N a ⟨L, [], d, A⟩) (hl : A ⊆ l)
    (hb : ∀ x y w, b.den x y w → Clear N (x.map c) → Trail l ((x.map c).map f)) : EdgeN c f N (a + b) ⟨L, [], true, l⟩ := by
  rintro x y w ⟨x₁, y₁, w₁, x₂, y₂, w₂, h1, h2, rfl, _⟩ hc
  rw [List.map_append] at hc
  rw [List.map_append, List.map_append]
  exact fits_trail (ha _ _ _ h1 (clear_append hc).1) hl (hb _ _ _ h2 (clear_append hc).2)

end

end Verif.Wfst
