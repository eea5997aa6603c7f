import Verif.EnTn.Model
import Verif.EnTn.Spec
import Verif.Wfst.Loose
import Verif.Wfst.Reads

/-
Grammars that write fields: sequences of quoted fields with spaces between them. The field names
along the paths of a grammar are collected so that a decidable check shows them to be different.
-/

namespace Verif.EnTn

open Verif.Wfst
open Verif.Wfst.Spec (Quoted)
open Verif.Token.Spec (esc Tok Value Fields Block Stream Spaces IsName Distinct)
open Spec (White Between markers QuotesOf Clear)

/-! ### Acceptors -/

/-- The grammar writes what it reads. -/
def same : G → Bool
  | .lit _ | .cls _ | .proj _ | .diff _ _ => true
  | .cross _ _ | .rw _ _ _ => false
  | .tab t => t.all fun e => e.1 == e.2
  | .cat a b | .alt a b | .comp a b => same a && same b
  | .star a | .wt a _ => same a

theorem same_den {g : G} (h : same g = true) : ∀ {x y : Str} {w : W}, g.den x y w → y = x := by
  induction g with
  | lit s => rintro x y w ⟨rfl, rfl, _⟩; rfl
  | cls p => rintro x y w ⟨c, _, rfl, rfl, _⟩; rfl
  | proj a => rintro x y w ⟨rfl, _⟩; rfl
  | diff a b => rintro x y w ⟨rfl, _⟩; rfl
  | cross a v => cases h
  | rw a l r => cases h
  | tab t =>
    rintro x y w ⟨hm, _⟩
    have := List.all_eq_true.1 h _ hm
    exact (beq_iff_eq.1 this).symm
  | cat a b iha ihb =>
    simp only [same, Bool.and_eq_true] at h
    rintro x y w ⟨x₁, y₁, w₁, x₂, y₂, w₂, h1, h2, rfl, rfl, rfl⟩
    rw [iha h.1 h1, ihb h.2 h2]
  | alt a b iha ihb =>
    simp only [same, Bool.and_eq_true] at h
    rintro x y w (h1 | h1)
    · exact iha h.1 h1
    · exact ihb h.2 h1
  | comp a b iha ihb =>
    simp only [same, Bool.and_eq_true] at h
    rintro x y w ⟨m, w₁, w₂, h1, h2, rfl⟩
    rw [ihb h.2 h2, iha h.1 h1]
  | star a ih =>
    intro x y w h1
    have h1 : Star a.den x y w := h1
    clear * - h1 ih h
    induction h1 with
    | nil => rfl
    | cons h1 _ ih' => rw [ih h h1, ih']
  | wt a k ih =>
    rintro x y w ⟨w₀, h1, _⟩
    exact ih h h1

/-! ### Fields -/

/-- A sequence of fields with spaces around them. -/
inductive Bits : Str → List (Str × Str) → Prop
  | done {sp} : Spaces sp → Bits sp []
  | field {sp k w v rest fs} : Spaces sp → IsName k → Value w v → Bits rest fs →
      Bits (sp ++ (k ++ ([':', ' ', '"'] ++ (w ++ ('"' :: rest))))) ((k, v) :: fs)

theorem spaces_append {a b : Str} (ha : Spaces a) (hb : Spaces b) : Spaces (a ++ b) := by
  intro c hc
  rcases List.mem_append.1 hc with hc | hc
  · exact ha c hc
  · exact hb c hc

theorem Bits.append {s t : Str} {fs gs : List (Str × Str)} (h : Bits s fs) (h' : Bits t gs) :
    Bits (s ++ t) (fs ++ gs) := by
  induction h with
  | done hs =>
    cases h' with
    | done hs' => exact .done (spaces_append hs hs')
    | field hs' hk hv hr =>
      rw [← List.append_assoc]; exact .field (spaces_append hs hs') hk hv hr
  | field hs hk hv _ ih =>
    have := Bits.field hs hk hv ih
    simpa using this

theorem Bits.fields {s : Str} {fs : List (Str × Str)} (h : Bits s fs) : Fields (s ++ [' ', '}']) fs := by
  induction h with
  | @done sp hs =>
    have : Fields ((sp ++ [' ']) ++ ['}']) [] := .close (spaces_append hs (by simp [Spaces]))
    simpa using this
  | field hs hk hv _ ih =>
    have := Fields.field hs hk hv ih
    simpa using this

theorem value_esc (v : Str) : Value (esc v) v := by
  induction v with
  | nil => exact .nil
  | cons c v ih =>
    rw [esc_cons]
    by_cases hc : c = '"' ∨ c = '\\'
    · rw [if_pos hc]; exact .escaped hc ih
    · rw [if_neg hc]
      exact .plain (fun h => hc (.inl h)) (fun h => hc (.inr h)) ih

theorem value_plain {v : Str} (h : ∀ c ∈ v, c ≠ '"' ∧ c ≠ '\\') : Value v v := by
  induction v with
  | nil => exact .nil
  | cons c v ih => exact .plain (h c (by simp)).1 (h c (by simp)).2 (ih fun d hd => h d (by simp [hd]))

theorem Spec.QuotesOf.append {fs gs : List (Str × Str)} {vs us : List Str} (h : QuotesOf fs vs) (h' : QuotesOf gs us) :
    QuotesOf (fs ++ gs) (vs ++ us) := by
  induction h with
  | nil => exact h'
  | take _ ih => exact .take ih
  | year _ ih => exact .year ih
  | skip hm _ ih => exact .skip hm ih

/-- Text of separators. -/
abbrev Gap (s : Str) : Prop := ∀ c ∈ s, Between c

theorem gap_nil : Gap [] := by intro c hc; cases hc
theorem gap_white {c : Char} (h : White c) : Gap [c] := by
  intro d hd; rw [List.mem_singleton.1 hd]; exact .inl h

theorem gap_append {a b : Str} (ha : Gap a) (hb : Gap b) : Gap (a ++ b) := by
  intro c hc
  rcases List.mem_append.1 hc with hc | hc
  · exact ha c hc
  · exact hb c hc

theorem quoted_append {vs us : List Str} {x y : Str} (h : Quoted Gap vs x) (h' : Quoted Gap us y) :
    Quoted Gap (vs ++ us) (x ++ y) := by
  induction h with
  | done hs =>
    cases h' with
    | done hs' => exact .done (gap_append hs hs')
    | next hs' hq => rw [← List.append_assoc]; exact .next (gap_append hs hs') hq
  | next hs _ ih =>
    simp only [List.append_assoc, List.cons_append]
    exact .next hs ih

/-- The outputs are fields that quote the input; the field names are listed. -/
def Body (g : G) (N : List (List Str)) : Prop :=
  ∀ x t w, g.den x t w → ∃ fs vs, Bits t fs ∧ fs.map Prod.fst ∈ N ∧ QuotesOf fs vs ∧ Quoted Gap vs x

/-- All concatenations. -/
def joins (A B : List (List Str)) : List (List Str) := A.flatMap fun p => B.map fun q => p ++ q

theorem body_add {a b : G} {A B} (ha : Body a A) (hb : Body b B) : Body (a + b) (joins A B) := by
  rintro x t w ⟨x₁, y₁, w₁, x₂, y₂, w₂, h1, h2, rfl, rfl, rfl⟩
  obtain ⟨fs, vs, h11, h12, h13, h14⟩ := ha _ _ _ h1
  obtain ⟨gs, us, h21, h22, h23, h24⟩ := hb _ _ _ h2
  refine ⟨fs ++ gs, vs ++ us, h11.append h21, ?_, h13.append h23, quoted_append h14 h24⟩
  rw [List.map_append]
  exact List.mem_flatMap.2 ⟨_, h12, List.mem_map.2 ⟨_, h22, rfl⟩⟩

theorem body_or {a b : G} {A B} (ha : Body a A) (hb : Body b B) : Body (a ||| b) (A ++ B) := by
  rintro x t w (h | h)
  · obtain ⟨fs, vs, h1, h2, h3⟩ := ha _ _ _ h
    exact ⟨fs, vs, h1, List.mem_append_left _ h2, h3⟩
  · obtain ⟨fs, vs, h1, h2, h3⟩ := hb _ _ _ h
    exact ⟨fs, vs, h1, List.mem_append_right _ h2, h3⟩

theorem body_gap {s t : Str} (hs : Gap s) (ht : Spaces t) :
    ∃ fs vs, Bits t fs ∧ fs.map Prod.fst ∈ [([] : List Str)] ∧ QuotesOf fs vs ∧ Quoted Gap vs s :=
  ⟨[], [], .done ht, by simp, .nil, .done hs⟩

theorem body_ques {a : G} {A} (ha : Body a A) : Body a.ques ([] :: A) := by
  rintro x t w (⟨rfl, rfl, _⟩ | h)
  · exact ⟨[], [], .done (by intro c hc; cases hc), by simp, .nil, .done gap_nil⟩
  · obtain ⟨fs, vs, h1, h2, h3⟩ := ha _ _ _ h
    exact ⟨fs, vs, h1, List.mem_cons_of_mem _ h2, h3⟩

theorem body_wt {a : G} {A k} (ha : Body a A) : Body (.wt a k) A := by
  rintro x t w ⟨w₀, h, _⟩
  exact ha _ _ _ h

theorem body_pri {a b : G} {A B} (ha : Body a A) (hb : Body b B) : Body (priorityUnion a b) (A ++ B) := by
  rintro x t w (h | ⟨m, w₁, w₂, ⟨rfl, _⟩, h, _⟩)
  · obtain ⟨fs, vs, h1, h2, h3⟩ := ha _ _ _ h
    exact ⟨fs, vs, h1, List.mem_append_left _ h2, h3⟩
  · obtain ⟨fs, vs, h1, h2, h3⟩ := hb _ _ _ h
    exact ⟨fs, vs, h1, List.mem_append_right _ h2, h3⟩

theorem body_comp {a b : G} {B} (ha : same a = true) (hb : Body b B) : Body (.comp a b) B := by
  rintro x t w ⟨m, w₁, w₂, h1, h2, _⟩
  rw [same_den ha h1] at h2
  exact hb _ _ _ h2

theorem body_tagField {n : Str} {g : G} (hn : IsName n) : Body (tagField n g) [[n]] := by
  intro x t w h
  obtain ⟨rfl, _, _⟩ := den_tagField.1 h
  refine ⟨[(n, x)], [x], ?_, by simp, .take .nil, ?_⟩
  · have := Bits.field (sp := []) (rest := []) (by simp [Spaces]) hn (value_esc x) (.done (by simp [Spaces]))
    simpa using this
  · have := Quoted.next (sep := Gap) (s := []) (v := x) (x := []) gap_nil (.done gap_nil)
    simpa using this

theorem body_insert {v : Str} (hv : Spaces v) : Body (Wfst.insert v) [[]] := by
  intro x t w h
  obtain ⟨rfl, rfl, _⟩ := den_insert.1 h
  exact body_gap gap_nil hv

theorem body_isp : Body isp [[]] := body_insert (by simp [Spaces])

theorem body_crossS {u v : Str} (hu : Gap u) (hv : Spaces v) : Body (crossS u v) [[]] := by
  intro x t w h
  obtain ⟨rfl, rfl, _⟩ := den_crossS.1 h
  exact body_gap hu hv

theorem body_del {u : Str} (hu : Gap u) : Body (del u) [[]] := by
  intro x t w h
  obtain ⟨rfl, rfl, _⟩ := den_del.1 h
  exact body_gap hu (by simp [Spaces])

theorem body_dsq : Body dsq [[], []] := body_ques (body_del (by decide))

theorem body_lit_space : Body (.lit [' ']) [[]] := by
  rintro x t w ⟨rfl, rfl, _⟩
  exact body_gap (by decide) (by simp [Spaces])

theorem white_of {c : Char} (h : isSpace c = true) : White c := by
  simp only [isSpace, Bool.or_eq_true, decide_eq_true_eq, Bool.and_eq_true] at h
  rcases h with (h | ⟨h1, h2⟩) | h
  · exact .inl h
  · exact .inr (.inl ⟨h1, h2⟩)
  · exact .inr (.inr h)

theorem of_white {c : Char} (h : White c) : isSpace c = true := by
  simp only [isSpace, Bool.or_eq_true, decide_eq_true_eq, Bool.and_eq_true]
  rcases h with h | ⟨h1, h2⟩ | h
  · exact .inl (.inl h)
  · exact .inl (.inr ⟨h1, h2⟩)
  · exact .inr h

theorem star_white {x y : Str} {w : W} (h : Star (G.cls isSpace).den x y w) : y = x ∧ Gap x := by
  induction h with
  | nil => exact ⟨rfl, gap_nil⟩
  | cons h1 _ ih =>
    obtain ⟨c, hc, rfl, rfl, _⟩ := h1
    obtain ⟨rfl, h2⟩ := ih
    exact ⟨rfl, gap_append (gap_white (white_of hc)) h2⟩

theorem body_deleteSpace : Body DELETE_SPACE [[]] := by
  intro x t w h
  have h : Star (delete (.cls isSpace)).den x t w := h
  have : Gap x ∧ t = [] := by
    clear * - h
    induction h with
    | nil => exact ⟨gap_nil, rfl⟩
    | cons h1 _ ih =>
      obtain ⟨rfl, c, hc, rfl, _, _⟩ := h1
      obtain ⟨h2, rfl⟩ := ih
      exact ⟨gap_append (gap_white (white_of hc)) h2, rfl⟩
  rw [this.2]
  exact body_gap this.1 (by simp [Spaces])

theorem body_extraSpace : Body DELETE_EXTRA_SPACE [[]] := by
  rintro x t w ⟨rfl, x₁, y₁, w₁, x₂, y₂, w₂, h1, h2, rfl, _, rfl⟩
  exact body_gap (star_white (Star.cons (R := (G.cls isSpace).den) h1 h2)).2 (by simp [Spaces])

end Verif.EnTn
