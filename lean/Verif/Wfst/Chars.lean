import Verif.Wfst.Local

/-
Where the characters of a result come from.
-/

namespace Verif.Wfst

open Verif.Token.Spec (esc write writeAll Tok Writable Stream Block Fields Value IsName NameChar)
open Verif.Token (chosenFields RepeatFree)
open Verif.NBest (Pipeline normalize grammar)
open Verif.NBest.Spec (Cost)

/-- The characters that the grammar writes and has not read are in the class. -/
def adds (p : Char → Bool) : G → Bool
  | .lit _ | .cls _ | .proj _ | .diff _ _ => true
  | .cross _ v => v.all p
  | .tab t => t.all fun e => e.2.all p
  | .cat a b | .alt a b | .comp a b => adds p a && adds p b
  | .star a | .wt a _ | .rw a _ _ => adds p a

theorem rewrites_adds {p : Char → Bool} {R : Rel} (hR : ∀ {x y w}, R x y w → ∀ c ∈ y, c ∈ x ∨ p c = true) {l r : Ctx} {pre x y : Str}
    {w : W} (h : Rewrites R l r pre x y w) : ∀ c ∈ y, c ∈ x ∨ p c = true := by
  induction h with
  | done => intro c hc; cases hc
  | keep _ _ ih =>
    intro c hc
    rcases List.mem_cons.1 hc with rfl | hc
    · exact .inl (by simp)
    · exact (ih c hc).imp (fun h => by simp [h]) id
  | change _ _ hr _ _ ih =>
    intro c hc
    rcases List.mem_append.1 hc with hc | hc
    · exact (hR hr c hc).imp (fun h => by simp [h]) id
    · exact (ih c hc).imp (fun h => by simp [h]) id

theorem adds_den {p : Char → Bool} {g : G} (h : adds p g = true) {x y : Str} {w : W} (hd : g.den x y w) :
    ∀ c ∈ y, c ∈ x ∨ p c = true := by
  induction g generalizing x y w with
  | lit s => obtain ⟨rfl, rfl, _⟩ := hd; exact fun c hc => .inl hc
  | cross a v ih => obtain ⟨rfl, _⟩ := hd; exact fun c hc => .inr (List.all_eq_true.1 h c hc)
  | cls q => obtain ⟨c, _, rfl, rfl, _⟩ := hd; exact fun c hc => .inl hc
  | tab t => exact fun c hc => .inr (List.all_eq_true.1 (List.all_eq_true.1 h _ hd.1) c hc)
  | cat a b iha ihb =>
    obtain ⟨x₁, y₁, w₁, x₂, y₂, w₂, h1, h2, rfl, rfl, _⟩ := hd
    simp only [adds, Bool.and_eq_true] at h
    intro c hc
    rcases List.mem_append.1 hc with hc | hc
    · exact (iha h.1 h1 c hc).imp (fun h => by simp [h]) id
    · exact (ihb h.2 h2 c hc).imp (fun h => by simp [h]) id
  | alt a b iha ihb =>
    simp only [adds, Bool.and_eq_true] at h
    exact hd.elim (iha h.1) (ihb h.2)
  | star a ih =>
    induction hd with
    | nil => intro c hc; cases hc
    | cons h1 _ ih2 =>
      intro c hc
      rcases List.mem_append.1 hc with hc | hc
      · exact (ih h h1 c hc).imp (fun h => by simp [h]) id
      · exact (ih2 c hc).imp (fun h => by simp [h]) id
  | comp a b iha ihb =>
    obtain ⟨m, w₁, w₂, h1, h2, _⟩ := hd
    simp only [adds, Bool.and_eq_true] at h
    intro c hc
    rcases ihb h.2 h2 c hc with hc | hc
    · exact iha h.1 h1 c hc
    · exact .inr hc
  | proj a ih => obtain ⟨rfl, _⟩ := hd; exact fun c hc => .inl hc
  | wt a v ih => obtain ⟨w₀, h1, _⟩ := hd; exact ih h h1
  | rw a l r ih => exact rewrites_adds (fun hr => ih h hr) hd.2
  | diff a b _ _ => obtain ⟨rfl, _⟩ := hd; exact fun c hc => .inl hc

/-! ### Reordering adds only letters and marks of the token format -/

theorem value_chars {w v : Str} (h : Value w v) : ∀ c ∈ v, c ∈ w := by
  induction h with
  | nil => intro c hc; cases hc
  | plain _ _ _ ih | escaped _ _ ih | other _ _ _ ih =>
    intro d hd
    simp only [List.mem_cons] at hd ⊢
    rcases hd with rfl | hd
    · simp
    · first
        | exact .inr (ih d hd)
        | exact .inr (.inr (ih d hd))
        | rcases hd with rfl | hd
          · simp
          · exact .inr (.inr (ih d hd))

theorem fields_chars {b : Str} {fs : List (Str × Str)} (h : Fields b fs) : ∀ f ∈ fs, (∀ c ∈ f.1, c ∈ b) ∧ ∀ c ∈ f.2, c ∈ b := by
  induction h with
  | close => intro f hf; cases hf
  | field _ _ hv _ ih =>
    intro f hf
    rcases List.mem_cons.1 hf with rfl | hf
    · exact ⟨fun c hc => by simp [show c ∈ _ from hc], fun c hc => by simp [value_chars hv c hc]⟩
    · exact ⟨fun c hc => by simp [(ih f hf).1 c hc], fun c hc => by simp [(ih f hf).2 c hc]⟩

theorem stream_chars {t : Str} {ks : List Tok} (h : Stream t ks) :
    ∀ k ∈ ks, (∀ c ∈ k.name, c ∈ t) ∧ ∀ f ∈ k.fields, (∀ c ∈ f.1, c ∈ t) ∧ ∀ c ∈ f.2, c ∈ t := by
  induction h with
  | done => intro k hk; cases hk
  | @block sp b k rest ks _ hb _ ih =>
    intro k' hk
    rcases List.mem_cons.1 hk with rfl | hk
    · cases hb with
      | mk hn hf =>
        refine ⟨fun c hc => by simp [show c ∈ _ from hc], fun f hf' => ?_⟩
        have := fields_chars hf f hf'
        exact ⟨fun c hc => by simp [this.1 c hc], fun c hc => by simp [this.2 c hc]⟩
    · obtain ⟨h1, h2⟩ := ih k' hk
      exact ⟨fun c hc => by simp [h1 c hc], fun f hf => ⟨fun c hc => by simp [(h2 f hf).1 c hc], fun c hc => by simp [(h2 f hf).2 c hc]⟩⟩

/-- The marks of the token format. -/
def marks : Str := [' ', '{', '}', ':', '"', '\\']

theorem write_chars {k : Tok} {c : Char} (h : c ∈ write k) :
    c ∈ k.name ∨ (∃ f ∈ k.fields, c ∈ f.1 ∨ c ∈ f.2) ∨ c ∈ marks := by
  unfold write at h
  simp only [List.mem_append, List.mem_flatMap] at h
  rcases h with ((h | h) | ⟨f, hf, h⟩) | h
  · exact .inl h
  · exact .inr (.inr ((by decide : ∀ c ∈ " {".toList, c ∈ marks) c h))
  · rcases h with (((h | h) | h) | h) | h
    · exact .inr (.inr ((by decide : ∀ c ∈ " ".toList, c ∈ marks) c h))
    · exact .inr (.inl ⟨f, hf, .inl h⟩)
    · exact .inr (.inr ((by decide : ∀ c ∈ ": \"".toList, c ∈ marks) c h))
    · unfold esc at h
      obtain ⟨d, hd, h⟩ := List.mem_flatMap.1 h
      split at h
      · rcases List.mem_cons.1 h with rfl | h
        · exact .inr (.inr (by decide))
        · exact .inr (.inl ⟨f, hf, .inr (List.mem_singleton.1 h ▸ hd)⟩)
      · exact .inr (.inl ⟨f, hf, .inr (List.mem_singleton.1 h ▸ hd)⟩)
    · exact .inr (.inr ((by decide : ∀ c ∈ "\"".toList, c ∈ marks) c h))
  · exact .inr (.inr ((by decide : ∀ c ∈ " }".toList, c ∈ marks) c h))

theorem writeAll_chars {ks : List Tok} {c : Char} (h : c ∈ writeAll ks) : (∃ k ∈ ks, c ∈ write k) ∨ c ∈ marks := by
  induction ks with
  | nil => cases h
  | cons k ks ih =>
    cases ks with
    | nil =>
      refine .inl ⟨k, by simp, ?_⟩
      simpa [writeAll, List.intercalate] using h
    | cons k' ks =>
      have e : writeAll (k :: k' :: ks) = write k ++ ' ' :: writeAll (k' :: ks) := by
        simp [writeAll, List.intercalate]
      rw [e] at h
      rcases List.mem_append.1 h with h | h
      · exact .inl ⟨k, by simp, h⟩
      · rcases List.mem_cons.1 h with rfl | h
        · exact .inr (by decide)
        · rcases ih h with ⟨k'', hk, hc⟩ | h
          · exact .inl ⟨k'', List.mem_cons_of_mem _ hk, hc⟩
          · exact .inr h

theorem reorder_chars {orders : Verif.Token.Orders} (hrep : RepeatFree orders) {t r : Str} (h : Verif.Token.reorder orders t = .ok r) :
    ∀ c ∈ r, c ∈ t ∨ c ∈ marks := by
  obtain ⟨toks, hp⟩ : ∃ toks, Verif.Token.parse t = .ok toks := by
    unfold Verif.Token.reorder Verif.Token.reorderWithSpans at h
    cases hp : Verif.Token.parse t with
    | ok toks => exact ⟨toks, rfl⟩
    | error e => rw [hp] at h; cases h
  obtain ⟨ks, h1, h2, h3⟩ := Verif.Token.parse_denotes hp
  rw [Verif.Token.reorder_denotes hp h2] at h
  cases h
  intro c hc
  rcases writeAll_chars hc with ⟨k, hk, hc⟩ | hc
  · obtain ⟨k0, hk0, rfl⟩ := List.mem_map.1 hk
    obtain ⟨a1, a2⟩ := stream_chars h1 k0 hk0
    rcases write_chars hc with hc | ⟨f, hf, hc⟩ | hc
    · exact .inl (a1 c hc)
    · have hf' : f ∈ k0.fields := (Verif.Token.chosenFields_perm hrep (h3 k0 hk0).2.2).mem_iff.1 hf
      exact .inl (hc.elim ((a2 f hf').1 c) ((a2 f hf').2 c))
    · exact .inr hc
  · exact .inr hc

/-- The characters that the grammar writes and has not read are in the class. -/
def Within (p : Char → Bool) (g : G) : Prop := ∀ x y w, g.den x y w → ∀ c ∈ y, c ∈ x ∨ p c = true

theorem within_of_adds {p : Char → Bool} {g : G} (h : adds p g = true) : Within p g := fun _ _ _ => adds_den h

/-- The characters of every result of a pipeline. -/
theorem result_within {q : Char → Bool} {p : Pipeline W} {orders : Verif.Token.Orders} {tg vg : G} (hr : Runs p orders tg vg)
    (hrep : RepeatFree orders) (ht : Within q tg) (hv : Within q vg) (hm : ∀ c ∈ marks, q c = true) {x : Str} (hne : x ≠ [])
    {n : Int} {fuel : Nat} {out} (h : normalize p fuel x (.int n) = some (.ok out)) :
    ∀ z ∈ out.toList, ∀ c ∈ z, c ∈ x ∨ q c = true := by
  intro z hz c hc
  obtain ⟨-, -, -, hcost, -⟩ := Verif.NBest.C25_distinct p fuel x n out hne h
  obtain ⟨w, t, tw, r, v, m, a1, a2, a3, -, -⟩ := hcost z hz
  have b1 := ((hr.tags _ _ _).1 a1).1
  have b3 := ((hr.verbs _ _ _).1 a3).1
  have a2' : (Verif.Token.reorder p.orders t).toOption = some r := a2
  rw [hr.orders] at a2'
  have b2 : Verif.Token.reorder orders t = .ok r := by
    cases e : Verif.Token.reorder orders t with
    | ok r' => rw [e] at a2'; cases a2'; rfl
    | error e' => rw [e] at a2'; cases a2'
  rcases hv _ _ _ b3 c hc with hc | hc
  · rcases reorder_chars hrep b2 c hc with hc | hc
    · exact ht _ _ _ b1 c hc
    · exact .inr (hm c hc)
  · exact .inr hc

theorem result_chars {q : Char → Bool} {p : Pipeline W} {orders : Verif.Token.Orders} {tg vg : G} (hr : Runs p orders tg vg)
    (hrep : RepeatFree orders) (ht : adds q tg = true) (hv : adds q vg = true) (hm : ∀ c ∈ marks, q c = true) {x : Str} (hne : x ≠ [])
    {n : Int} {fuel : Nat} {out} (h : normalize p fuel x (.int n) = some (.ok out)) :
    ∀ z ∈ out.toList, ∀ c ∈ z, c ∈ x ∨ q c = true :=
  result_within hr hrep (within_of_adds ht) (within_of_adds hv) hm hne h

end Verif.Wfst
