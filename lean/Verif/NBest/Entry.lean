import Verif.NBest.Final
import Verif.Align.Props

namespace Verif.NBest
open Verif.Token (Str)
open Spec

variable {W : Type} [LinearOrder W] [AddCommGroup W]

/-- The result or results. -/
def Shaped.toList {α : Type} : Shaped α → List α
  | .one a => [a]
  | .many l => l

theorem validate_int (n : Int) :
    validateNbest (.int n) = if n < 1 then .error .value else .ok n.toNat := rfl

theorem shape_ok {α : Type} {n : Nat} {l : List α} {out : Shaped α} (h : shape n l = .ok out)
    (hlen : l.length ≤ n) :
    out.toList = l ∧ (n = 1 → ∃ a, out = .one a) ∧ (n ≠ 1 → out = .many l) := by
  unfold shape at h
  split at h
  · rename_i hn
    split at h
    · cases h
    · rename_i a rest
      cases h
      have : rest = [] := by
        rw [List.length_cons] at hlen
        exact List.eq_nil_of_length_eq_zero (by omega)
      subst this
      exact ⟨rfl, fun _ => ⟨a, rfl⟩, fun h => absurd hn h⟩
  · rename_i hn
    cases h
    exact ⟨rfl, fun h => absurd h hn, fun _ => rfl⟩

theorem mapM_ok {α β : Type} {f : α → Except Err β} {l : List α} {r : List β} :
    mapM' f l = .ok r ↔ List.Forall₂ (fun a b => f a = .ok b) l r := by
  induction l generalizing r with
  | nil =>
    unfold mapM'
    constructor
    · intro h; cases h; exact .nil
    · intro h; cases h; rfl
  | cons a l ih =>
    unfold mapM'
    constructor
    · intro h
      cases hf : f a with
      | error e => rw [hf] at h; cases h
      | ok b =>
        rw [hf] at h
        cases hm : mapM' f l with
        | error e => rw [hm] at h; cases h
        | ok bs => rw [hm] at h; cases h; exact .cons hf (ih.1 hm)
    · intro h
      cases h with
      | cons hf hl =>
        rw [hf, ih.2 hl]

theorem mapM_error {α β : Type} {f : α → Except Err β} {l : List α} {e}
    (h : mapM' f l = .error e) : ∃ a ∈ l, f a = .error e := by
  induction l with
  | nil => cases h
  | cons a l ih =>
    unfold mapM' at h
    cases hf : f a with
    | error e' => rw [hf] at h; cases h; exact ⟨a, List.mem_cons_self .., hf⟩
    | ok b =>
      rw [hf] at h
      cases hm : mapM' f l with
      | error e' =>
        rw [hm] at h; cases h
        obtain ⟨a', ha, h'⟩ := ih hm
        exact ⟨a', List.mem_cons_of_mem _ ha, h'⟩
      | ok bs => rw [hm] at h; cases h

theorem forall2_right {α β : Type} {R : α → β → Prop} {l : List α} {r : List β}
    (h : List.Forall₂ R l r) {b : β} (hb : b ∈ r) : ∃ a, R a b := by
  induction h with
  | nil => cases hb
  | cons hab _ ih =>
    rcases List.mem_cons.1 hb with rfl | hb
    · exact ⟨_, hab⟩
    · exact ih hb

theorem forall2_map {α β γ : Type} {f : α → γ} {g : β → γ} {l : List α} {r : List β}
    (h : List.Forall₂ (fun a b => f a = g b) l r) : l.map f = r.map g := by
  induction h with
  | nil => rfl
  | cons hab _ ih => rw [List.map_cons, List.map_cons, hab, ih]

section
variable [IsOrderedAddMonoid W]

theorem normalize_ok {p : Pipeline W} {fuel : Nat} {input : Str} {n : Int} {out : Shaped Str}
    (hin : input ≠ []) (h : normalize p fuel input (.int n) = some (.ok out)) :
    1 ≤ n ∧ ∃ cs, candidates p fuel input n.toNat = some (.ok cs) ∧ cs ≠ [] ∧
      out.toList = (cs.map fun c => c.output) ∧ (n = 1 → ∃ a, out = .one a) ∧
      (n ≠ 1 → out = .many (cs.map fun c => c.output)) := by
  unfold normalize at h
  rw [validate_int] at h
  by_cases hn : n < 1
  · simp [hn] at h
  · simp only [hn, if_false, hin] at h
    refine ⟨by omega, ?_⟩
    cases hc : candidates p fuel input n.toNat with
    | none => rw [hc] at h; cases h
    | some r =>
      rw [hc] at h
      cases r with
      | error e => cases h
      | ok cs =>
        simp only [Option.some.injEq] at h
        obtain ⟨hne, a, k, s, hf⟩ := candidates_final p input hc
        obtain ⟨h1, h2, h3⟩ := shape_ok h (by rw [List.length_map]; exact hf.atMost)
        exact ⟨cs, rfl, hne, h1, fun h' => h2 (by omega), fun h' => h3 (by omega)⟩

theorem normalize_of {p : Pipeline W} {fuel : Nat} {input : Str} {n : Int} (hin : input ≠ [])
    (hn : 1 ≤ n) {cs} (hc : candidates p fuel input n.toNat = some (.ok cs)) :
    ∃ out, normalize p fuel input (.int n) = some (.ok out) ∧
      out.toList = (cs.map fun c => c.output) := by
  obtain ⟨hne, a, k, s, hf⟩ := candidates_final p input hc
  have hs : ∃ out, shape n.toNat (cs.map fun c => c.output) = .ok out := by
    unfold shape
    split
    · cases cs with
      | nil => exact absurd rfl hne
      | cons c cs => exact ⟨_, rfl⟩
    · exact ⟨_, rfl⟩
  obtain ⟨out, hs⟩ := hs
  refine ⟨out, ?_, (shape_ok hs (by rw [List.length_map]; exact hf.atMost)).1⟩
  unfold normalize
  rw [validate_int, if_neg (by omega)]
  simp only [hin, if_false, hc, hs]

theorem mapping_ok {p : Pipeline W} {fuel : Nat} {input : Str} {n : Int} {incl : Bool}
    {out : Shaped Result} (hin : input ≠ [])
    (h : normalizeWithMapping p fuel input (.int n) incl = some (.ok out)) :
    1 ≤ n ∧ ∃ cs, candidates p fuel input n.toNat = some (.ok cs) ∧ cs ≠ [] ∧
      List.Forall₂ (fun c r => normalizeCandidate p input c incl = .ok r) cs out.toList ∧
      (n = 1 → ∃ a, out = .one a) ∧ (n ≠ 1 → out = .many out.toList) := by
  unfold normalizeWithMapping at h
  rw [validate_int] at h
  by_cases hn : n < 1
  · simp [hn] at h
  · simp only [hn, if_false, hin] at h
    refine ⟨by omega, ?_⟩
    cases hc : candidates p fuel input n.toNat with
    | none => rw [hc] at h; cases h
    | some r =>
      rw [hc] at h
      cases r with
      | error e => cases h
      | ok cs =>
        simp only at h
        cases hm : mapM' (fun c => normalizeCandidate p input c incl) cs with
        | error e => rw [hm] at h; cases h
        | ok rs =>
          rw [hm] at h
          simp only [Option.some.injEq] at h
          have hall := mapM_ok.1 hm
          obtain ⟨hne, a, k, s, hf⟩ := candidates_final p input hc
          have hlen : rs.length ≤ n.toNat := by
            rw [← hall.length_eq]; exact hf.atMost
          obtain ⟨h1, h2, h3⟩ := shape_ok h hlen
          refine ⟨cs, rfl, hne, by rw [h1]; exact hall, fun h' => h2 (by omega), fun h' => ?_⟩
          rw [h1]; exact h3 (by omega)

end

/-! ### Mapping records -/

theorem normalizeCandidate_ok {p : Pipeline W} {input : Str} {c : Candidate W} {incl : Bool} {r}
    (h : normalizeCandidate p input c incl = .ok r) :
    ∃ tokens reordered spans outSpans inSpans output,
      Verif.Token.parse c.tagged = .ok tokens ∧
      Verif.Token.reorderWithSpans p.orders c.tagged = .ok (reordered, spans) ∧
      Verif.Align.transduceWithSpans reordered (p.verbPath reordered c.output).1
        (p.verbPath reordered c.output).2 spans = .ok (output, outSpans) ∧
      Verif.Align.traceInputSpans input c.tagged (p.tagPath input c.tagged) (tokenSpans tokens) =
        .ok inSpans ∧
      r = ⟨input, output, mappings input output incl (tokens.zip (inSpans.zip outSpans))⟩ := by
  unfold normalizeCandidate at h
  cases hv : verbalizeTagged p c.tagged c.output with
  | error e => rw [hv] at h; cases h
  | ok q =>
    obtain ⟨output, tokens, outSpans⟩ := q
    rw [hv] at h
    simp only at h
    cases ht : Verif.Align.traceInputSpans input c.tagged (p.tagPath input c.tagged)
        (tokenSpans tokens) with
    | error e => rw [ht] at h; cases h
    | ok inSpans =>
      rw [ht] at h
      simp only [Except.ok.injEq] at h
      unfold verbalizeTagged at hv
      split at hv
      · cases hv
      · cases hv
      · rename_i tokens' reordered spans hp hr
        simp only at hv
        split at hv
        · cases hv
        · rename_i output' spans' htr
          simp only [Except.ok.injEq, Prod.mk.injEq] at hv
          obtain ⟨rfl, rfl, rfl⟩ := hv
          exact ⟨_, _, _, _, _, _, hp, hr, htr, ht, h.symm⟩

/-- The record of one token. -/
def record (input output : Str) (q : Verif.Token.Token × (Nat × Nat) × (Nat × Nat)) : Mapping :=
  let source := slice input q.2.1.1 q.2.1.2
  let spoken := slice output q.2.2.1 q.2.2.2
  ⟨kindOf source spoken, q.1.name,
    q.2.1.1, q.2.1.2, q.2.2.1, q.2.2.2, source, spoken⟩

theorem kindOf_spec (u v : Str) : (kindOf u v = .equal ↔ u = v) ∧
    (kindOf u v = .delete ↔ u ≠ v ∧ v = []) ∧ (kindOf u v = .replace ↔ u ≠ v ∧ v ≠ []) := by
  unfold kindOf
  by_cases h1 : u = v
  · simp [h1]
  · rw [if_neg h1]
    by_cases h2 : v = []
    · rw [if_pos h2]; subst h2; simp [h1]
    · rw [if_neg h2]; simp [h1, h2]

theorem mappings_true (input output : Str) (l) :
    mappings input output true l = l.map (record input output) := by
  induction l with
  | nil => rfl
  | cons q l ih =>
    obtain ⟨t, ⟨a, b⟩, ⟨x, y⟩⟩ := q
    unfold mappings
    simp only [true_or, if_true, List.map_cons, ih]
    rfl

theorem mappings_false (input output : Str) (l) :
    mappings input output false l =
      (l.map (record input output)).filter fun m => decide (m.kind ≠ .equal) := by
  induction l with
  | nil => rfl
  | cons q l ih =>
    obtain ⟨t, ⟨a, b⟩, ⟨x, y⟩⟩ := q
    unfold mappings
    simp only [Bool.false_eq_true, false_or, List.map_cons]
    rw [List.filter_cons]
    have hk : (record input output (t, (a, b), (x, y))).kind =
        kindOf (slice input a b) (slice output x y) := rfl
    rw [hk, ih]
    by_cases h : kindOf (slice input a b) (slice output x y) = .equal
    · simp only [h, not_true_eq_false, if_false, decide_false, ne_eq, Bool.false_eq_true]
    · simp only [h, ne_eq, not_false_eq_true, if_true, decide_true]
      rfl

theorem mem_mappings {input output : Str} {incl : Bool} {l} {m : Mapping}
    (h : m ∈ mappings input output incl l) : ∃ q ∈ l, m = record input output q := by
  cases incl with
  | true =>
    rw [mappings_true] at h
    obtain ⟨q, hq, rfl⟩ := List.mem_map.1 h
    exact ⟨q, hq, rfl⟩
  | false =>
    rw [mappings_false] at h
    obtain ⟨q, hq, rfl⟩ := List.mem_map.1 (List.mem_of_mem_filter h)
    exact ⟨q, hq, rfl⟩

end Verif.NBest
