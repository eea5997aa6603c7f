import Verif.Wfst.Utter
import Verif.Wfst.Pipeline
import Verif.Cpp.Runtime

/-
A grammar all of whose taggings can be verbalized, run by both runtimes.
-/

namespace Verif.Wfst

open Verif.Token.Spec (esc write writeAll Tok Writable)
open Verif.Token (Orders chosenFields RepeatFree)
open Verif.NBest (Pipeline normalize results)
open Verif.Cpp (Deployed ParseType pySchemaOf encAll firstOutput)

theorem VText.of_writeAll {ks : List Tok} (h : ∀ k ∈ ks, VText (write k)) : VText (writeAll ks) := by
  induction ks with
  | nil => intro c hc; cases hc
  | cons k ks ih =>
    cases ks with
    | nil => simpa [writeAll, List.intercalate] using h k (by simp)
    | cons l ls =>
      have h2 := ih fun k' hk' => h k' (by simp [hk'])
      have e : writeAll (k :: l :: ls) = write k ++ (' ' :: writeAll (l :: ls)) := by
        simp [writeAll, List.intercalate]
      rw [e]
      intro c hc
      rcases List.mem_append.1 hc with hc | hc
      · exact h k (by simp) c hc
      · rcases List.mem_cons.1 hc with rfl | hc
        · decide
        · exact h2 c hc

theorem VText.of_den {g : G} (h : (mustC ['\x00'] g).2 = true) {x y : Str} {w : W} (hx : VText x)
    (hd : g.den x y w) : VText y := by
  intro c hc
  unfold vchar
  rw [bne_iff_ne]
  rintro rfl
  obtain ⟨d, hd1, hd2⟩ := hasAny_iff.1 ((must_both ['\x00'] g).2 h _ _ _ hd
    (hasAny_iff.2 ⟨_, hc, by simp⟩))
  rw [List.mem_singleton.1 hd2] at hd1
  have := hx _ hd1
  revert this; decide

theorem forall₂_left {α β : Type} {R : α → β → Prop} {l : List α} {l' : List β}
    (h : List.Forall₂ R l l') : ∀ a ∈ l, ∃ b ∈ l', R a b := by
  induction h with
  | nil => simp
  | cons h1 _ ih =>
    intro a ha
    rcases List.mem_cons.1 ha with rfl | ha
    · exact ⟨_, by simp, h1⟩
    · obtain ⟨b, hb, hr⟩ := ih a ha
      exact ⟨b, by simp [hb], hr⟩

/-- What reordering makes of a tagging, and that it can be verbalized. -/
theorem utters_reordered {orders : Orders} (hrf : RepeatFree orders) {v g : G} (hg : Utters orders v g)
    {x t : Str} {w : W} (hx : x ≠ []) (h : (stream g).den x t w) :
    ∃ r, Verif.Token.reorder orders t = .ok r ∧ VText r ∧ Takes (.star v) r := by
  obtain ⟨ks, toks, r, _, hp, hd, _, hgood, hr, htk⟩ := utters_stream hg hx h
  refine ⟨r, hr, ?_, htk⟩
  rw [Verif.Token.reorder_denotes hp hd] at hr
  cases hr
  refine VText.of_writeAll ?_
  intro k hk
  obtain ⟨k', hk', rfl⟩ := List.mem_map.1 hk
  exact (hgood k' hk').vtext hrf

/-- The two runtimes present the same text to the verbalizer. -/
def SameReorder (orders : Orders) (t : ParseType) (tagged : Str) : Prop :=
  ∀ r, Verif.Token.reorder orders tagged = .ok r →
    Verif.Cpp.reorder (Verif.Cpp.ordersOf (Verif.Cpp.schemaOf t)) (encAll tagged) = .ok (encAll r)

/-- They do for taggings of tokens that are read alike. -/
theorem sameReorder {orders : Orders} {t : ParseType} {vu tu : G}
    (ho : orders = Verif.Token.ordersOf (pySchemaOf t)) (hjt : t ≠ .jaTn)
    (hu : Utters orders vu tu) {x tagged : Str} {w : W} (hne : x ≠ [])
    (htag : (stream tu).den x tagged w) : SameReorder orders t tagged := by
  intro r hre
  obtain ⟨ks, toks, r', hst, hp, hden, hclean, hgood, hre', htk⟩ := utters_stream hu hne htag
  have hdecl : ∀ k ∈ toks, ∀ declared, Verif.Token.ordersOf (pySchemaOf t) k.name = some declared →
      ("preserve_order".toList, "true".toList) ∈ k.members ∨ ∀ key ∈ k.order, key ∈ declared := by
    intro k hk declared hdc
    obtain ⟨k', hk', hde⟩ := forall₂_left hden k hk
    rw [hde.1, ← ho] at hdc
    rcases (hgood k' hk').declared declared hdc with h | h
    · left; rw [hde.2.2]; exact h
    · right
      intro key hkey
      rw [hde.2.1] at hkey
      obtain ⟨f, hf, rfl⟩ := List.mem_map.1 hkey
      exact h f hf
  obtain ⟨out, h1, h2⟩ := Verif.Cpp.C12_pipelines_agree t hjt tagged toks hp hclean hdecl
  rw [← ho, hre] at h1
  cases h1
  exact h2

/-- Both runtimes on a text that has a tagging. -/
theorem deployed_agrees {p : Pipeline W} {orders : Orders} {t : ParseType} (hrf : RepeatFree orders)
    {tu vu : G} (hr : Runs p orders (stream tu) (.star vu)) (ht : (stream tu).ok = true)
    (hv : (G.star vu).ok = true) (hu : Utters orders vu tu) (hnul : (mustC ['\x00'] (.star vu)).2 = true)
    {tagger verbalizer : Verif.Cpp.Bytes → Verif.Cpp.Bytes} (hd : Deployed p tagger verbalizer)
    {x : Str} (hne : x ≠ []) {t₀ : Str} {w₀ : W} (h0 : (stream tu).den x t₀ w₀)
    (hsame : SameReorder orders t (firstOutput (p.tagger x))) :
    ∃ z, (∃ fuel, normalize p fuel x (.int 1) = some (.ok (.one z))) ∧
      Verif.Cpp.normalize t tagger verbalizer (encAll x) = .ok (encAll z) := by
  obtain ⟨r₀, hr₀, _, y₀, v₀, hy₀⟩ := utters_reordered hrf hu hne h0
  obtain ⟨fuel, out, hout⟩ := normalize_succeeds hr ht hv hne
    (fun t' w' h' => by
      obtain ⟨r, hr, _⟩ := utters_reordered hrf hu hne h'
      exact ⟨r, hr⟩) h0 hr₀ hy₀ 1 (le_refl 1)
  -- the first tagging
  obtain ⟨c₀, hc₀⟩ := exists_cost ht h0
  obtain ⟨o, ho0⟩ := Verif.Cpp.results_zero_of ((hr.tags x t₀ c₀).2 hc₀)
  have hbest := (Verif.NBest.results_spec _ _ _ ho0).2.1
  have htag := ((hr.tags x o.text o.weight).1 hbest).1
  rw [Verif.Cpp.firstOutput_of ho0] at hsame
  obtain ⟨ks, toks, r, hst, hp, hden, hclean, hgood, hre, htk⟩ := utters_stream hu hne htag
  obtain ⟨r', hr', hvt, y, w, hy⟩ := utters_reordered hrf hu hne htag
  rw [hre] at hr'
  cases hr'
  obtain ⟨c, hc⟩ := exists_cost hv hy
  obtain ⟨z, rfl, hzv, hz⟩ := Verif.Cpp.best_runtime t p tagger verbalizer hd x hne o.text
    (Verif.Cpp.firstOutput_of ho0) ((Verif.Token.parse_iff_located _ _).1 hp).1 r y c
    (by rw [hr.orders]; exact hre) (hsame r hre) ((hr.verbs r y c).2 hc) fuel out hout
  refine ⟨z, ⟨fuel, hout⟩, ?_⟩
  rw [hz]
  congr 1
  refine Verif.Cpp.encAll_filter z ?_
  obtain ⟨vo, hvo⟩ := Verif.Cpp.results_zero_of ((hr.verbs r y c).2 hc)
  have hzt := ((hr.verbs r _ _).1 (Verif.NBest.results_spec _ _ _ hvo).2.1).1
  rw [← Verif.Cpp.firstOutput_of hvo, ← hzv] at hzt
  intro d hdz
  have := VText.of_den hnul hvt hzt d hdz
  unfold vchar at this
  simpa using this

/-- The first tagging is a tagging. -/
theorem first_tagging {p : Pipeline W} {orders : Orders} {tg vg : G} (hr : Runs p orders tg vg)
    (ht : tg.ok = true) {x t₀ : Str} {w₀ : W} (h0 : tg.den x t₀ w₀) :
    ∃ w, tg.den x (firstOutput (p.tagger x)) w := by
  obtain ⟨c₀, hc₀⟩ := exists_cost ht h0
  obtain ⟨o, ho0⟩ := Verif.Cpp.results_zero_of ((hr.tags x t₀ c₀).2 hc₀)
  rw [Verif.Cpp.firstOutput_of ho0]
  exact ⟨_, ((hr.tags x o.text o.weight).1 (Verif.NBest.results_spec _ _ _ ho0).2.1).1⟩

end Verif.Wfst
