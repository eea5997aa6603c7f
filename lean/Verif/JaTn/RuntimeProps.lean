import Verif.JaTn.Utter
import Verif.JaTn.StreamProps
import Verif.Wfst.Deploy

/-
Properties C78 and C79 of the Japanese normalizer: every tagging can be verbalized, and the C++
runtime returns what Python returns except where token types are missing
from its schema.
-/

namespace Verif.JaTn

open Verif.Wfst
open Verif.Token.Spec (write writeAll Tok Writable)
open Verif.NBest (Pipeline normalize)
open Verif.Cpp (Deployed encAll firstOutput)

theorem nul_verbalizer (c : Config) :
    (mustC ['\x00'] (.star (.comp (verbalizerU c) (postprocessor c)))).2 = true := by
  have h : (mustC ['\x00'] (postprocessor c)).2 = true := by
    obtain ⟨a, b, d, e, f⟩ := c
    revert a b d e f
    decide +kernel
  simp only [mustC, nul_verbalizerU, h]
  simp

/-- **C79.** Every tagging of a text can be reordered, and the verbalizer accepts what results. -/
theorem C79_ja_tn (c : Config) (tg vg : G) (ht : tagger c = some tg) (hv : verbalizer c = some vg)
    (x : Str) (hne : x ≠ []) (t : Str) (w : W) (h : tg.den x t w) :
    ∃ r, Verif.Token.reorder tokenOrders t = .ok r ∧ ∃ y u, vg.den r y u := by
  rw [tagger_eq] at ht
  rw [verbalizer_eq] at hv
  cases ht; cases hv
  obtain ⟨r, h1, _, h2⟩ := utters_reordered repeatFree (utters c) hne h
  exact ⟨r, h1, h2⟩

/-- The two runtimes read a tagging alike when it has no token of a type that the C++ schema lacks. -/
theorem sameReorder_ja (c : Config) {x tagged : Str} {w : W} (hne : x ≠ [])
    (htag : (stream (taggerU c)).den x tagged w)
    (hno : ∀ toks, Verif.Token.parse tagged = .ok toks → ∀ k ∈ toks,
      k.name ∉ ["fraction".toList, "measure".toList, "time".toList]) :
    SameReorder tokenOrders .jaTn tagged := by
  intro r hre
  obtain ⟨ks, toks, r', hst, hp, hden, hclean, hgood, hre', htk⟩ := utters_stream (utters c) hne htag
  have hsame : ∀ n : Str, n ∉ ["fraction".toList, "measure".toList, "time".toList] →
      Verif.Token.ordersOf Verif.Cpp.jaTnOrdersList n = tokenOrders n := by
    intro n hn
    simp only [List.mem_cons, List.not_mem_nil, or_false, not_or] at hn
    have g1 : ("fraction".toList = n) = False := by simpa using fun h => hn.1 h.symm
    have g2 : ("measure".toList = n) = False := by simpa using fun h => hn.2.1 h.symm
    have g3 : ("time".toList = n) = False := by simpa using fun h => hn.2.2 h.symm
    unfold tokenOrders Verif.Token.ordersOf Verif.Cpp.jaTnOrdersList
    simp only [List.find?_cons, List.find?_nil, g1, g2, g3, decide_false]
  have hdecl : ∀ k ∈ toks, ∀ declared,
      Verif.Token.ordersOf Verif.Cpp.jaTnOrdersList k.name = some declared →
      ("preserve_order".toList, "true".toList) ∈ k.members ∨ ∀ key ∈ k.order, key ∈ declared := by
    intro k hk declared hdc
    obtain ⟨k', hk', hde⟩ := forall₂_left hden k hk
    rw [hsame _ (hno toks hp k hk), hde.1] at hdc
    rcases (hgood k' hk').declared declared hdc with h | h
    · left; rw [hde.2.2]; exact h
    · right
      intro key hkey
      rw [hde.2.1] at hkey
      obtain ⟨f, hf, rfl⟩ := List.mem_map.1 hkey
      exact h f hf
  obtain ⟨out, h1, h2⟩ := Verif.Cpp.C12_reorder_agrees
    (Verif.Token.ordersOf Verif.Cpp.jaTnOrdersList) (Verif.Cpp.ordersOf Verif.Cpp.jaTnOrdersList)
    (Verif.Cpp.ordersOf_enc _ (by decide +kernel)) tagged toks hp hclean hdecl
  have e : out = r := by
    rw [Verif.Token.reorder_denotes hp hden] at h1 hre
    have : (ks.map fun k => (⟨k.name, Verif.Token.chosenFields (Verif.Token.ordersOf Verif.Cpp.jaTnOrdersList) k⟩ : Tok)) =
        ks.map fun k => ⟨k.name, Verif.Token.chosenFields tokenOrders k⟩ := by
      refine List.map_congr_left ?_
      intro k hk
      obtain ⟨k', hk', hde⟩ := forall₂_left hden.flip k hk
      have := hsame _ (hno toks hp k' hk')
      rw [hde.1] at this
      unfold Verif.Token.chosenFields Verif.Token.Token.chosenOrder Verif.Token.ofTok
      simp only [this]
    rw [this, hre] at h1
    exact (Except.ok.inj h1).symm
  rw [← e]
  exact h2

/-- **C78, the part that holds for Japanese normalization.** Missing: texts whose first tagging has a
token of type `fraction`, `measure` or `time`, which the schema of the C++ runtime lacks. For every
other text that is not empty and has no NUL the C++ runtime returns the bytes of what Python returns. -/
theorem C78_ja_tn_partial (c : Config) (tg vg : G) (ht : tagger c = some tg) (hv : verbalizer c = some vg)
    (p : Pipeline W) (hr : Runs p tokenOrders tg vg) (tagger verbalizer : Verif.Cpp.Bytes → Verif.Cpp.Bytes)
    (hd : Deployed p tagger verbalizer) (x : Str) (hx : VText x) (hne : x ≠ [])
    (hno : ∀ toks, Verif.Token.parse (firstOutput (p.tagger x)) = .ok toks → ∀ k ∈ toks,
      k.name ∉ ["fraction".toList, "measure".toList, "time".toList]) :
    ∃ z, (∃ fuel, normalize p fuel x (.int 1) = some (.ok (.one z))) ∧
      Verif.Cpp.normalize .jaTn tagger verbalizer (encAll x) = .ok (encAll z) := by
  rw [tagger_eq] at ht
  rw [verbalizer_eq] at hv
  cases ht; cases hv
  obtain ⟨⟨w, h0⟩, _⟩ := char_by_char (fallback c) hx hne
  obtain ⟨w', h1⟩ := first_tagging hr (tagger_ok c) h0
  exact deployed_agrees repeatFree hr (tagger_ok c) (verbalizer_ok c) (utters c) (nul_verbalizer c) hd hne h0
    (sameReorder_ja c hne h1 hno)

/-- There are such pipelines and such machines. -/
theorem C78_ja_tn_exists (c : Config) : ∃ tg vg p t v, tagger c = some tg ∧ verbalizer c = some vg ∧
    Runs p tokenOrders tg vg ∧ Deployed p t v := by
  obtain ⟨tg, vg, p, h1, h2, h3⟩ := C51_ja_tn_exists c
  obtain ⟨t, v, h4⟩ := Verif.Cpp.deployed_exists p
  exact ⟨tg, vg, p, t, v, h1, h2, h3, h4⟩

/-! ### The type `fraction` -/

theorem fraction_taggings :
    ((stream (taggerU {})).outputs t!"1/2").all
      (fun e => (e.1 == t!"fraction { numerator: \"1\" denominator: \"2\" }" && (105000 : Int) ≤ e.2) ||
        (105000 : Int) < e.2) ∧
    ((stream (taggerU {})).outputs t!"1/2").any
      (fun e => e.1 == t!"fraction { numerator: \"1\" denominator: \"2\" }" && e.2 == (105000 : Int)) := by
  decide +kernel

theorem fraction_mute :
    (G.star (.comp (verbalizerU {}) (postprocessor {}))).outputs
      t!"fraction { numerator: \"1\" denominator: \"2\" }" = [] := by
  decide +kernel

theorem fraction_said :
    ((G.star (.comp (verbalizerU {}) (postprocessor {}))).outputs
      t!"fraction { denominator: \"2\" numerator: \"1\" }").all (fun e => e.1 == t!"二分の一") ∧
    (G.star (.comp (verbalizerU {}) (postprocessor {}))).outputs
      t!"fraction { denominator: \"2\" numerator: \"1\" }" ≠ [] := by
  decide +kernel

/-- **C78 is false of the code for Japanese normalization.** With the default switches Python reads
`1/2` as 二分の一. The C++ runtime, with the same machines, returns nothing: its schema has no entry for
`fraction`, so the verbalizer gets the numerator before the denominator and accepts no such text. -/
theorem C78_ja_tn_false (tg vg : G) (ht : tagger {} = some tg) (hv : verbalizer {} = some vg)
    (p : Pipeline W) (hr : Runs p tokenOrders tg vg) (tagger verbalizer : Verif.Cpp.Bytes → Verif.Cpp.Bytes)
    (hd : Deployed p tagger verbalizer) :
    (∃ fuel, normalize p fuel t!"1/2" (.int 1) = some (.ok (.one t!"二分の一"))) ∧
      Verif.Cpp.normalize .jaTn tagger verbalizer (encAll t!"1/2") = .ok [] := by
  obtain ⟨fuel, out, hout⟩ := C51_ja_tn {} tg vg ht hv p hr t!"1/2" (by unfold VText; decide) (by decide) 1 (by decide)
  rw [tagger_eq] at ht
  rw [verbalizer_eq] at hv
  cases ht; cases hv
  have hall := List.all_eq_true.1 fraction_taggings.1
  obtain ⟨⟨t, w⟩, hm, ht⟩ := List.any_eq_true.1 fraction_taggings.2
  simp only [Bool.and_eq_true, beq_iff_eq] at ht
  obtain ⟨rfl, rfl⟩ := ht
  have hbest : (p.tagger t!"1/2").best t!"fraction { numerator: \"1\" denominator: \"2\" }" =
      some (105000 : Int) := by
    rw [hr.tags]
    refine ⟨(mem_outputs (tagger_ok {})).1 hm, ?_⟩
    intro w hw
    have := hall _ ((mem_outputs (tagger_ok {})).2 hw)
    simp only [Bool.or_eq_true, Bool.and_eq_true, decide_eq_true_eq] at this
    rcases this with h | h
    · exact h.2
    · exact Int.le_of_lt h
  have htag := Verif.Cpp.firstOutput_unique hbest (by
    intro y v hv hne
    have := hall _ ((mem_outputs (tagger_ok {})).2 ((hr.tags _ _ _).1 hv).1)
    simp only [Bool.or_eq_true, Bool.and_eq_true, beq_iff_eq, decide_eq_true_eq] at this
    rcases this with h | h
    · exact absurd h.1 hne
    · exact h)
  constructor
  · refine ⟨fuel, ?_⟩
    have hre : Verif.Token.reorder p.orders t!"fraction { numerator: \"1\" denominator: \"2\" }" =
        .ok t!"fraction { denominator: \"2\" numerator: \"1\" }" := by
      rw [hr.orders]; decide +kernel
    obtain ⟨⟨y, v⟩, hy⟩ := List.exists_mem_of_ne_nil _ fraction_said.2
    have hy' := (mem_outputs (verbalizer_ok {})).1 hy
    obtain ⟨c, hc⟩ := exists_cost (verbalizer_ok {}) hy'
    have hb := (hr.verbs _ _ _).2 hc
    have := Verif.Cpp.first_answer p _ (by decide) _ htag (by decide) _ _ _ hre hb fuel out hout
    rw [hout, this]
    obtain ⟨o, ho⟩ := Verif.Cpp.results_zero_of hb
    have h1 := ((hr.verbs _ _ _).1 (Verif.NBest.results_spec _ _ _ ho).2.1).1
    have h2 := List.all_eq_true.1 fraction_said.1 _ ((mem_outputs (verbalizer_ok {})).2 h1)
    have h3 : o.text = t!"二分の一" := beq_iff_eq.1 h2
    rw [Verif.Cpp.firstOutput_of ho, h3]
  · rw [Verif.Cpp.runtime_answer .jaTn p tagger verbalizer hd _ (by decide) _ htag (by decide)
      t!"fraction { numerator: \"1\" denominator: \"2\" }" (by decide +kernel)]
    have : firstOutput (p.verbalizer t!"fraction { numerator: \"1\" denominator: \"2\" }") = [] := by
      rcases Verif.Cpp.results_zero (p.verbalizer t!"fraction { numerator: \"1\" denominator: \"2\" }") with
        ⟨h, _, _⟩ | ⟨z, w, h, h'⟩
      · unfold firstOutput
        rw [h]
      · have h1 := ((hr.verbs _ _ _).1 (Verif.NBest.results_spec _ _ _ h').2.1).1
        have := (mem_outputs (verbalizer_ok {})).2 h1
        rw [fraction_mute] at this
        cases this
    rw [this]
    rfl

/-- A text to which the part that holds applies: no tagging of it has one of the three types. -/
example : ((tagger {}).map fun g => (g.outputs t!"7円").map fun e =>
    (Verif.Token.parse e.1).toOption.map fun l => l.map fun k => String.ofList k.name) = some
    [some ["cardinal", "char"], some ["char", "char"], some ["math", "char"]] := by
  decide +kernel

end Verif.JaTn
