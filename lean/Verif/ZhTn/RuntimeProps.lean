import Verif.ZhTn.Utter
import Verif.ZhTn.StreamProps
import Verif.Wfst.Deploy

/-
Properties C78 and C79 of the Chinese normalizer: every tagging can be verbalized, and the C++
runtime returns what Python returns.
-/

namespace Verif.ZhTn

open Verif.Wfst
open Verif.Token.Spec (write writeAll Tok Writable)
open Verif.NBest (Pipeline normalize)
open Verif.Cpp (Deployed encAll firstOutput)

/-- **C79.** Every tagging of a text can be reordered, and the verbalizer accepts what results. -/
theorem C79_zh_tn (c : Config) (tg vg : G) (ht : tagger c = some tg) (hv : verbalizer c = some vg)
    (x : Str) (hne : x ≠ []) (t : Str) (w : W) (h : tg.den x t w) :
    ∃ r, Verif.Token.reorder tokenOrders t = .ok r ∧ ∃ y u, vg.den r y u := by
  rw [tagger_eq] at ht
  rw [verbalizer_eq] at hv
  cases ht; cases hv
  obtain ⟨r, h1, _, h2⟩ := utters_reordered repeatFree (utters c) hne h
  exact ⟨r, h1, h2⟩

theorem orders_eq : tokenOrders = Verif.Token.ordersOf (Verif.Cpp.pySchemaOf .zhTn) := rfl

/-- **C78.** Whatever the switches and however ties between paths are broken: when the C++ runtime has
the machines of the Python pipeline, it returns for every text that is not empty and has no NUL the
bytes of what Python returns. -/
theorem C78_zh_tn (c : Config) (tg vg : G) (ht : tagger c = some tg) (hv : verbalizer c = some vg)
    (p : Pipeline W) (hr : Runs p tokenOrders tg vg) (tagger verbalizer : Verif.Cpp.Bytes → Verif.Cpp.Bytes)
    (hd : Deployed p tagger verbalizer) (x : Str) (hx : VText x) (hne : x ≠ []) :
    ∃ z, (∃ fuel, normalize p fuel x (.int 1) = some (.ok (.one z))) ∧
      Verif.Cpp.normalize .zhTn tagger verbalizer (encAll x) = .ok (encAll z) := by
  rw [tagger_eq] at ht
  rw [verbalizer_eq] at hv
  cases ht; cases hv
  obtain ⟨⟨w, h0⟩, _⟩ := char_by_char (fallback c) hx hne
  obtain ⟨w', h1⟩ := first_tagging hr (tagger_ok _) h0
  have hs := sameReorder orders_eq (by decide) (utters c) hne h1
  exact deployed_agrees repeatFree hr (tagger_ok _) (verbalizer_ok c) (utters c) (nul_verbalizer c) hd hne h0 hs

/-- There are such pipelines and such machines. -/
theorem C78_zh_tn_exists (c : Config) : ∃ tg vg p t v, tagger c = some tg ∧ verbalizer c = some vg ∧
    Runs p tokenOrders tg vg ∧ Deployed p t v := by
  obtain ⟨tg, vg, p, h1, h2, h3⟩ := C51_zh_tn_exists c
  obtain ⟨t, v, h4⟩ := Verif.Cpp.deployed_exists p
  exact ⟨tg, vg, p, t, v, h1, h2, h3, h4⟩

/-- A tagging whose fields are not in the order that the verbalizer reads: the verbalizer accepts it only
when it has been reordered. -/
example : ((tagger {}).map fun g => ((g.outputs t!"1/2").map Prod.fst).head?) = some
      (some t!"fraction { numerator: \"1\" denominator: \"2\" }") ∧
    ((verbalizer {}).map fun g => g.outputs t!"fraction { numerator: \"1\" denominator: \"2\" }") = some [] ∧
    ((verbalizer {}).map fun g => (g.outputs t!"fraction { denominator: \"2\" numerator: \"1\" }").map
      Prod.fst) = some [t!"二分之一"] := by
  decide +kernel

end Verif.ZhTn
