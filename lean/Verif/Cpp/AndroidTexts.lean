import Verif.Cpp.AndroidProps
import Verif.ZhTn.RuntimeProps
import Verif.ZhItn.RuntimeProps
import Verif.ZhTn.CharsProps
import Verif.ZhItn.CharsProps

/-
Property C93: the Android binding against the Python normalizers.
-/

namespace Verif.Cpp.Android

open Verif.Wfst
open Verif.Cpp Verif.Cpp.Android.Spec
open Verif.Cpp.Api (Files)
open Verif.NBest (Pipeline)

theorem plain_text {x : Str} (h : Plain x) : VText x := by
  intro c hc
  have h1 : c ≠ '\x00' := by
    rintro rfl
    exact absurd (h _ hc).1 (by decide)
  simpa [vchar] using h1

/-- A result whose added characters are printed is of the plain kind when the text is. -/
theorem plain_result {x z : Str} (hx : Plain x) (h : ∀ c ∈ z, c ∈ x ∨ Printed c) : Plain z := fun c hc =>
  (h c hc).elim (hx c) fun ⟨h1, h2, _⟩ => ⟨by omega, h2⟩

/-- **C93.** With the Chinese text normalizer deployed, `normalize` of a text in the basic plane returns what Python
returns. -/
theorem C93_zh_tn (c : Verif.ZhTn.Config) (tg vg : G) (ht : Verif.ZhTn.tagger c = some tg) (hv : Verif.ZhTn.verbalizer c = some vg)
    (p : Pipeline W) (hr : Runs p Verif.ZhTn.tokenOrders tg vg) (t v : Bytes → Bytes) (hd : Deployed p t v) (files : Files) (dir : Str)
    (hf : files (encAll dir ++ lit "/zh_tn_tagger.fst") = some t) (hg : files (encAll dir ++ lit "/zh_tn_verbalizer.fst") = some v)
    (cs : List Call) (rs : List (Option JString)) (hs : Session files cs (some dir) rs) (x : Str) (hx : Plain x) (hne : x ≠ []) :
    ∃ z, (∃ fuel, Verif.NBest.normalize p fuel x (.int 1) = some (.ok (.one z))) ∧
      ∃ st, run files start (cs ++ [.normalize (utf16 x)]) = .ok (rs ++ [some (utf16 z)], st) := by
  obtain ⟨z, ⟨fuel, h1⟩, h2⟩ := Verif.ZhTn.C78_zh_tn c tg vg ht hv p hr t v hd x (plain_text hx) hne
  have hz : Plain z := plain_result hx (Verif.ZhTn.C94_zh_tn c tg vg ht hv p hr x hne 1 fuel _ h1 z (List.mem_singleton.2 rfl))
  have hw : Writes files .zhTn (encAll dir ++ lit "/zh_tn_tagger.fst") (encAll dir ++ lit "/zh_tn_verbalizer.fst") x z :=
    ⟨t, v, hf, hg, h2⟩
  exact ⟨z, ⟨fuel, h1⟩, C93_session files _ _ _ (.normalize hs hx hz hw)⟩

/-- **C93.** With the Chinese inverse normalizer deployed, so does `inverse_normalize`. -/
theorem C93_zh_itn (c : Verif.ZhItn.Config) (tg vg : G) (ht : Verif.ZhItn.tagger c = some tg) (hv : Verif.ZhItn.verbalizer c = some vg)
    (p : Pipeline W) (hr : Runs p Verif.ZhItn.tokenOrders tg vg) (t v : Bytes → Bytes) (hd : Deployed p t v) (files : Files) (dir : Str)
    (hf : files (encAll dir ++ lit "/zh_itn_tagger.fst") = some t) (hg : files (encAll dir ++ lit "/zh_itn_verbalizer.fst") = some v)
    (cs : List Call) (rs : List (Option JString)) (hs : Session files cs (some dir) rs) (x : Str) (hx : Plain x) (hne : x ≠ []) :
    ∃ z, (∃ fuel, Verif.NBest.normalize p fuel x (.int 1) = some (.ok (.one z))) ∧
      ∃ st, run files start (cs ++ [.inverseNormalize (utf16 x)]) = .ok (rs ++ [some (utf16 z)], st) := by
  obtain ⟨z, ⟨fuel, h1⟩, h2⟩ := Verif.ZhItn.C78_zh_itn c tg vg ht hv p hr t v hd x (plain_text hx) hne
  have hz : Plain z := plain_result hx (Verif.ZhItn.C94_zh_itn c tg vg ht hv p hr x hne 1 fuel _ h1 z (List.mem_singleton.2 rfl))
  have hw : Writes files .zhItn (encAll dir ++ lit "/zh_itn_tagger.fst") (encAll dir ++ lit "/zh_itn_verbalizer.fst") x z :=
    ⟨t, v, hf, hg, h2⟩
  exact ⟨z, ⟨fuel, h1⟩, C93_session files _ _ _ (.inverseNormalize hs hx hz hw)⟩

/-- There are such files: for every directory without "zh_tn_" in its name, one has both normalizers. -/
theorem C93_files (c : Verif.ZhTn.Config) (c' : Verif.ZhItn.Config) (dir : Str) (hd : Plain dir) (hn : ¬ lit "zh_tn_" <:+: encAll dir) :
    ∃ tg vg p t v tg' vg' p' t' v' files, Verif.ZhTn.tagger c = some tg ∧ Verif.ZhTn.verbalizer c = some vg ∧
      Runs p Verif.ZhTn.tokenOrders tg vg ∧ Deployed p t v ∧ Verif.ZhItn.tagger c' = some tg' ∧ Verif.ZhItn.verbalizer c' = some vg' ∧
      Runs p' Verif.ZhItn.tokenOrders tg' vg' ∧ Deployed p' t' v' ∧
      files (encAll dir ++ lit "/zh_tn_tagger.fst") = some t ∧ files (encAll dir ++ lit "/zh_tn_verbalizer.fst") = some v ∧
      files (encAll dir ++ lit "/zh_itn_tagger.fst") = some t' ∧ files (encAll dir ++ lit "/zh_itn_verbalizer.fst") = some v' ∧
      Session files [.init (utf16 dir)] (some dir) [none] := by
  obtain ⟨tg, vg, p, t, v, h1, h2, h3, h4⟩ := Verif.ZhTn.C78_zh_tn_exists c
  obtain ⟨tg', vg', p', t', v', h1', h2', h3', h4'⟩ := Verif.ZhItn.C78_zh_itn_exists c'
  have ne : ∀ {a b : String}, lit a ≠ lit b → encAll dir ++ lit a ≠ encAll dir ++ lit b := fun h e => h (List.append_cancel_left e)
  refine ⟨tg, vg, p, t, v, tg', vg', p', t', v', fun path =>
    if path = encAll dir ++ lit "/zh_tn_tagger.fst" then some t
    else if path = encAll dir ++ lit "/zh_tn_verbalizer.fst" then some v
    else if path = encAll dir ++ lit "/zh_itn_tagger.fst" then some t'
    else some v', h1, h2, h3, h4, h1', h2', h3', h4', if_pos rfl, ?_, ?_, ?_, .init .start hd hn⟩
  · simp only
    rw [if_neg (ne (by decide +kernel)), if_pos trivial]
  · simp only
    rw [if_neg (ne (by decide +kernel)), if_neg (ne (by decide +kernel)), if_pos trivial]
  · simp only
    rw [if_neg (ne (by decide +kernel)), if_neg (ne (by decide +kernel)), if_neg (ne (by decide +kernel))]

end Verif.Cpp.Android
