import Verif.JaTn.Tokens
import Verif.Wfst.Edge
import Verif.JaTn.TextSpec

/-
What the inputs of the Japanese rules look like.
-/

namespace Verif.JaTn

open Verif.Wfst

theorem half_half (h : Bool) (c : Char) : half h (half h c) = half h c := by
  have hall : (fullToHalf.all fun e => (fullToHalf.lookup e.2).isNone) = true := by decide +kernel
  unfold half
  split
  · cases hl : fullToHalf.lookup c with
    | none => simp [hl]
    | some d =>
      have := List.all_eq_true.1 hall _ ((lookup_iff f2h_nodup).2 hl)
      simp only [Option.isNone_iff_eq_none] at this
      simp [this]
  · rfl

theorem dig_half (h : Bool) (c : Char) : dig (half h c) = dig c := by
  have hall : (fullToHalf.all fun e => dig e.2 == dig e.1) = true := by decide +kernel
  unfold half
  split
  · cases hl : fullToHalf.lookup c with
    | none => rfl
    | some d =>
      have := List.all_eq_true.1 hall _ ((lookup_iff f2h_nodup).2 hl)
      simpa using this
  · rfl

theorem edge_pre {h : Bool} {g : G} {s : Sum} (hg : Edge (half h) g s) : Edge (half h) (pre h g) s :=
  edge_map (half_half h) (fun _ _ _ hd => (den_pre.1 hd).2) hg

theorem edge_pre_under {h : Bool} {g : G} {s : Sum} (hg : Edge id g s) : Edge (half h) (pre h g) s :=
  edge_under (fun _ _ _ hd => (den_pre.1 hd).2) hg

theorem edge_pre_tab {h : Bool} {l : List (Str × Str)} : Edge (half h) (pre h (.tab l)) (.texts (l.map Prod.fst)) :=
  edge_pre_under (edge_fixed (fun _ _ => List.map_id _))

theorem edge_pre_words {h : Bool} {l : List (Str × Str)} (hl : (l.all fun e => e.1.all (!dig ·)) = true) :
    Edge (half h) (pre h (.tab l)) ⟨[], l.map Prod.fst, false, []⟩ :=
  edge_pre_under (edge_words hl (fun _ _ => List.map_id _))

/-- The summary of a sequence of digits. -/
def digitS : Sum := ⟨[[]], [], true, []⟩

theorem edge_nums (h : Bool) {l : List (Str × Str)} (hl : (l.all fun e => !e.1.isEmpty && e.1.all dig) = true) :
    Edge (half h) (.tab l) digitS := edge_numerals hl fun c hc => (dig_half h c).trans hc

theorem edge_pre_or {h : Bool} {a b : G} {s t : Sum} (ha : Edge (half h) (pre h a) s) (hb : Edge (half h) (pre h b) t) :
    Edge (half h) (pre h (a ||| b)) (s.alt t) := by
  intro x y w hd
  obtain ⟨hx, hd⟩ := den_pre.1 hd
  exact edge_or ha hb x y w (hd.imp (fun hd => den_pre.2 ⟨hx, hd⟩) (fun hd => den_pre.2 ⟨hx, hd⟩))

/-- Puts a summary together. -/
macro "edges" : tactic => `(tactic| repeat' first
  | with_reducible assumption | with_reducible exact edge_pre_tab | with_reducible apply edge_pre_or
  | with_reducible apply edge_pre | with_reducible exact edge_lit | with_reducible exact edge_del
  | with_reducible exact edge_cross | with_reducible exact edge_insert | with_reducible exact edge_tab
  | with_reducible apply edge_addTokens | with_reducible apply edge_tagField | with_reducible apply edge_wt
  | with_reducible apply edge_plus | with_reducible apply edge_ques | with_reducible apply edge_star
  | with_reducible apply edge_pow | with_reducible apply edge_add | with_reducible apply edge_or | decide +kernel)

theorem edge_digitG (h : Bool) : Edge (half h) digitG digitS := edge_nums h (by decide +kernel)
theorem edge_teenG (h : Bool) : Edge (half h) teenG digitS := edge_nums h (by decide +kernel)
theorem edge_rmzero (h : Bool) : Edge (half h) rmzero digitS := by
  cases h
  all_goals exact Edge.mono (by unfold rmzero; edges) (by decide +kernel)
theorem edge_digits (h : Bool) : Edge (half h) digits digitS := by
  have h1 := edge_digitG h
  have h2 : Edge (half h) zeroG digitS := edge_nums h (by decide +kernel)
  exact Edge.mono (by unfold digits; edges) (by decide +kernel)

theorem edge_thousand (h : Bool) : Edge (half h) thousand ⟨[[]], [], true, t!","⟩ := by
  have h1 := edge_digitG h
  have h2 := edge_teenG h
  have h3 := edge_rmzero h
  cases h
  all_goals exact Edge.mono (by unfold thousand hundred ten rmpunct; edges) (by decide +kernel)

theorem edge_integer (h : Bool) : Edge (half h) integer ⟨[[]], [], true, t!","⟩ := by
  have h1 := edge_digitG h
  have h2 := edge_teenG h
  have h3 := edge_rmzero h
  have h4 := edge_digits h
  have h5 := edge_thousand h
  cases h
  all_goals
    refine Edge.mono (by
      unfold integer hundredMillion tenThousand head tail thousandPrefix hundredPrefix hundred ten rmpunct
      edges) (by decide +kernel)

/-- The summary of a number. -/
def numberS : Sum := ⟨[[], t!"+", t!"±", t!"-"], [], true, t!",."⟩

theorem edge_signed (h : Bool) : Edge (half h) signed numberS := by
  have h1 := edge_integer h
  have h2 := edge_digits h
  cases h
  all_goals exact Edge.mono (by unfold signed signG dotG; edges) (by decide +kernel)

theorem edge_number (h : Bool) : Edge (half h) (number h) numberS := edge_pre (edge_signed h)

theorem half_fixed {h : Bool} {l : List (Str × Str)}
    (hl : (l.all fun e => e.1.all fun c => (fullToHalf.lookup c).isNone) = true) :
    ∀ e ∈ l, e.1.map (half h) = e.1 := by
  intro e he
  conv => rhs; rw [← List.map_id e.1]
  refine List.map_congr_left fun c hc => ?_
  have := List.all_eq_true.1 (List.all_eq_true.1 hl e he) c hc
  unfold half
  split
  · rw [Option.isNone_iff_eq_none.1 this]; rfl
  · rfl

theorem edge_units (h : Bool) : Edge (half h) units ⟨[], unitsEn.map Prod.fst ++ unitsJa.map Prod.fst, false, []⟩ :=
  edge_or (edge_words (by decide +kernel) (half_fixed (by decide +kernel)))
    (edge_words (by decide +kernel) (half_fixed (by decide +kernel)))

theorem edge_team (h : Bool) : Edge (half h) (team h) ⟨[], country.map Prod.fst ++ club.map Prod.fst, false, []⟩ :=
  edge_pre_or (edge_pre_words (by decide +kernel)) (edge_pre_words (by decide +kernel))

theorem edge_currency (h : Bool) :
    Edge (half h) (currency h) ⟨[], moneyCode.map Prod.fst ++ moneySymbol.map Prod.fst, false, []⟩ :=
  edge_pre_or (edge_pre_words (by decide +kernel)) (edge_pre_words (by decide +kernel))

/-- The summary of all rules but those for characters and transliteration. -/
def tokenS : Sum where
  lead := [] :: (Spec.openers ++ Sum.pairs Spec.names (Sum.pairs [[], t!" "] [t!"+", t!"±", t!"-"]))
  free := [t!"M.V.P", t!"@", t!"＠"]
  ld := true
  after := Spec.closers

theorem edge_cardinalRule (h : Bool) : Edge (half h) (cardinalRule h).tagger tokenS := by
  have h1 := edge_integer h
  have h2 := edge_number h
  have h3 := edge_digits h
  have h4 := edge_signed h
  have h5 := edge_digitG h
  cases h
  all_goals
    refine Edge.mono (by
      unfold cardinalRule valueRule cardinal percent ip phone countryCode enDigits enZero rmspace ordinal room others dotG
      edges) (by decide +kernel)

theorem edge_dateRule (h : Bool) : Edge (half h) (dateRule h).tagger tokenS := by
  have h1 := edge_integer h
  have h2 := edge_number h
  have h3 := edge_digits h
  have h4 := edge_signed h
  have h5 : Edge (half h) (pre h (.tab dateM)) digitS := edge_pre (edge_nums h (by decide +kernel))
  have h6 : Edge (half h) (pre h (.tab dateMM)) digitS := edge_pre (edge_nums h (by decide +kernel))
  have h7 : Edge (half h) (pre h (.tab dateD)) digitS := edge_pre (edge_nums h (by decide +kernel))
  have h8 : Edge (half h) (pre h (.tab dateDD)) digitS := edge_pre (edge_nums h (by decide +kernel))
  have h9 := edge_thousand h
  cases h
  all_goals
    refine Edge.mono (by
      unfold dateRule rangeRule valueRule toG dateBody simpleDate dateSign year month day
      edges) (by decide +kernel)

theorem edge_fractionRule (h : Bool) : Edge (half h) (fractionRule h).tagger tokenS := by
  have h1 := edge_integer h
  have h2 := edge_number h
  have h3 := edge_digits h
  have h4 := edge_signed h
  cases h
  all_goals
    refine Edge.mono (by
      unfold fractionRule rmspace
      edges) (by decide +kernel)

theorem edge_mathRule (h : Bool) : Edge (half h) (mathRule h).tagger tokenS := by
  have h1 := edge_integer h
  have h2 := edge_number h
  have h3 := edge_digits h
  have h4 := edge_signed h
  cases h
  all_goals
    refine Edge.mono (by
      unfold mathRule valueRule mathG
      edges) (by decide +kernel)

theorem edge_measureRule (h : Bool) : Edge (half h) (measureRule h).tagger tokenS := by
  have h1 := edge_integer h
  have h2 := edge_number h
  have h3 := edge_digits h
  have h4 := edge_signed h
  have h5 := edge_units h
  cases h
  all_goals
    refine Edge.mono (by
      unfold measureRule valueRule Verif.JaTn.measure measureBase rmspace toG
      edges) (by decide +kernel)

theorem edge_timeRule (h : Bool) : Edge (half h) (timeRule h).tagger tokenS := by
  have h1 := edge_integer h
  have h2 := edge_number h
  have h3 := edge_digits h
  have h4 := edge_signed h
  have h5 : Edge (half h) (pre h (.tab hour)) digitS := edge_pre (edge_nums h (by decide +kernel))
  have h6 : Edge (half h) (pre h (.tab minute)) digitS := edge_pre (edge_nums h (by decide +kernel))
  have h7 : Edge (half h) (pre h (.tab second)) digitS := edge_pre (edge_nums h (by decide +kernel))
  cases h
  all_goals
    refine Edge.mono (by
      unfold timeRule timeBody rangeRule valueRule toG colon
      edges) (by decide +kernel)

theorem edge_whitelistRule (h : Bool) : Edge (half h) (whitelistRule h).tagger tokenS := by
  have h1 := edge_integer h
  have h2 := edge_number h
  have h3 := edge_digits h
  have h4 := edge_signed h
  cases h
  all_goals
    refine Edge.mono (by
      unfold whitelistRule valueRule
      edges) (by decide +kernel)

/-- A name, perhaps a space, and a number. -/
theorem le_named {l : List Str} (hl : l ⊆ Spec.names) {t : Sum} (ht : t.lead ⊆ [[], t!"+", t!"±", t!"-"]) (hf : t.free = [])
    (ha : t.after ⊆ Spec.closers) :
    Sum.Le ((((⟨[], l, false, []⟩ : Sum).cat (Sum.nil.alt (Sum.text t!" "))).cat .nil).cat t) tokenS := by
  have e1 : ((⟨[], l, false, []⟩ : Sum).cat (Sum.nil.alt (Sum.text t!" "))).cat .nil =
      ⟨[], Sum.pairs (Sum.pairs l [[], t!" "]) [[]], false, []⟩ := by
    simp only [Sum.cat, Sum.nil, Sum.alt, Sum.text, Sum.leads, Sum.pairs]
    simp [dig, Sum.afters]
  rw [e1]
  refine ⟨?_, ?_, fun _ => rfl, ?_⟩
  · intro u hu
    simp only [Sum.cat, Sum.pairs, List.nil_append, List.mem_flatMap, List.mem_map, List.mem_cons, List.not_mem_nil,
      or_false] at hu
    obtain ⟨v, ⟨v', ⟨n, hn, s, hs, rfl⟩, e, rfl, rfl⟩, z, hz, rfl⟩ := hu
    have hn := hl hn
    have hz := ht hz
    simp only [List.mem_cons, List.not_mem_nil, or_false] at hz
    by_cases hz0 : z = []
    · subst hz0
      refine List.mem_cons_of_mem _ (List.mem_append_left _ ?_)
      rcases hs with rfl | rfl
      · exact List.mem_append_left _ (List.mem_append_right _ (by simpa using hn))
      · exact List.mem_append_right _ (List.mem_map.2 ⟨n, hn, by simp⟩)
    · refine List.mem_cons_of_mem _ (List.mem_append_right _ ?_)
      have : n ++ (s ++ z) ∈ Sum.pairs Spec.names (Sum.pairs [[], t!" "] [t!"+", t!"±", t!"-"]) := by
        refine Sum.mem_pairs hn (Sum.mem_pairs (by rcases hs with rfl | rfl <;> simp) ?_)
        rcases hz with rfl | rfl | rfl | rfl
        · exact absurd rfl hz0
        all_goals simp
      simpa using this
  · intro u hu
    simp only [Sum.cat, hf, Sum.pairs, List.map_nil, List.mem_flatMap, List.not_mem_nil, and_false, exists_false] at hu
  · simpa [Sum.cat, tokenS] using ha

theorem half_space (h : Bool) : t!" ".map (half h) = t!" " := by cases h <;> decide +kernel

theorem edge_moneyRule (h : Bool) : Edge (half h) (moneyRule h).tagger tokenS := by
  have h2 := edge_number h
  have h5 := edge_currency h
  refine Edge.of_le (by
    unfold moneyRule
    edges) ?_
  rw [half_space]
  refine le_named ?_ (by decide) rfl (by decide +kernel)
  intro u hu
  simp only [Spec.names, List.mem_append] at hu ⊢
  tauto

theorem edge_sportRule (h : Bool) : Edge (half h) (sportRule h).tagger tokenS := by
  have h1 := edge_integer h
  have h5 := edge_team h
  have h2 : Edge (half h) (teamScore h) ⟨[[]], [], true, t!",/-:"⟩ := by
    cases h
    all_goals exact Edge.mono (by unfold teamScore positiveInteger; edges) (by decide +kernel)
  have h3 : Edge (half h) (onlyScore h) ⟨[[]], [], true, t!",/-:"⟩ := by
    cases h
    all_goals exact Edge.mono (by unfold onlyScore positiveInteger; edges) (by decide +kernel)
  have h4 : Edge (half h) (tagField t!"score" (onlyScore h)) tokenS :=
    edge_tagField (h3.mono (by decide +kernel))
  refine edge_addTokens (Edge.of_le (edge_or (Edge.of_le (t := tokenS) (by edges) ?_) h4) ?_)
  · rw [half_space]
    refine le_named ?_ (by decide) rfl (by decide +kernel)
    intro u hu
    simp only [Spec.names, List.mem_append] at hu ⊢
    tauto
  · exact ⟨by simp [Sum.alt], by simp [Sum.alt], by simp [Sum.alt], by simp [Sum.alt]⟩

end Verif.JaTn
