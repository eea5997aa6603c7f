import Verif.ZhTn.Tokens
import Verif.Wfst.Edge
import Verif.ZhTn.TextSpec

/-
What the inputs of the Chinese rules look like. The percent sign can be looked at as a digit, for what comes after
a percentage.
-/

namespace Verif.ZhTn

open Verif.Wfst

/-- The percent sign as a digit, or every character as it is. -/
def pc (b : Bool) (c : Char) : Char := if b && c == '%' then '0' else c

theorem dig_pc (b : Bool) (c : Char) (h : dig c = true) : dig (pc b c) = true := by
  unfold pc
  split
  · decide
  · exact h

theorem pc_false (x : Str) : x.map (pc false) = x := by
  have : pc false = id := by funext c; rfl
  rw [this]; simp

theorem pc_fixed {b : Bool} {l : List (Str × Str)} (hl : (l.all fun e => e.1.all (· != '%')) = true) :
    ∀ e ∈ l, e.1.map (pc b) = e.1 := by
  intro e he
  conv => rhs; rw [← List.map_id e.1]
  refine List.map_congr_left fun c hc => ?_
  have := List.all_eq_true.1 (List.all_eq_true.1 hl e he) c hc
  have : (c == '%') = false := by simpa using this
  simp [pc, this]

/-- The summary of a sequence of digits. -/
def digitS : Sum := ⟨[[]], [], true, []⟩

theorem edge_nums (b : Bool) {l : List (Str × Str)} (hl : (l.all fun e => !e.1.isEmpty && e.1.all dig) = true) :
    Edge (pc b) (.tab l) digitS := edge_numerals hl (dig_pc b)

/-- A table of words, of which some have digits. -/
theorem edge_names {b : Bool} {l : List (Str × Str)} {L : List Str} {D : Bool} {A : Str}
    (hl : (l.all fun e => e.1.all (· != '%') && e.1.all (!dig ·) ||
      (Sum.text (e.1.map (pc b))).le ⟨L, [], D, A⟩) = true) :
    Edge (pc b) (.tab l) ⟨L, l.map Prod.fst, D, A⟩ := by
  rintro x y w ⟨hm, _⟩
  have := List.all_eq_true.1 hl _ hm
  simp only [Bool.or_eq_true, Bool.and_eq_true] at this
  rcases this with ⟨h1, h2⟩ | h
  · have e : x.map (pc b) = x := by
      have := pc_fixed (b := b) (l := [(x, y)]) (by simpa using h1) (x, y) (by simp)
      exact this
    rw [e]
    have hf : ∀ c ∈ x, dig c = false := by simpa using h2
    refine ⟨?_, fun _ => List.mem_map.2 ⟨_, hm, rfl⟩, ?_, ?_⟩
    · rintro q b r rfl _ hb
      rw [hf b (by simp)] at hb; cases hb
    · intro c hc hd
      rw [hf c (List.mem_of_getLast? hc)] at hd; cases hd
    · rintro q a b r rfl ha _
      rw [hf a (by simp)] at ha; cases ha
  · refine (Sum.fits_text _).mono ?_
    have := Sum.le_iff h
    exact ⟨this.lead, fun u hu => absurd (this.free hu) (by simp), this.ld, this.after⟩

/-- Puts a summary together. -/
macro "edges" : tactic => `(tactic| repeat' first
  | with_reducible assumption | with_reducible exact edge_lit | with_reducible exact edge_del
  | with_reducible exact edge_cross | with_reducible exact edge_insert | with_reducible exact edge_tab
  | with_reducible apply edge_addTokens | with_reducible apply edge_tagField | with_reducible apply edge_wt
  | with_reducible apply edge_plus | with_reducible apply edge_ques | with_reducible apply edge_star
  | with_reducible apply edge_pow | with_reducible apply edge_add | with_reducible apply edge_or
  | with_reducible apply edge_comp | decide +kernel)

theorem edge_digitG (b : Bool) : Edge (pc b) digitG digitS := edge_nums b (by decide +kernel)
theorem edge_teenG (b : Bool) : Edge (pc b) teenG digitS := edge_nums b (by decide +kernel)
theorem edge_zeroG (b : Bool) : Edge (pc b) zeroG digitS := edge_nums b (by decide +kernel)
theorem edge_rmzero (b : Bool) : Edge (pc b) rmzero digitS := by
  cases b
  all_goals exact Edge.mono (by unfold rmzero; edges) (by decide +kernel)
theorem edge_digits (b : Bool) : Edge (pc b) digits digitS := by
  have h1 := edge_digitG b
  have h2 := edge_zeroG b
  exact Edge.mono (by unfold digits; edges) (by decide +kernel)

theorem edge_some {b : Bool} {g : G} (h : Edge (pc b) g digitS) (n : Nat) : Edge (pc b) (g.pow (n + 1)) digitS := by
  induction n with
  | zero => exact Edge.mono (edge_pow h 1) (by decide)
  | succ n ih => exact Edge.mono (edge_add h ih) (by decide)

theorem edge_integer (b : Bool) : Edge (pc b) integer digitS := by
  have h1 := edge_digitG b
  have h2 := edge_teenG b
  have h3 := edge_rmzero b
  have h4 := edge_digits b
  have h5 := edge_zeroG b
  cases b
  all_goals
    refine Edge.mono (by
      unfold integer hundredMillion tenThousand fourAny fourNonzero head thousand hundred tens ten
      edges) (by decide +kernel)

theorem edge_plainNumber (b : Bool) : Edge (pc b) plainNumber ⟨[[], t!"+", t!"±", t!"-"], [], true, t!"."⟩ := by
  have h1 := edge_integer b
  have h2 := edge_digits b
  cases b
  all_goals exact Edge.mono (by unfold plainNumber signed signG dotG; edges) (by decide +kernel)

/-- What can stand before a number. -/
def leads : List Str := Sum.pairs [[], t!"约", t!"人均", t!"约人均"] [[], t!"+", t!"±", t!"-"]

/-- The summary of a number. -/
def numberS : Sum := ⟨leads, [], true, t!".%"⟩

theorem edge_percent (b : Bool) : Edge (pc b) percent ⟨[[], t!"+", t!"±", t!"-"], [], true, t!".%"⟩ := by
  have h1 := edge_plainNumber b
  cases b
  all_goals exact Edge.mono (by unfold percent; edges) (by decide +kernel)

theorem edge_number (b : Bool) : Edge (pc b) number numberS := by
  have h1 := edge_plainNumber b
  have h2 := edge_percent b
  cases b
  all_goals exact Edge.mono (by unfold number; edges) (by decide +kernel)

theorem edge_measureNumber (b : Bool) : Edge (pc b) measureNumber ⟨leads, [], true, t!".%,，"⟩ := by
  refine edge_comp ((edge_thin (l := t!",，") (s := numberS) ?_ ?_ ?_ (edge_number b)).mono (by decide +kernel))
  · rintro u v w (h | h)
    · obtain ⟨rfl, rfl, _⟩ := den_del.1 h
      exact ⟨rfl, ',', rfl, by simp⟩
    · obtain ⟨rfl, rfl, _⟩ := den_del.1 h
      exact ⟨rfl, '，', rfl, by simp⟩
  · cases b <;> decide
  · intro c hc
    refine dig_pc b c ?_
    simp only [isDigit, Bool.and_eq_true, decide_eq_true_eq, Char.le_def, UInt32.le_iff_toNat_le] at hc
    simp only [dig, Bool.or_eq_true, Bool.and_eq_true, decide_eq_true_eq]
    exact .inl hc

/-! ### Units -/

theorem trails_tab {f : Char → Char} {l : List (Str × Str)} {m : Str} (hf : ∀ e ∈ l, e.1.map f = e.1)
    (h : (l.all fun e => (Sum.afters e.1).isEmpty) = true) (hm : (l.filterMap fun e => e.1.head?) ⊆ m) : Trails f (.tab l) m := by
  rintro x y w ⟨he, _⟩
  rw [hf _ he]
  have := List.all_eq_true.1 h _ he
  refine ⟨fun c r e _ => hm (List.mem_filterMap.2 ⟨_, he, by rw [e]; rfl⟩), fun q a b r e ha hb => ?_⟩
  have := Sum.afters_next q a b r ha hb
  rw [← e] at this
  simp_all

theorem trails_units (b : Bool) : Trails (pc b) units Spec.closers := by
  have hm : (unitsEn ++ unitsZh).filterMap (fun e => e.1.head?) ⊆ Spec.closers := List.subset_append_right _ _
  rw [List.filterMap_append] at hm
  have h1 : Trails (pc b) (.tab unitsEn) Spec.closers :=
    trails_tab (pc_fixed (by decide +kernel)) (by decide +kernel) (List.Subset.trans (List.subset_append_left _ _) hm)
  have h2 : Trails (pc b) (.tab unitsZh) Spec.closers :=
    trails_tab (pc_fixed (by decide +kernel)) (by decide +kernel) (List.Subset.trans (List.subset_append_right _ _) hm)
  have h3 : Trails (pc b) (G.wt (crossS t!"k" t!"千" ||| crossS t!"w" t!"万") 10000) Spec.closers := by
    have h : Edge (pc b) (G.wt (crossS t!"k" t!"千" ||| crossS t!"w" t!"万") 10000) ⟨[], [t!"k", t!"w"], false, []⟩ := by
      cases b
      all_goals exact Edge.mono (by edges) (by decide +kernel)
    exact h.trails (by decide) (by decide)
  exact trails_add (trails_ques h3) (trails_or h1 h2)

/-- The summary of all rules but that for characters. -/
def tokenS : Sum where
  lead := leads ++ (Spec.openers ++ Sum.pairs Spec.names (Sum.pairs [[], t!" "] leads))
  free := unambiguousOperator.map Prod.fst ++ t!"M.V.P" :: t!"儿" :: erhuaWhitelist.map Prod.fst
  ld := true
  after := Spec.closers

theorem edge_cardinalRule (b : Bool) : Edge (pc b) cardinalRule.tagger tokenS := by
  have h1 := edge_percent b
  have h3 := edge_digits b
  have h4 : Edge (pc b) (.tab phone) digitS := edge_nums b (by decide +kernel)
  have h5 : Edge (pc b) phoneDigits digitS := edge_comp h3
  have h6 : Edge (pc b) (phoneDigits.pow 11) digitS := edge_some h5 10
  have h7 : Edge (pc b) (phoneDigits.pow 4) digitS := edge_some h5 3
  have h8 : Edge (pc b) (digits.pow 8) digitS := edge_some h3 7
  have h9 : Edge (pc b) (digits.pow 3) digitS := edge_some h3 2
  cases b
  all_goals
    refine Edge.mono (by
      unfold cardinalRule cardinal phoneG dotG
      edges) (by decide +kernel)

theorem edge_dateRule (b : Bool) : Edge (pc b) dateRule.tagger tokenS := by
  have h3 := edge_digitG b
  have h4 := edge_zeroG b
  have h5 : Edge (pc b) (.tab dateM) digitS := edge_nums b (by decide +kernel)
  have h6 : Edge (pc b) (.tab dateMM) digitS := edge_nums b (by decide +kernel)
  have h7 : Edge (pc b) (.tab dateD) digitS := edge_nums b (by decide +kernel)
  have h8 : Edge (pc b) (.tab dateDD) digitS := edge_nums b (by decide +kernel)
  have h9 : Edge (pc b) year digitS := Edge.mono (by unfold year yyyy; edges) (by decide +kernel)
  have h10 : Edge (pc b) month digitS := Edge.mono (by unfold month; edges) (by decide +kernel)
  have h11 : Edge (pc b) day digitS := Edge.mono (by unfold day; edges) (by decide +kernel)
  have h12 : Edge (pc b) dateSign ⟨[], [t!"/", t!"-", t!"."], false, []⟩ := by
    cases b
    all_goals exact Edge.mono (by unfold dateSign; edges) (by decide +kernel)
  have h13 : Edge (pc b) dateBody ⟨[[]], [], true, t!"/-."⟩ := Edge.mono (by unfold dateBody; edges) (by decide +kernel)
  cases b
  all_goals
    refine Edge.mono (by
      unfold dateRule withRange rangeRule rangeG
      edges) (by decide +kernel)

theorem edge_fractionRule (b : Bool) : Edge (pc b) fractionRule.tagger tokenS := by
  have h1 := edge_number b
  cases b
  all_goals
    refine Edge.mono (by
      unfold fractionRule rmspace
      edges) (by decide +kernel)

theorem edge_mathRule (b : Bool) : Edge (pc b) mathRule.tagger tokenS := by
  have h1 := edge_number b
  cases b
  all_goals
    refine Edge.mono (by
      unfold mathRule mathG symbols
      edges) (by decide +kernel)

theorem edge_timeRule (b : Bool) : Edge (pc b) timeRule.tagger tokenS := by
  have h5 : Edge (pc b) (.tab hour) digitS := edge_nums b (by decide +kernel)
  have h6 : Edge (pc b) (.tab minute) digitS := edge_nums b (by decide +kernel)
  have h7 : Edge (pc b) (.tab second) digitS := edge_nums b (by decide +kernel)
  cases b
  all_goals
    refine Edge.mono (by
      unfold timeRule withRange timeBody rangeRule rangeG colon
      edges) (by decide +kernel)

theorem edge_whitelistRule (b e : Bool) : Edge (pc b) (whitelistRule e).tagger tokenS := by
  cases b
  all_goals
    refine Edge.mono (by
      unfold whitelistRule whitelistG
      edges) (by decide +kernel)

/-! ### Measures -/

theorem leads_closers : leads.filterMap List.head? ⊆ Spec.closers := by decide

/-- What begins with a number. -/
abbrev numS : Sum := ⟨leads, [], true, Spec.closers⟩

theorem numS_le : Sum.Le numS tokenS :=
  ⟨fun _ h => List.mem_append_left _ h, fun u hu => absurd hu (by simp), fun _ => rfl, fun _ h => h⟩

theorem numS_firsts : numS.firsts ⊆ Spec.closers := by
  simpa [numS, Sum.firsts] using leads_closers

theorem edge_twice {f : Char → Char} {a b : G} (ha : Edge f a numS) (hb : Edge f b numS) : Edge f (a.ques + b) numS := by
  rintro x y w ⟨x₁, y₁, w₁, x₂, y₂, w₂, h1, h2, rfl, rfl, rfl⟩
  rcases den_ques.1 h1 with ⟨rfl, _⟩ | h1
  · exact hb _ _ _ h2
  · exact edge_trail ha (List.Subset.refl _) (hb.trails numS_firsts (List.Subset.refl _)) _ _ _
      ⟨_, _, _, _, _, _, h1, h2, rfl, rfl, rfl⟩

theorem edge_measNum (b : Bool) : Edge (pc b) measureNumber numS :=
  (edge_measureNumber b).of_le ⟨fun _ h => h, fun _ h => h, fun h => h, by decide⟩

theorem trails_rmspace (b : Bool) : Trails (pc b) rmspace Spec.closers := by
  have h : Edge (pc b) rmspace ⟨[], [[], t!" "], false, []⟩ := by
    cases b
    all_goals exact Edge.mono (by unfold rmspace; edges) (by decide +kernel)
  exact h.trails (by decide) (by decide)

theorem trails_to (b : Bool) : Trails (pc b) toG Spec.closers := by
  have h : Edge (pc b) toG ⟨[], [t!"-", t!"~", t!"到"], false, []⟩ := by
    cases b
    all_goals exact Edge.mono (by unfold toG; edges) (by decide +kernel)
  exact h.trails (by decide) (by decide)

theorem edge_measure (b : Bool) : Edge (pc b) Verif.ZhTn.measure numS := by
  have h1 := edge_measNum b
  have hs := List.Subset.refl Spec.closers
  have h2 : Edge (pc b) measureBase numS := by
    refine edge_trail (edge_trail (edge_twice ?_ h1) hs (trails_rmspace b)) hs (trails_units b)
    exact edge_trail (edge_trail h1 hs (trails_ques (trails_add (trails_rmspace b) (trails_units b)))) hs (trails_to b)
  exact edge_comp (edge_comp (edge_comp (edge_comp (edge_comp (edge_comp h2)))))

theorem edge_annual (b : Bool) : Edge (pc b) annual numS := by
  have h3 := edge_digits b
  have h : Edge (pc b) annual ⟨leads, [], true, t!" 年赛-~到"⟩ := by
    cases b
    all_goals
      refine Edge.mono (by
        unfold annual toG rmspace
        edges) (by decide +kernel)
  exact h.of_le ⟨fun _ h => h, fun _ h => h, fun h => h, by decide⟩

theorem edge_same {f : Char → Char} {a b : G} {s : Sum} (ha : Edge f a s) (hb : Edge f b s) : Edge f (a ||| b) s := by
  rintro x y w (h | h)
  · exact ha _ _ _ h
  · exact hb _ _ _ h

theorem edge_measureRule (b : Bool) : Edge (pc b) measureRule.tagger tokenS := by
  have h1 := edge_measure b
  have hs := List.Subset.refl Spec.closers
  have hslash : Trails (pc b) (del t!"/") Spec.closers := by
    have h : Edge (pc b) (del t!"/") ⟨[], [t!"/"], false, []⟩ := by
      cases b
      all_goals exact Edge.mono (by edges) (by decide +kernel)
    exact h.trails (by decide) (by decide)
  have hins : Trails (pc b) (Wfst.insert t!" ") Spec.closers :=
    (edge_insert).trails (by decide) (by decide)
  refine Edge.of_le (edge_addTokens (edge_same (edge_tagField (edge_same h1 (edge_annual b))) ?_)) numS_le
  refine edge_trail (edge_trail (edge_trail (edge_tagField h1) hs ?_) hs hins) hs ?_
  · exact trails_add (trails_add (trails_rmspace b) hslash) (trails_rmspace b)
  · exact trails_tagField (trails_or (h1.trails numS_firsts hs) (trails_units b))

/-! ### Currencies and teams -/

/-- A name, perhaps a space, and a number. -/
theorem le_named {L : List Str} {D : Bool} {A : Str} {l : List Str} (hl : l ⊆ Spec.names) (hL : L ⊆ [] :: Spec.openers) (hA : A ⊆ Spec.closers)
    {t : Sum} (ht : t.lead ⊆ Sum.pairs [[], t!" "] leads) (hf : t.free = []) (ha : t.after ⊆ Spec.closers) (hfirst : t.firsts ⊆ Spec.closers) :
    Sum.Le ((⟨L, l, D, A⟩ : Sum).cat t) tokenS := by
  refine ⟨?_, ?_, fun _ => rfl, ?_⟩
  · intro u hu
    rcases List.mem_append.1 hu with hu | hu
    · rcases List.mem_cons.1 (hL hu) with rfl | hu
      · exact List.mem_append_left _ (by decide)
      · exact List.mem_append_right _ (List.mem_append_left _ hu)
    · obtain ⟨n, hn, hu⟩ := List.mem_flatMap.1 hu
      obtain ⟨v, hv, rfl⟩ := List.mem_map.1 hu
      exact List.mem_append_right _ (List.mem_append_right _ (Sum.mem_pairs (hl hn) (ht hv)))
  · intro u hu
    simp [Sum.cat, hf, Sum.pairs] at hu
  · intro c hc
    simp only [Sum.cat, List.mem_append] at hc
    rcases hc with (hc | hc) | hc
    · exact hA hc
    · exact ha hc
    · split at hc
      · exact hfirst hc
      · cases hc

theorem edge_currency (b : Bool) :
    Edge (pc b) currency ⟨[], moneyCode.map Prod.fst ++ moneySymbol.map Prod.fst, false, []⟩ :=
  edge_or (edge_words (by decide +kernel) (pc_fixed (by decide +kernel)))
    (edge_words (by decide +kernel) (pc_fixed (by decide +kernel)))

theorem edge_moneyRule (b : Bool) : Edge (pc b) moneyRule.tagger tokenS := by
  have h1 := edge_number b
  have h2 : Edge (pc b) ((del t!" ").ques + (Wfst.insert t!" " + tagField t!"value" number))
      ⟨Sum.pairs [[], t!" "] leads, [], true, t!".%"⟩ := by
    cases b
    all_goals exact Edge.mono (by edges) (by decide +kernel)
  refine edge_addTokens ?_
  rintro x y w ⟨x₁, _, _, x₄, _, _, ⟨x₁, _, _, x₃, _, _, ⟨x₁, _, _, x₂, _, _, g1, g2, rfl, rfl, rfl⟩, g3, rfl, rfl, rfl⟩, g4, rfl, rfl, rfl⟩
  have := edge_add (edge_tagField (n := t!"currency") (edge_currency b)) h2 (x₁ ++ (x₂ ++ (x₃ ++ x₄))) _ _
    ⟨_, _, _, _, _, _, g1, ⟨_, _, _, _, _, _, g2, ⟨_, _, _, _, _, _, g3, g4, rfl, rfl, rfl⟩, rfl, rfl, rfl⟩, rfl, rfl, rfl⟩
  rw [List.append_assoc, List.append_assoc]
  refine this.mono (le_named ?_ (by simp) (by simp) (List.Subset.refl _) rfl (by decide) (by decide))
  intro u hu
  simp only [Spec.names, List.mem_append] at hu ⊢
  tauto

theorem edge_team (b : Bool) : Edge (pc b) team
    ⟨[[], t!"B", t!"十月", t!"卡拉奥华大学", t!"图库姆斯", t!"大师", t!"曼彻斯特", t!"沙尔克", t!"浩罕", t!"米达利兹", t!"菲律宾U-", t!"香港U"],
      country.map Prod.fst ++ club.map Prod.fst, true, t!"中学拖托F"⟩ := by
  have h1 : Edge (pc b) (.tab country) ⟨[], country.map Prod.fst, false, []⟩ :=
    edge_words (by decide +kernel) (pc_fixed (by decide +kernel))
  have h2 : Edge (pc b) (.tab club) ⟨[[], t!"B", t!"十月", t!"卡拉奥华大学", t!"图库姆斯", t!"大师", t!"曼彻斯特", t!"沙尔克", t!"浩罕", t!"米达利兹", t!"菲律宾U-", t!"香港U"],
      club.map Prod.fst, true, t!"中学拖托F"⟩ := by
    cases b
    all_goals exact edge_names (by decide +kernel)
  exact edge_or h1 h2

theorem edge_sportRule (b : Bool) : Edge (pc b) sportRule.tagger tokenS := by
  have h1 := edge_number b
  have h2 : Edge (pc b) (Wfst.insert t!" " + tagField t!"score" score)
      ⟨Sum.pairs [[], t!" "] leads, [], true, t!".%/-: "⟩ := by
    cases b
    all_goals exact Edge.mono (by unfold score rmspace; edges) (by decide +kernel)
  refine edge_addTokens ?_
  rintro x y w ⟨x₁, _, _, x₃, _, _, ⟨x₁, _, _, x₂, _, _, g1, g2, rfl, rfl, rfl⟩, g3, rfl, rfl, rfl⟩
  have := edge_add (edge_tagField (n := t!"team") (edge_team b)) h2 (x₁ ++ (x₂ ++ x₃)) _ _
    ⟨_, _, _, _, _, _, g1, ⟨_, _, _, _, _, _, g2, g3, rfl, rfl, rfl⟩, rfl, rfl, rfl⟩
  rw [List.append_assoc]
  refine this.mono (le_named ?_ ?_ (by decide) (List.Subset.refl _) rfl (by decide) (by decide))
  · intro u hu
    simp only [Spec.names, List.mem_append] at hu ⊢
    tauto
  · decide

end Verif.ZhTn
