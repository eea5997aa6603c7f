import Verif.ZhItn.TextSpec
import Verif.ZhItn.PlainProps
import Verif.Wfst.EdgeOf

/-
What the inputs of the Chinese inverse rules look like: what stands before the first character of a number in them, and
which characters come right after numbers. Characters of numbers are changed to a digit to keep them apart.
-/

namespace Verif.ZhItn

open Verif.Wfst

/-- The character `0` for those of the list; digits are made something else. -/
def mark (l : Str) (c : Char) : Char := if l.contains c then '0' else if dig c then '#' else c

theorem dig_mark {l : Str} {c : Char} : dig (mark l c) = l.contains c := by
  unfold mark
  split
  · rename_i h; rw [h]; rfl
  · rename_i h
    split
    · simp only [Bool.not_eq_true] at h
      rw [h]; rfl
    · rename_i h'; simp only [Bool.not_eq_true] at h h'
      rw [h, h']

theorem suffix_mark {l v s : Str} (hv : ∀ c ∈ v, c ≠ '0' ∧ c ≠ '#') (h : v <:+ s.map (mark l)) : v <:+ s := by
  obtain ⟨p, e⟩ := h
  obtain ⟨a, b, rfl, _, hb⟩ := List.map_eq_append_iff.1 e.symm
  have : b.map (mark l) = b.map id := by
    refine List.map_congr_left fun c hc => ?_
    have h1 := hv (mark l c) (by rw [← hb]; exact List.mem_map_of_mem hc)
    unfold mark at h1 ⊢
    split
    · rename_i h; rw [if_pos h] at h1; exact absurd rfl h1.1
    · rename_i h
      rw [if_neg h] at h1
      split
      · rename_i h'; rw [if_pos h'] at h1; exact absurd rfl h1.2
      · rfl
  rw [this, List.map_id] at hb
  rw [← hb]
  exact List.suffix_append _ _

theorem openers_marks : ∀ v ∈ Spec.openers, ∀ c ∈ v, c ≠ '0' ∧ c ≠ '#' := by decide +kernel

theorem mark_closers {c : Char} (h : c ∉ Spec.numberChars) (hm : mark Spec.numberChars c ∈ Spec.closers) : c ∈ Spec.closers := by
  unfold mark at hm
  rw [if_neg (by simpa using h)] at hm
  split at hm
  · exact absurd hm (by decide +kernel)
  · exact hm

/-- Whatever stands in an input before the first number ends with one of the words. -/
def Opens (g : G) : Prop := ∀ x y w, g.den x y w → ∀ q d r, x = q ++ d :: r → (∀ c ∈ q, c ∉ triggers) → d ∈ triggers → q ≠ [] →
  ∃ v ∈ Spec.openers, v <:+ q

/-- Whatever comes in an input right after a number is one of the characters. -/
def Closes (g : G) : Prop := ∀ x y w, g.den x y w → ∀ q a b r, x = q ++ a :: b :: r → a ∈ Spec.numberChars →
  b ∉ Spec.numberChars → b ∈ Spec.closers

/-- A summary with nothing else before numbers. -/
def opening (s : Sum) : Bool := s.lead.all fun w => w.isEmpty || Spec.openers.any fun v => v.isSuffixOf w
/-- A summary with nothing else after numbers. -/
def closing (s : Sum) : Bool := s.after.all (Spec.closers.contains ·)

theorem opens_of {g : G} {s : Sum} (h : EdgeN id (mark triggers) [] g s) (hs : opening s = true) : Opens g := by
  rintro x y w hd q d r rfl hq hdt hne
  have h1 := h _ _ _ hd (fun n hn => absurd hn (List.not_mem_nil))
  rw [List.map_id, List.map_append, List.map_cons] at h1
  have h2 := h1.lead _ _ _ rfl (by
    intro c hc
    obtain ⟨c, hc', rfl⟩ := List.mem_map.1 hc
    rw [dig_mark]; simpa using hq c hc') (by rw [dig_mark]; simpa using hdt)
  have h3 := List.all_eq_true.1 hs _ h2
  rw [Bool.or_eq_true] at h3
  rcases h3 with h3 | h3
  · exact absurd (List.map_eq_nil_iff.1 (List.isEmpty_iff.1 h3)) hne
  · obtain ⟨v, hv, h4⟩ := List.any_eq_true.1 h3
    exact ⟨v, hv, suffix_mark (openers_marks v hv) (List.isSuffixOf_iff_suffix.1 h4)⟩

theorem closes_of {g : G} {s : Sum} (h : EdgeN id (mark Spec.numberChars) [] g s) (hs : closing s = true) : Closes g := by
  rintro x y w hd q a b r rfl ha hb
  have h1 := h _ _ _ hd (fun n hn => absurd hn (List.not_mem_nil))
  rw [List.map_id, List.map_append, List.map_cons, List.map_cons] at h1
  have h2 := h1.after _ _ _ _ rfl (by rw [dig_mark]; simpa using ha) (by rw [dig_mark]; simpa using hb)
  have h3 := List.all_eq_true.1 hs _ h2
  exact mark_closers hb (by simpa using h3)

theorem edgeN_id {f : Char → Char} {g : G} (hs : (edgeOf f [] g).isSome = true) : EdgeN id f [] g ((edgeOf f [] g).getD .nil) :=
  edgeN_under (fun x y w hd => by rw [List.map_id]; exact hd) hs

theorem edgeN_checked {f : Char → Char} {g : G} {p : Sum → Bool} (hs : (edgeOf f [] g).any p = true) :
    ∃ s, EdgeN id f [] g s ∧ p s = true := by
  obtain ⟨s, e, hs⟩ := (Option.any_eq_true _ _).1 hs
  have h := edgeN_id (f := f) (g := g) (by rw [e]; rfl)
  rw [e] at h
  exact ⟨s, h, hs⟩

theorem opens_checked {g : G} (hs : (edgeOf (mark triggers) [] g).any opening = true) : Opens g := by
  obtain ⟨s, h1, h2⟩ := edgeN_checked hs
  exact opens_of h1 h2

theorem closes_checked {g : G} (hs : (edgeOf (mark Spec.numberChars) [] g).any closing = true) : Closes g := by
  obtain ⟨s, h1, h2⟩ := edgeN_checked hs
  exact closes_of h1 h2

theorem opens_addTokens {n : Str} {g : G} (h : Opens g) : Opens (addTokens n g) := by
  intro x y w hd
  obtain ⟨m, _, hd⟩ := den_addTokens.1 hd
  exact h _ _ _ hd

theorem closes_addTokens {n : Str} {g : G} (h : Closes g) : Closes (addTokens n g) := by
  intro x y w hd
  obtain ⟨m, _, hd⟩ := den_addTokens.1 hd
  exact h _ _ _ hd

theorem opens_tagField {n : Str} {g : G} (h : Opens g) : Opens (tagField n g) := by
  intro x y w hd
  obtain ⟨_, _, z, hd⟩ := den_tagField.1 hd
  exact h _ _ _ hd

theorem closes_tagField {n : Str} {g : G} (h : Closes g) : Closes (tagField n g) := by
  intro x y w hd
  obtain ⟨_, _, z, hd⟩ := den_tagField.1 hd
  exact h _ _ _ hd

theorem opens_or {a b : G} (ha : Opens a) (hb : Opens b) : Opens (a ||| b) := by
  rintro x y w (hd | hd)
  · exact ha _ _ _ hd
  · exact hb _ _ _ hd

theorem closes_or {a b : G} (ha : Closes a) (hb : Closes b) : Closes (a ||| b) := by
  rintro x y w (hd | hd)
  · exact ha _ _ _ hd
  · exact hb _ _ _ hd

/-- The first number is in the first part. -/
theorem opens_add {a b : G} (ha : Opens a) (hm : must triggers a = true) : Opens (a + b) := by
  rintro x y w ⟨x₁, y₁, w₁, x₂, y₂, w₂, h1, h2, rfl, _⟩ q d r e hq hd hne
  obtain ⟨c, hc, hct⟩ := must_den hm h1
  rcases List.append_eq_append_iff.1 e with ⟨l, h3, _⟩ | ⟨l, h3, h4⟩
  · exact absurd hct (hq c (by rw [h3]; simp [hc]))
  · cases l with
    | nil => exact absurd hct (hq c (by rw [List.append_nil] at h3; rw [← h3]; exact hc))
    | cons d' l =>
      obtain ⟨rfl, _⟩ := List.cons.inj h4
      exact ha _ _ _ h1 q _ l h3 hq hd hne

/-- The first characters of the inputs and those after numbers are in the list. -/
def Follows (g : G) : Prop := ∀ x y w, g.den x y w → Trail Spec.closers (x.map (mark Spec.numberChars))

theorem follows_checked {g : G} (hs : (trailOf (mark Spec.numberChars) [] g).any (fun l => l.all (Spec.closers.contains ·)) = true) :
    Follows g := by
  intro x y w hd
  obtain ⟨l, e, hl⟩ := (Option.any_eq_true _ _).1 hs
  refine (trailOf_den e hd (fun n hn => absurd hn (List.not_mem_nil))).mono ?_
  intro c hc
  simpa using List.all_eq_true.1 hl c hc

theorem follows_insert {u : Str} : Follows (Wfst.insert u) := by
  intro x y w h
  obtain ⟨rfl, _⟩ := den_insert.1 h
  exact Trail.nil

theorem follows_tagField {n : Str} {g : G} (h : Follows g) : Follows (tagField n g) := by
  intro x y w hd
  obtain ⟨_, _, z, hd⟩ := den_tagField.1 hd
  exact h _ _ _ hd

theorem follows_or {a b : G} (ha : Follows a) (hb : Follows b) : Follows (a ||| b) := trails_or ha hb

theorem follows_wt {a : G} {k : W} (ha : Follows a) : Follows (.wt a k) := trails_wt ha

theorem follows_add {a b : G} (ha : Follows a) (hb : Follows b) : Follows (a + b) := trails_add ha hb

theorem mem_following {q r : Str} {a b : Char} (ha : a ∈ Spec.numberChars) (hb : b ∉ Spec.numberChars) :
    b ∈ Spec.following (q ++ a :: b :: r) := by
  induction q with
  | nil => simp [Spec.following, ha, hb]
  | cons c q ih =>
    cases q with
    | nil =>
      rw [List.cons_append, List.nil_append, Spec.following]
      split
      · exact List.mem_cons_of_mem _ ih
      · exact ih
    | cons d q =>
      rw [List.cons_append, List.cons_append, Spec.following]
      split
      · exact List.mem_cons_of_mem _ ih
      · exact ih

theorem follows_tab {l : List (Str × Str)} (h : ∀ e ∈ l, Spec.following ('零' :: e.1) ⊆ Spec.closers) : Follows (.tab l) := by
  intro x y w hd
  have h1 := h _ hd.1
  have h2 : ∀ c, c ∈ Spec.closers → c ∉ Spec.numberChars → mark Spec.numberChars c ∈ Spec.closers := by
    have h3 : Spec.closers.all (fun c => !dig c) = true := by decide +kernel
    intro c hc hn
    have h4 := List.all_eq_true.1 h3 c hc
    unfold mark
    rw [if_neg (by simpa using hn), if_neg (by simpa using h4)]
    exact hc
  have num : ∀ c, dig (mark Spec.numberChars c) = false → c ∉ Spec.numberChars := by
    intro c hc
    rw [dig_mark] at hc
    simpa using hc
  constructor
  · intro c r e hc
    obtain ⟨c', r', rfl, rfl, _⟩ := List.map_eq_cons_iff.1 e
    exact h2 _ (h1 (mem_following (q := []) (by decide) (num _ hc))) (num _ hc)
  · intro q a b r e ha hb
    obtain ⟨q', r1, rfl, _, e2⟩ := List.map_eq_append_iff.1 e
    obtain ⟨a', r2, rfl, rfl, e3⟩ := List.map_eq_cons_iff.1 e2
    obtain ⟨b', r3, rfl, rfl, _⟩ := List.map_eq_cons_iff.1 e3
    rw [dig_mark] at ha
    exact h2 _ (h1 (mem_following (q := '零' :: q') (by simpa using ha) (num _ hb))) (num _ hb)

theorem following_closers {e : Str × Str} (he : e ∈ unitsEn ++ unitsZh ++ moneySymbol ++ moneyCode) :
    Spec.following ('零' :: e.1) ⊆ Spec.closers := by
  intro c hc
  exact List.mem_append_left _ (List.mem_append_right _ (List.mem_flatMap_of_mem he hc))

theorem follows_units : Follows units := by
  refine follows_or (follows_add (follows_checked (by decide +kernel)) (follows_tab fun e he => following_closers ?_))
    (follows_add (follows_checked (by decide +kernel)) (follows_wt
      (follows_or (follows_tab fun e he => following_closers ?_) (follows_wt (follows_checked (by decide +kernel))))))
  · exact List.mem_append_left _ (List.mem_append_left _ (List.mem_append_right _ he))
  · exact List.mem_append_left _ (List.mem_append_left _ (List.mem_append_left _ he))

theorem follows_currency : Follows currency := by
  refine follows_or (follows_tab fun e he => following_closers ?_) (follows_wt (follows_tab fun e he => following_closers ?_))
  · exact List.mem_append_left _ (List.mem_append_right _ he)
  · exact List.mem_append_right _ he

theorem closes_add {a b : G} (ha : Closes a) (hb : Follows b) : Closes (a + b) := by
  rintro x y w ⟨x₁, y₁, w₁, x₂, y₂, w₂, h1, h2, rfl, _⟩ q c d r e hc hd
  have hb := hb _ _ _ h2
  have hd' : dig (mark Spec.numberChars d) = false := by rw [dig_mark]; simpa using hd
  rcases Sum.neighbours e with ⟨r', e1, _⟩ | ⟨_, e2⟩ | ⟨q', _, e2⟩
  · exact ha _ _ _ h1 q c d r' e1 hc hd
  · refine mark_closers hd (hb.first _ (r.map _) (by rw [e2]; rfl) hd')
  · refine mark_closers hd (hb.after (q'.map (mark Spec.numberChars)) (mark Spec.numberChars c) _ (r.map (mark Spec.numberChars)) (by rw [e2]; simp) ?_ hd')
    rw [dig_mark]; simpa using hc

/-- Puts a summary together. -/
macro "edgesZ" : tactic => `(tactic| repeat' first
  | with_reducible exact edgeN_insert
  | with_reducible apply edgeN_addTokens | with_reducible apply edgeN_tagField | with_reducible apply edgeN_ques
  | with_reducible apply edgeN_add | with_reducible apply edgeN_or | with_reducible apply edgeN_id | decide +kernel)

/-! ### The rules -/

theorem opens_cardinal (k : Config) : Opens (cardinalRule k).tagger := by
  have h1 : ∀ s z m, (edgeOf (mark triggers) [] (cardinal ⟨false, s, z, m⟩)).any opening = true := by decide +kernel
  exact opens_addTokens (opens_tagField (opens_checked (h1 k.standalone k.zeroToNine k.million)))

theorem closes_cardinal (k : Config) : Closes (cardinalRule k).tagger := by
  have h1 : ∀ s z m, (edgeOf (mark Spec.numberChars) [] (cardinal ⟨false, s, z, m⟩)).any closing = true := by decide +kernel
  exact closes_addTokens (closes_tagField (closes_checked (h1 k.standalone k.zeroToNine k.million)))

theorem opens_date : Opens dateRule.tagger :=
  opens_of (by unfold dateRule; edgesZ) (by decide +kernel)

theorem closes_date : Closes dateRule.tagger :=
  closes_of (by unfold dateRule; edgesZ) (by decide +kernel)

theorem opens_whitelist : Opens whitelistRule.tagger :=
  opens_addTokens (opens_tagField (opens_checked (by decide +kernel)))

theorem closes_whitelist : Closes whitelistRule.tagger :=
  closes_addTokens (closes_tagField (closes_checked (by decide +kernel)))

theorem opens_train : Opens trainRule.tagger :=
  opens_addTokens (opens_tagField (opens_checked (by decide +kernel)))

theorem closes_train : Closes trainRule.tagger :=
  closes_addTokens (closes_tagField (closes_checked (by decide +kernel)))

theorem opens_math (m : Bool) : Opens (mathRule m).tagger := by
  refine opens_addTokens (opens_tagField (opens_checked ?_))
  revert m; decide +kernel

theorem closes_math (m : Bool) : Closes (mathRule m).tagger := by
  refine closes_addTokens (closes_tagField (closes_checked ?_))
  revert m; decide +kernel

theorem opens_time : Opens timeRule.tagger :=
  opens_of (by unfold timeRule; edgesZ) (by decide +kernel)

theorem closes_time : Closes timeRule.tagger :=
  closes_of (by unfold timeRule; edgesZ) (by decide +kernel)

theorem opens_fraction (m : Bool) : Opens (fractionRule m).tagger := by
  cases m
  all_goals
    refine opens_addTokens (opens_or ?_ ?_)
    · rintro x y w ⟨w₀, h, _⟩
      exact opens_of (by edgesZ) (by decide +kernel) x y w₀ h
    · exact opens_of (by edgesZ) (by decide +kernel)

theorem closes_fraction (m : Bool) : Closes (fractionRule m).tagger := by
  cases m
  all_goals
    refine closes_addTokens (closes_or ?_ ?_)
    · rintro x y w ⟨w₀, h, _⟩
      exact closes_of (by edgesZ) (by decide +kernel) x y w₀ h
    · exact closes_of (by edgesZ) (by decide +kernel)

theorem opens_measure (k : Config) : Opens (measure k) := by
  have h1 : ∀ z m, (edgeOf (mark triggers) [] (measureNumber ⟨false, false, z, m⟩)).any opening = true := by decide +kernel
  have h2 : ∀ z m, must triggers (measureNumber ⟨false, false, z, m⟩) = true := by decide +kernel
  have h3 := h2 k.zeroToNine k.million
  refine opens_add (opens_add (opens_checked (h1 k.zeroToNine k.million)) h3) ?_
  show (must triggers (measureNumber k) || _) = true
  rw [Bool.or_eq_true]; exact .inl h3

theorem closes_measure (k : Config) : Closes (measure k) := by
  have h1 : ∀ z m, (edgeOf (mark Spec.numberChars) []
      (measureNumber ⟨false, false, z, m⟩ + (toG + measureNumber ⟨false, false, z, m⟩).ques)).any closing = true := by decide +kernel
  exact closes_add (closes_checked (h1 k.zeroToNine k.million)) follows_units

theorem opens_measureValue (k : Config) : Opens (measureValue k) := by
  have h1 : ∀ z, (edgeOf (mark triggers) [] (measureSpecial z)).any opening = true := by decide +kernel
  have h2 : ∀ m, (edgeOf (mark triggers) [] (percent m)).any opening = true := by decide +kernel
  have h3 : ∀ m, (edgeOf (mark triggers) [] (moneyColloquial m)).any opening = true := by decide +kernel
  exact opens_or (opens_or (opens_or (opens_measure k) (opens_checked (h1 _))) (opens_checked (h2 _))) (opens_checked (h3 _))

theorem closes_measureValue (k : Config) : Closes (measureValue k) := by
  have h1 : ∀ z, (edgeOf (mark Spec.numberChars) [] (measureSpecial z)).any closing = true := by decide +kernel
  have h2 : ∀ m, (edgeOf (mark Spec.numberChars) [] (percent m)).any closing = true := by decide +kernel
  have h3 : ∀ m, (edgeOf (mark Spec.numberChars) [] (moneyColloquial m)).any closing = true := by decide +kernel
  exact closes_or (closes_or (closes_or (closes_measure k) (closes_checked (h1 _))) (closes_checked (h2 _))) (closes_checked (h3 _))

theorem opens_money (k : Config) : Opens (moneyRule k).tagger := by
  have h1 : ∀ z m, (edgeOf (mark triggers) [] (moneyValue ⟨false, false, z, m⟩)).any opening = true := by decide +kernel
  have h2 : ∀ z m, must triggers (tagField t!"value" (moneyValue ⟨false, false, z, m⟩)) = true := by decide +kernel
  have h3 : must triggers (tagField t!"value" (moneyValue k)) = true := h2 k.zeroToNine k.million
  have key : ∀ a b : G, must triggers a = true → must triggers (a + b) = true := by
    intro a b h
    show (must triggers a || _) = true
    rw [Bool.or_eq_true]; exact .inl h
  have h4 := key _ (Wfst.insert t!" ") h3
  have h5 := key _ (tagField t!"currency" currency) h4
  have h6 := key _ (Wfst.insert t!" ") h5
  exact opens_addTokens (opens_add (opens_add (opens_add (opens_add
    (opens_tagField (opens_checked (h1 k.zeroToNine k.million))) h3) h4) h5) h6)

theorem closes_money (k : Config) : Closes (moneyRule k).tagger := by
  have h1 : ∀ z m, (edgeOf (mark Spec.numberChars) [] (moneyValue ⟨false, false, z, m⟩)).any closing = true := by decide +kernel
  exact closes_addTokens (closes_add (closes_add (closes_add (closes_add
    (closes_tagField (closes_checked (h1 k.zeroToNine k.million))) follows_insert)
    (follows_tagField follows_currency)) follows_insert)
    (follows_tagField (follows_checked (by decide +kernel))))

end Verif.ZhItn
