import Verif.EnItn.Pieces
import Verif.Wfst.Rewrite

/-
Properties C52 and C71 of the English inverse normalizer: every tagging is a token stream that quotes
the text, and exactly the readable texts are normalized.
-/

namespace Verif.EnItn

open Verif.Wfst
open Verif.Wfst.Spec (Quoted quotes)
open Verif.Token.Spec (esc write writeAll Tok Writable IsName Distinct Stream Spaces)
open Verif.NBest (Pipeline normalize candidates grammar)
open Spec (White Mark Wordy Piece Pieces Readable)

/-! ### Tagging by words, characters and punctuation marks -/

/-- A token with one field `value`. -/
def valueTok (n v : Str) : Tok := ⟨n, [(t!"value", v)]⟩

theorem valueTok_writable {n v : Str} (hn : IsName n) : Writable (valueTok n v) :=
  ⟨hn, (by intro f hf; rw [List.mem_singleton.1 hf]; exact (by decide : IsName t!"value")),
    by simp [valueTok, Distinct]⟩

/-- The token can be verbalized alone and is not reordered. -/
structure Plain (k : Tok) : Prop where
  writable : Writable k
  noOrder : tokenOrders k.name = none
  verb : ∀ sp, (sp = [] ∨ sp = [' ']) → ∃ y, VText y ∧ verbalizerU.den (write k ++ sp) y 0

theorem value_verbalizer {n v : Str} (hv : VText v) {sp : Str} (hsp : sp = [] ∨ sp = [' ']) :
    (defaultVerbalizer n).den (write (valueTok n v) ++ sp) v 0 := by
  refine den_deleteTokens.2 ⟨t!"value: \"" ++ esc v ++ t!"\"", sp, hsp, by simp [write, valueTok], ?_⟩
  have := (verbalize_plain t!"value" v v 0 hv).2 ⟨rfl, rfl⟩
  simpa using this

theorem plain_value {s : RuleSpec} {n v : Str} (hs : s ∈ verbalizerRules) (hv : s.verbalize = true)
    (he : s.rule.verbalizer = defaultVerbalizer n) (hn : IsName n) (ho : tokenOrders n = none)
    (hx : VText v) : Plain (valueTok n v) :=
  ⟨valueTok_writable hn, ho, fun sp hsp => ⟨v, hx,
    verb_union verbalizerUnion_eq hs hv (by rw [he]; exact value_verbalizer hx hsp)⟩⟩

theorem plain_word {v : Str} (hx : VText v) : Plain (valueTok t!"word" v) :=
  plain_value (s := ⟨wordRule, some 5000000, true⟩) (by simp [verbalizerRules, rules]) rfl rfl (by decide)
    (by decide +kernel) hx

theorem plain_char {v : Str} (hx : VText v) : Plain (valueTok t!"char" v) :=
  plain_value (s := ⟨charRule, some 10000000, true⟩) (by simp [verbalizerRules, rules]) rfl rfl (by decide)
    (by decide +kernel) hx

theorem plain_punct {v : Str} (hx : VText v) : Plain (valueTok t!"punctuation" v) :=
  plain_value (s := ⟨punctuationRule, none, true⟩) (by simp [verbalizerRules]) rfl rfl (by decide)
    (by decide +kernel) hx

/-- The grammar has a tagging of the text that can be verbalized. -/
def Plainly (g : G) (x : Str) : Prop :=
  ∃ t w ks, g.den x t w ∧ Stream t ks ∧ ∀ k ∈ ks, Plain k

theorem Plainly.add {a b : G} {x y : Str} (ha : Plainly a x) (hb : Plainly b y) :
    Plainly (a + b) (x ++ y) := by
  obtain ⟨t, w, ks, h1, h2, h3⟩ := ha
  obtain ⟨t', w', ks', h1', h2', h3'⟩ := hb
  refine ⟨t ++ t', w + w', ks ++ ks', h1.cat h1', stream_append h2 h2', ?_⟩
  intro k hk
  rcases List.mem_append.1 hk with hk | hk
  · exact h3 k hk
  · exact h3' k hk

theorem plainly_of_space {g : G} {x t : Str} {w : W} (h : g.den x t w) (ht : Spaces t) : Plainly g x :=
  ⟨t, w, [], h, .done ht, by simp⟩

theorem spaces_nil : Spaces [] := by intro c hc; cases hc

theorem Plainly.star {a : G} {xs : List Str} (h : ∀ x ∈ xs, Plainly a x) : Plainly (.star a) xs.flatten := by
  induction xs with
  | nil => exact plainly_of_space (t := []) Star.nil spaces_nil
  | cons x xs ih =>
    obtain ⟨t, w, ks, h1, h2, h3⟩ := h x (by simp)
    obtain ⟨t', w', ks', h1', h2', h3'⟩ := ih fun y hy => h y (by simp [hy])
    refine ⟨t ++ t', w + w', ks ++ ks', Star.cons h1 h1', stream_append h2 h2', ?_⟩
    intro k hk
    rcases List.mem_append.1 hk with hk | hk
    · exact h3 k hk
    · exact h3' k hk

theorem stream_one {k : Tok} (hk : Writable k) : Stream (write k ++ [' ']) [k] := by
  have := Stream.block (sp := []) spaces_nil (Verif.Token.block_write hk.1 hk.2.1)
    (.done (sp := [' ']) (by simp [Spaces]))
  simpa using this

theorem plainly_tok {g : G} {x : Str} {k : Tok} {w : W} (h : g.den x (write k ++ [' ']) w) (hk : Plain k) :
    Plainly g x :=
  ⟨_, w, [k], h, stream_one hk.writable, by simpa using hk⟩

theorem vtext_wordy {s : Str} (h : ∀ c ∈ s, Wordy c) : VText s := fun c hc => vchar_iff.2 (h c hc).1

theorem star_cls_den {p : Char → Bool} {s : Str} (h : ∀ c ∈ s, p c = true) : (G.star (G.cls p)).den s s 0 := by
  induction s with
  | nil => exact Star.nil
  | cons c s ih =>
    exact Star.cons (R := (G.cls p).den) (x := [c]) (y := [c]) (w := 0) (w' := 0) ⟨c, h c (by simp), rfl, rfl, rfl⟩
      (ih fun d hd => h d (by simp [hd]))

theorem plus_cls_den {p : Char → Bool} {s : Str} (hne : s ≠ []) (h : ∀ c ∈ s, p c = true) :
    (G.cls p).plus.den s s 0 := by
  cases s with
  | nil => exact absurd rfl hne
  | cons c s =>
    exact ⟨[c], [c], 0, s, s, 0, ⟨c, h c (by simp), rfl, rfl, rfl⟩,
      star_cls_den fun d hd => h d (by simp [hd]), rfl, rfl, rfl⟩

theorem value_tagger {n v : Str} {g : G} (h : g.den v (esc v) 0) :
    (addTokens n (Wfst.insert t!"value: \"" + g + Wfst.insert t!"\"")).den v (write (valueTok n v) ++ [' ']) 0 :=
  den_addTokens.2 ⟨t!"value: \"" ++ esc v ++ t!"\"", by simp [write, valueTok],
    den_add_insert.2 ⟨_, rfl, den_insert_add.2 ⟨_, rfl, h⟩⟩⟩

theorem esc_wordy {s : Str} (h : ∀ c ∈ s, Wordy c) : esc s = s :=
  esc_plain (List.all_eq_true.2 fun c hc => wordChar_plain (wordy_iff.2 (h c hc)))

theorem plainly_word {s : Str} (hne : s ≠ []) (h : ∀ c ∈ s, Wordy c) : Plainly classify s := by
  refine plainly_tok (tag_union taggerUnion_eq (s := ⟨wordRule, some 5000000, true⟩) (by simp [rules]) rfl
    (value_tagger ?_)) (plain_word (vtext_wordy h))
  rw [esc_wordy h]
  exact plus_cls_den hne fun c hc => wordy_iff.2 (h c hc)

theorem plainly_char {c : Char} (hc : c ≠ '\x00') : Plainly classify [c] := by
  have hv : VText [c] := by intro d hd; rw [List.mem_singleton.1 hd]; exact vchar_iff.2 hc
  exact plainly_tok (tag_union taggerUnion_eq (s := ⟨charRule, some 10000000, true⟩) (by simp [rules]) rfl
    (char_tagger (vchar_iff.2 hc))) (plain_char hv)

theorem plainly_punct {c : Char} (hc : Mark c) : Plainly (.wt punctuationRule.tagger 110000) [c] := by
  have h : ∀ d ∈ [c], Wordy d := by simpa using mark_wordy hc
  refine plainly_tok (w := 0 + 110000) ⟨0, value_tagger ?_, rfl⟩ (plain_punct (vtext_wordy h))
  rw [esc_wordy h]
  exact ⟨c, mark_iff.2 hc, rfl, rfl, rfl⟩

theorem plainly_ques : Plainly (del t!" ").ques [] :=
  plainly_of_space (t := []) (w := 0) (.inl ⟨rfl, rfl, rfl⟩) spaces_nil

theorem flatten_single (a : Str) : (a.map fun c => [c]).flatten = a := by
  induction a with
  | nil => rfl
  | cons c a ih => simp [ih]

theorem plainly_left {a : Str} (h : ∀ d ∈ a, Mark d) :
    Plainly (.star (G.wt punctuationRule.tagger 110000 + (del t!" ").ques)) a := by
  have := Plainly.star (a := G.wt punctuationRule.tagger 110000 + (del t!" ").ques)
    (xs := a.map fun c => [c]) (by
      intro x hx
      obtain ⟨c, hc, rfl⟩ := List.mem_map.1 hx
      simpa using (plainly_punct (h c hc)).add plainly_ques)
  rwa [flatten_single] at this

theorem plainly_right {a : Str} (h : ∀ d ∈ a, Mark d) :
    Plainly (.star ((del t!" ").ques + G.wt punctuationRule.tagger 110000)) a := by
  have := Plainly.star (a := (del t!" ").ques + G.wt punctuationRule.tagger 110000)
    (xs := a.map fun c => [c]) (by
      intro x hx
      obtain ⟨c, hc, rfl⟩ := List.mem_map.1 hx
      simpa using plainly_ques.add (plainly_punct (h c hc)))
  rwa [flatten_single] at this

theorem plainly_piece {x : Str} (h : Piece x) : Plainly (token classify) x := by
  unfold token
  cases h with
  | word hne h =>
    have := ((plainly_left (a := []) (by simp)).add (plainly_word hne h)).add (plainly_right (a := []) (by simp))
    simpa using this
  | char ha hc hb =>
    have := ((plainly_left ha).add (plainly_char hc)).add (plainly_right hb)
    simpa using this

/-- `graph`. -/
def pieceGraph : G := token classify + .star (DELETE_EXTRA_SPACE + token classify)

theorem plainly_pieces {x : Str} (h : Pieces x) : Plainly pieceGraph x := by
  unfold pieceGraph
  induction h with
  | one h => simpa using (plainly_piece h).add (Plainly.star (xs := []) (by simp))
  | more h hs hw _ ih =>
    rename_i p s x _
    obtain ⟨t, w, ks, ⟨x₁, y₁, w₁, x₂, y₂, w₂, h1, h2, rfl, rfl, rfl⟩, h4, h5⟩ := ih
    have hsep : DELETE_EXTRA_SPACE.den s [' '] 0 :=
      den_extraSpace.2 ⟨rfl, hs, fun c hc => space_iff.2 (hw c hc), rfl⟩
    obtain ⟨t', w', ks', h1', h2', h3'⟩ := plainly_piece h
    have hst : (G.star (DELETE_EXTRA_SPACE + token classify)).den (s ++ x₁ ++ x₂) ([' '] ++ y₁ ++ y₂) (0 + w₁ + w₂) :=
      Star.cons (R := (DELETE_EXTRA_SPACE + token classify).den) (hsep.cat h1) h2
    refine ⟨t' ++ ([' '] ++ (y₁ ++ y₂)), w' + (0 + w₁ + w₂), ks' ++ ([] ++ ks), ?_,
      stream_append h2' (stream_append (.done (by simp [Spaces])) h4), ?_⟩
    · simpa using h1'.cat hst
    · intro k hk
      rcases List.mem_append.1 hk with hk | hk
      · exact h3' k hk
      · exact h5 k (by simpa using hk)

theorem plainly_spaces {a : Str} (h : ∀ c ∈ a, c = ' ') : Plainly (.star (del t!" ")) a := by
  have := Plainly.star (a := del t!" ") (xs := a.map fun c => [c]) (by
    intro x hx
    obtain ⟨c, hc, rfl⟩ := List.mem_map.1 hx
    rw [h c hc]
    exact plainly_of_space (t := []) (w := 0) (den_del.2 ⟨rfl, rfl, rfl⟩) spaces_nil)
  rwa [flatten_single] at this

/-- Every readable text has a tagging that can be verbalized. -/
theorem plainly_tagger {x : Str} (h : Readable x) : Plainly (taggerOf classify) x := by
  obtain ⟨a, y, b, rfl, ha, hb, hy⟩ := h
  unfold taggerOf
  have := ((plainly_spaces ha).add (plainly_pieces hy)).add (plainly_spaces hb)
  simpa [pieceGraph] using this

/-! ### Verbalizing -/

theorem rewrites_exists (R : Rel) (l r : Ctx) (hR : ∀ u v w, R u v w → VText v) :
    ∀ (n : Nat) (x pre : Str), x.length ≤ n → VText x → ∃ y w, Rewrites R l r pre x y w ∧ VText y := by
  intro n
  induction n with
  | zero =>
    intro x pre hl _
    rw [List.length_eq_zero_iff.1 (Nat.le_zero.1 hl)]
    exact ⟨[], 0, .done, by intro c hc; cases hc⟩
  | succ n ih =>
    intro x pre hl hx
    by_cases h : l.left pre ∧ Fires R r x
    · obtain ⟨h1, u, v, w, t, rfl, hu, hR1, hr⟩ := h
      have hlt : t.length ≤ n := by
        have := List.length_pos_of_ne_nil hu
        rw [List.length_append] at hl; omega
      obtain ⟨y, w', h2, h3⟩ := ih t (pre ++ v) hlt fun c hc => hx c (List.mem_append_right _ hc)
      refine ⟨v ++ y, w + w', .change h1 hu hR1 hr h2, ?_⟩
      intro c hc
      rcases List.mem_append.1 hc with hc | hc
      · exact hR _ _ _ hR1 c hc
      · exact h3 c hc
    · cases x with
      | nil => exact ⟨[], 0, .done, by intro c hc; cases hc⟩
      | cons c x =>
        obtain ⟨y, w, h2, h3⟩ := ih x (pre ++ [c]) (by simpa using hl) fun d hd => hx d (by simp [hd])
        refine ⟨c :: y, w, .keep h h2, ?_⟩
        intro d hd
        rcases List.mem_cons.1 hd with rfl | hd
        · exact hx d (by simp)
        · exact h3 d hd

theorem plain_star {ks : List Tok} (hne : ks ≠ []) (h : ∀ k ∈ ks, Plain k) :
    ∃ y w, Star (verbalizerU + isp).den (writeAll ks) y w ∧ VText y := by
  have key : ∀ k sp, Plain k → (sp = [] ∨ sp = [' ']) → ∃ y, VText y ∧ (verbalizerU + isp).den (write k ++ sp) y 0 := by
    intro k sp hk hsp
    obtain ⟨y, hy, hd⟩ := hk.verb sp hsp
    refine ⟨y ++ [' '], ?_, ?_⟩
    · intro c hc
      rcases List.mem_append.1 hc with hc | hc
      · exact hy c hc
      · rw [List.mem_singleton.1 hc]; decide
    · exact den_add_insert.2 ⟨y, rfl, hd⟩
  induction ks with
  | nil => exact absurd rfl hne
  | cons k ks ih =>
    cases ks with
    | nil =>
      obtain ⟨y, hy, hd⟩ := key k [] (h k (by simp)) (.inl rfl)
      exact ⟨y, 0, by simpa [writeAll, List.intercalate] using Star.one hd, hy⟩
    | cons k' ks =>
      obtain ⟨y, w, hd, hy⟩ := ih (by simp) fun l hl => h l (by simp [hl])
      obtain ⟨y', hy', hd'⟩ := key k [' '] (h k (by simp)) (.inr rfl)
      refine ⟨y' ++ y, 0 + w, ?_, ?_⟩
      · have := Star.cons hd' hd
        simpa [writeAll, List.intercalate] using this
      · intro c hc
        rcases List.mem_append.1 hc with hc | hc
        · exact hy' c hc
        · exact hy c hc

theorem plain_verbalizer {ks : List Tok} (hne : ks ≠ []) (h : ∀ k ∈ ks, Plain k) :
    ∃ y w, (verbalizerOf verbalizerU).den (writeAll ks) y w := by
  obtain ⟨y, w, h1, hy⟩ := plain_star hne h
  obtain ⟨z, w', h2, hz⟩ := rewrites_exists DELETE_EXTRA_SPACE.den .any .any (by
    intro u v w hd
    obtain ⟨rfl, _⟩ := den_extraSpace.1 hd
    decide) y.length y [] (Nat.le_refl _) hy
  exact ⟨_, _, z, w + w', 0, ⟨y, w, w', h1, ⟨hy, h2⟩, rfl⟩, den_dropFinal.2 ⟨hz, rfl, rfl⟩, rfl⟩

theorem tagger_ok : (taggerOf classify).ok = true := by decide +kernel
theorem verbalizer_ok : (verbalizerOf verbalizerU).ok = true := by decide +kernel

/-- **C52.** Every tagging of a text is a stream of tokens, the parser reads these tokens from it, and
their values in order are the text with white space left out between them. The fields `preserve_order`,
`style` and `kind` with fixed values are not quotations. -/
theorem C52_quotes (g : G) (hg : tagger = some g) (x t : Str) (w : W) (h : g.den x t w) :
    ∃ ks toks, Verif.Token.parse t = .ok toks ∧ List.Forall₂ Verif.Token.Denotes toks ks ∧
      Quoted (fun s => ∀ c ∈ s, White c) (ks.flatMap (quotes markers)) x := by
  rw [tagger_eq] at hg
  cases hg
  obtain ⟨ks, h1, h2, h3⟩ := streams_tagger x t w h
  obtain ⟨toks, h4, h5⟩ := (Verif.Token.C03_parse_iff_grammar t ks).2 ⟨not_spaces_ne (tagger_writes h), h1, h2⟩
  refine ⟨ks, toks, h4, h5, ?_⟩
  have key : ∀ {vs : List Str} {y : Str}, Quoted (Seps isSpace) vs y → Quoted (fun s => ∀ c ∈ s, White c) vs y := by
    intro vs y hq
    induction hq with
    | done hs => exact .done fun c hc => space_iff.1 (hs c hc)
    | next hs _ ih => exact .next (fun c hc => space_iff.1 (hs c hc)) ih
  exact key h3

/-- **C71.** The texts with a tagging are the readable ones. -/
theorem C71_tagged (g : G) (hg : tagger = some g) (x : Str) : (∃ t w, g.den x t w) ↔ Readable x := by
  rw [tagger_eq] at hg
  cases hg
  constructor
  · rintro ⟨t, w, h⟩; exact tagger_reads h
  · intro h
    obtain ⟨t, w, _, h, _⟩ := plainly_tagger h
    exact ⟨t, w, h⟩

/-- **C71.** However ties between paths are broken, a text is normalized exactly if it is empty or
readable, for every valid `nbest`. -/
theorem C71_normalized (tg vg : G) (ht : tagger = some tg) (hv : verbalizer = some vg) (p : Pipeline W)
    (hr : Runs p tokenOrders tg vg) (x : Str) (n : Int) (hn : 1 ≤ n) :
    (∃ fuel out, normalize p fuel x (.int n) = some (.ok out)) ↔ x = [] ∨ Readable x := by
  rw [tagger_eq] at ht
  rw [verbalizer_eq] at hv
  cases ht; cases hv
  constructor
  · rintro ⟨fuel, out, h⟩
    by_cases hx : x = []
    · exact .inl hx
    · right
      obtain ⟨_, cs, hc, _⟩ := Verif.NBest.normalize_ok hx h
      by_contra hno
      obtain ⟨e, he⟩ := Verif.NBest.C65_no_path p fuel x n.toNat _ hc (by
        rintro y w ⟨t, c, r, d, m, h1, _⟩
        exact hno (tagger_reads ((hr.tags x t c).1 h1).1))
      cases he
  · have hempty : x = [] → ∃ fuel out, normalize p fuel x (.int n) = some (.ok out) := by
      rintro rfl
      obtain ⟨h1, h2⟩ := Verif.NBest.C29_empty p n false hn
      by_cases h : n = 1
      · exact ⟨0, _, (h1 h).2.1⟩
      · exact ⟨0, _, (h2 h).2.1⟩
    rintro (h | h)
    · exact hempty h
    · by_cases hx : x = []
      · exact hempty hx
      · obtain ⟨t, w, ks, h1, h2, h3⟩ := plainly_tagger h
        have hne : ks ≠ [] := by
          rintro rfl
          cases h2 with
          | done hs => exact tagger_writes h1 hs
        have hd : ∀ k ∈ ks, Distinct k := fun k hk => (h3 k hk).writable.2.2
        obtain ⟨toks, hp, hden⟩ := (Verif.Token.C03_parse_iff_grammar t ks).2 ⟨not_spaces_ne (tagger_writes h1), h2, hd⟩
        have hro := Verif.Token.reorder_denotes (orders := tokenOrders) hp hden
        have he : (ks.map fun k => (⟨k.name, Verif.Token.chosenFields tokenOrders k⟩ : Tok)) = ks := by
          conv_rhs => rw [← List.map_id ks]
          apply List.map_congr_left
          intro k hk
          rw [Verif.Token.chosenFields_exempt (hd k hk) (.inl (h3 k hk).noOrder)]; rfl
        rw [he] at hro
        obtain ⟨y, v, h4⟩ := plain_verbalizer hne h3
        refine normalize_succeeds hr tagger_ok verbalizer_ok hx ?_ h1 hro h4 n hn
        intro t' w' ht'
        obtain ⟨ks', g1, g2, _⟩ := streams_tagger x t' w' ht'
        obtain ⟨toks', hp', _⟩ := (Verif.Token.C03_parse_iff_grammar t' ks').2 ⟨not_spaces_ne (tagger_writes ht'), g1, g2⟩
        exact ⟨_, Verif.Token.reorder_ok hp'⟩

/-- **C71.** Other texts raise a runtime error: no path is found. -/
theorem C71_raises (tg vg : G) (ht : tagger = some tg) (hv : verbalizer = some vg) (p : Pipeline W)
    (hr : Runs p tokenOrders tg vg) (x : Str) (n : Int) (hn : 1 ≤ n) (hx : x ≠ []) (hno : ¬ Readable x) :
    ∃ fuel, normalize p fuel x (.int n) = some (.error .runtime) := by
  rw [tagger_eq] at ht
  rw [verbalizer_eq] at hv
  cases ht; cases hv
  have hnt : ∀ t c, (grammar p x).tags t ≠ some c := fun t c h1 => hno (tagger_reads ((hr.tags x t c).1 h1).1)
  obtain ⟨fuel, hf⟩ := Verif.NBest.C64_finite p x n.toNat [] (fun t c h => absurd h (hnt t c))
    (fun t r h => by cases h)
  refine ⟨fuel, ?_⟩
  cases hc : candidates p fuel x n.toNat with
  | none => exact absurd hc hf
  | some r =>
    obtain ⟨e, rfl⟩ := Verif.NBest.C65_no_path p fuel x n.toNat r hc (by
      rintro y w ⟨t, c, r, d, m, h1, _⟩
      exact hnt t c h1)
    rcases Verif.NBest.C65_errors p fuel x n.toNat (by omega) e hc with ⟨t, c, _, h1, _⟩ | ⟨rfl, _⟩
    · exact absurd h1 (hnt t c)
    · unfold normalize
      rw [Verif.NBest.validate_int, if_neg (by omega)]
      simp only [if_neg hx, hc]

/-- There are such graphs and such pipelines. -/
theorem C71_exists : ∃ tg vg p, tagger = some tg ∧ verbalizer = some vg ∧ Runs p tokenOrders tg vg :=
  ⟨_, _, _, tagger_eq, verbalizer_eq, runs_pipelineOf tagger_ok verbalizer_ok⟩

/-- **C71.** In particular every text is normalized that has no quotation mark, no backslash, no NUL and
no white space but spaces. -/
theorem C71_plain (x : Str) (hx : x ≠ [])
    (h : ∀ c ∈ x, c ≠ '"' ∧ c ≠ '\\' ∧ c ≠ '\x00' ∧ (White c → c = ' ')) : Readable x := by
  refine readable_words hx ?_
  intro c hc
  obtain ⟨h1, h2, h3, h4⟩ := h c hc
  by_cases hw : White c
  · exact .inr (h4 hw)
  · exact .inl ⟨h3, hw, h1, h2⟩

/-- A quotation mark or a backslash. -/
def Quote (c : Char) : Prop := c = '"' ∨ c = '\\'
/-- Neither white space nor punctuation. -/
def Solid (c : Char) : Prop := ¬ White c ∧ ¬ Mark c
/-- The characters may stand beside each other. -/
def Beside (c d : Char) : Prop := ¬ (Quote c ∧ Solid d) ∧ ¬ (Solid c ∧ Quote d)

theorem quote_solid {c : Char} (h : Quote c) : Solid c := by
  rcases h with rfl | rfl <;> exact ⟨by decide, by decide⟩

theorem beside_left {c d : Char} (h : ¬ Solid c) : Beside c d :=
  ⟨fun hq => h (quote_solid hq.1), fun hs => h hs.1⟩

theorem beside_right {c d : Char} (h : ¬ Solid d) : Beside c d :=
  ⟨fun hq => h hq.2, fun hs => h (quote_solid hs.2)⟩

theorem white_not_solid {c : Char} (h : White c) : ¬ Solid c := fun hs => hs.1 h
theorem mark_not_solid {c : Char} (h : Mark c) : ¬ Solid c := fun hs => hs.2 h

theorem chain_soft {s : Str} (h : ∀ c ∈ s, ¬ Solid c) : s.IsChain Beside := by
  induction s with
  | nil => exact .nil
  | cons c s ih =>
    cases s with
    | nil => exact .singleton _
    | cons d s => exact .cons_cons (beside_left (h c (by simp))) (ih fun e he => h e (by simp [he]))

theorem chain_piece {x : Str} (h : Piece x) : x.IsChain Beside := by
  cases h with
  | word hne hall =>
    clear hne
    induction x with
    | nil => exact .nil
    | cons c s ih =>
      have hq : ∀ d ∈ c :: s, ¬ Quote d := by
        rintro d hd (rfl | rfl)
        · exact (hall _ hd).2.2.1 rfl
        · exact (hall _ hd).2.2.2 rfl
      cases s with
      | nil => exact .singleton _
      | cons d s =>
        exact .cons_cons ⟨fun h => hq c (by simp) h.1, fun h => hq d (by simp) h.2⟩
          (ih fun e he => hall e (by simp [he]))
  | char ha hc hb =>
    rename_i a c b
    refine List.isChain_append.2 ⟨chain_soft fun d hd => mark_not_solid (ha d hd), ?_, ?_⟩
    · rw [← List.singleton_append]
      refine List.isChain_append.2 ⟨.singleton _, chain_soft fun d hd => mark_not_solid (hb d hd), ?_⟩
      intro d _ e he
      exact beside_right (mark_not_solid (hb e (List.mem_of_head? he)))
    · intro d hd e _
      exact beside_left (mark_not_solid (ha d (List.mem_of_getLast? hd)))

theorem chain_soft_append {x s y : Str} (hs : s ≠ []) (hw : ∀ c ∈ s, ¬ Solid c) (hx : x.IsChain Beside)
    (hy : y.IsChain Beside) : (x ++ (s ++ y)).IsChain Beside := by
  refine List.isChain_append.2 ⟨hx, List.isChain_append.2 ⟨chain_soft hw, hy, ?_⟩, ?_⟩
  · intro d hd e _
    exact beside_left (hw d (List.mem_of_getLast? hd))
  · intro d _ e he
    cases s with
    | nil => exact absurd rfl hs
    | cons c s =>
      cases he
      exact beside_right (hw e (by simp))

theorem chain_pieces {x : Str} (h : Pieces x) : x.IsChain Beside := by
  induction h with
  | one h => exact chain_piece h
  | more h hs hw _ ih => exact chain_soft_append hs (fun c hc => white_not_solid (hw c hc)) (chain_piece h) ih

theorem chain_readable {x : Str} (h : Readable x) : x.IsChain Beside := by
  obtain ⟨a, y, b, rfl, ha, hb, hy⟩ := h
  have soft : ∀ s : Str, (∀ c ∈ s, c = ' ') → ∀ c ∈ s, ¬ Solid c := by
    intro s hs c hc
    rw [hs c hc]
    exact white_not_solid white_space
  have hyb : (y ++ b).IsChain Beside := by
    by_cases hbe : b = []
    · rw [hbe, List.append_nil]; exact chain_pieces hy
    · simpa using chain_soft_append (y := []) hbe (soft b hb) (chain_pieces hy) .nil
  by_cases hae : a = []
  · rw [hae]; exact hyb
  · simpa using chain_soft_append (x := []) hae (soft a ha) .nil hyb

/-- **C71.** In particular no text is normalized that has a quotation mark or a backslash directly
before or after a character that is neither white space nor one of the punctuation marks. -/
theorem C71_quoted_word (u v : Str) (c d : Char) (h : (Quote c ∧ Solid d) ∨ (Solid c ∧ Quote d)) :
    ¬ Readable (u ++ c :: d :: v) := by
  intro hr
  have := (List.isChain_append.1 (chain_readable hr)).2.1
  rw [List.isChain_cons_cons] at this
  rcases h with h | h
  · exact this.1.1 h
  · exact this.1.2 h

example : ¬ Readable "say \"hi\" now".toList :=
  C71_quoted_word "say ".toList "i\" now".toList '"' 'h' (.inl ⟨.inl rfl, by decide, by decide⟩)

example : Readable "pay five dollars, please".toList := C71_plain _ (by decide) (by decide)

example : (tagger.map fun g => ((g.outputs t!"on a \" b").map Prod.fst).contains
    (t!"word { value: \"on\" }  word { value: \"a\" }  char { value: \"\\\"\" }  word { value: \"b\" } ")) =
    some true := by
  decide +kernel

end Verif.EnItn
