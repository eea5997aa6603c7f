import Verif.Token.Lemmas3

/-! Properties C01-C10: the tagged-token wire format of tn/token_parser.py. -/

namespace Verif.Token
open Spec (NameChar IsName Spaces Value Fields Block Stream Tok esc write writeAll Writable Distinct
  canonical Exempt)

/-- Fields used in the witnesses below. -/
def sampleToks : List Tok :=
  [⟨"date".toList, [("day".toList, "1\"\\".toList), ("extra".toList, " } ".toList),
      ("year".toList, "二零".toList)]⟩,
   ⟨"char".toList, []⟩,
   ⟨"time".toList, [("hour".toList, "".toList), ("preserve_order".toList, "true".toList),
      ("noon".toList, "x".toList)]⟩]

theorem sampleToks_writable : ∀ k ∈ sampleToks, Writable k := by decide +kernel

/-- **C01.** Writing any non-empty list of well-named tokens and parsing the text gives the same
tokens back: same types, same field order, same values. -/
theorem C01_write_parse (ks : List Tok) (hne : ks ≠ []) (hw : ∀ k ∈ ks, Writable k) :
    ∃ toks, parse (writeAll ks) = .ok toks ∧ List.Forall₂ Denotes toks ks :=
  ⟨_, parse_writeAll hne hw, located_denotes 0 ks⟩

example : ∃ toks, parse (writeAll sampleToks) = .ok toks ∧ List.Forall₂ Denotes toks sampleToks :=
  C01_write_parse _ (by decide) sampleToks_writable

/-- **C01**, for the code's own serialiser: token objects written by `Token.string` without a schema
and joined by spaces parse back to token objects with the same type, field order and members. -/
theorem C01_string_parse (toks : List Token) (hne : toks ≠ [])
    (hw : ∀ t ∈ toks, IsName t.name ∧ t.order = t.members.map Prod.fst ∧ t.order.Nodup ∧
      ∀ k ∈ t.order, IsName k) :
    ∃ toks', parse (joinSpace (toks.map fun t => t.string (fun _ => none))) = .ok toks' ∧
      List.Forall₂ (fun t t' => t'.name = t.name ∧ t'.order = t.order ∧ t'.members = t.members)
        toks toks' := by
  have hden : List.Forall₂ Denotes toks (toks.map fun t => (⟨t.name, t.members⟩ : Tok)) := by
    rw [List.forall₂_map_right_iff, List.forall₂_same]
    intro t ht
    exact ⟨rfl, (hw t ht).2.1, rfl⟩
  have hwr : ∀ k ∈ (toks.map fun t => (⟨t.name, t.members⟩ : Tok)), Writable k := by
    intro k hk
    obtain ⟨t, ht, rfl⟩ := List.mem_map.1 hk
    obtain ⟨h1, h2, h3, h4⟩ := hw t ht
    refine ⟨h1, fun f hf => h4 _ (h2 ▸ List.mem_map_of_mem (f := Prod.fst) hf), ?_⟩
    exact (h2 ▸ h3 : (t.members.map Prod.fst).Nodup)
  obtain ⟨toks', h1, h2⟩ := C01_write_parse _ (by simpa using hne) hwr
  refine ⟨toks', ?_, ?_⟩
  · rw [map_string hden, joinSpace_eq, ← h1]
    congr 2
    rw [List.map_map, List.map_map, List.map_map]
    refine List.map_congr_left fun t ht => ?_
    simp only [Function.comp]
    rw [chosenFields_exempt (hwr _ (List.mem_map_of_mem ht)).2.2 (.inl rfl)]
  · have h2 := h2.flip
    rw [List.forall₂_map_left_iff] at h2
    refine ((List.forall₂_and_left _ _).2 ⟨hw, h2⟩).imp ?_
    rintro t t' ⟨ht, hd⟩
    exact ⟨hd.1, by rw [hd.2.1, ht.2.1], hd.2.2⟩

/-- **C02.** Escaping is injective. -/
theorem C02_escape_injective : Function.Injective escapeValue := by
  intro a b h
  have h1 := value_esc a
  have h2 := value_esc b
  rw [← escapeValue_eq_esc] at h1 h2
  rw [h] at h1
  exact value_det h1 h2

/-- **C02.** The escaped text is the usual one: each quote and each backslash gets a backslash, nothing
else changes. -/
theorem C02_escape_spec (v : Str) : escapeValue v = esc v := escapeValue_eq_esc v

/-- **C02.** Whatever precedes and follows, the value reader placed on escaped text followed by a quote
returns the original value and stops at that quote. -/
theorem C02_reader_stops (pre v rest : Str) :
    parseValue { text := pre ++ escapeValue v ++ '"' :: rest, index := pre.length,
                 char := (escapeValue v ++ ['"']).head? } =
      .ok (v, { text := pre ++ escapeValue v ++ '"' :: rest,
                index := pre.length + (escapeValue v).length, char := some '"' }) := by
  have hsuf : escapeValue v ++ '"' :: rest <:+ pre ++ escapeValue v ++ '"' :: rest :=
    ⟨pre, by simp⟩
  have hv : Value (escapeValue v) v := escapeValue_eq_esc v ▸ value_esc v
  have h := (parseValue_S hsuf v _).2 ⟨escapeValue v, rest, rfl, hv, rfl⟩
  have e1 : S (pre ++ escapeValue v ++ '"' :: rest) (escapeValue v ++ '"' :: rest) =
      { text := pre ++ escapeValue v ++ '"' :: rest, index := pre.length,
        char := (escapeValue v ++ ['"']).head? } := by
    cases he : escapeValue v <;> simp [S]
  have e2 : S (pre ++ escapeValue v ++ '"' :: rest) ('"' :: rest) =
      { text := pre ++ escapeValue v ++ '"' :: rest,
        index := pre.length + (escapeValue v).length, char := some '"' } := by
    simp [S]; omega
  rw [e1, e2] at h
  exact h

/-- **C02.** No quote inside escaped text is unescaped: the text before it is never a complete
value text. -/
theorem C02_no_unescaped_quote (v a b : Str) (h : escapeValue v = a ++ '"' :: b) :
    ¬ ∃ d, Value a d := by
  rintro ⟨d, hd⟩
  have hv : Value (escapeValue v) v := escapeValue_eq_esc v ▸ value_esc v
  have := (value_prefix_unique hd hv (r1 := b ++ '"' :: []) (r2 := []) (by rw [h]; simp)).2
  simp at this

example : escapeValue "a\"\\b".toList = "a\\\"\\\\b".toList := by decide +kernel
example : escapeValue "a\"".toList = "a\\".toList ++ '"' :: [] := by decide +kernel

/-- **C03.** The parser returns tokens denoting `ks` exactly if the text is non-empty, is in the wire
grammar with reading `ks`, and no token repeats a field. -/
theorem C03_parse_iff_grammar (text : Str) (ks : List Tok) :
    (∃ toks, parse text = .ok toks ∧ List.Forall₂ Denotes toks ks) ↔
      text ≠ [] ∧ Stream text ks ∧ ∀ k ∈ ks, Distinct k := by
  constructor
  · rintro ⟨toks, h1, h2⟩
    obtain ⟨ks', h3, h4, h5⟩ := parse_denotes h1
    obtain rfl := forall₂_denotes_unique h2 h4
    exact ⟨((parse_iff_located _ _).1 h1).1, h3, fun k hk => (h5 k hk).2.2⟩
  · rintro ⟨h1, h2, h3⟩
    obtain ⟨ts, h4, h5⟩ := stream_located h2 h3 0
    exact ⟨ts, (parse_iff_located _ _).2 ⟨h1, h4⟩, h5⟩

/-- **C03.** In every other case the parser raises (it always terminates: `parse` is total). -/
theorem C03_rejects_otherwise (text : Str) :
    (∃ e, parse text = .error e) ↔
      text = [] ∨ ¬ ∃ ks, Stream text ks ∧ ∀ k ∈ ks, Distinct k := by
  constructor
  · rintro ⟨e, he⟩
    by_contra hc
    rw [not_or, not_not] at hc
    obtain ⟨h1, ks, h2, h3⟩ := hc
    obtain ⟨toks, h4, _⟩ := (C03_parse_iff_grammar text ks).2 ⟨h1, h2, h3⟩
    rw [he] at h4
    cases h4
  · intro h
    cases hp : parse text with
    | error e => exact ⟨e, rfl⟩
    | ok toks =>
      obtain ⟨ks, h3, h4, h5⟩ := parse_denotes hp
      rcases h with h | h
      · exact absurd h ((parse_iff_located _ _).1 hp).1
      · exact absurd ⟨ks, h3, fun k hk => (h5 k hk).2.2⟩ h

/-- **C03.** The grammar is unambiguous: a text has at most one reading without repeated fields. -/
theorem C03_unambiguous (text : Str) (ks ks' : List Tok) (h : Stream text ks)
    (hd : ∀ k ∈ ks, Distinct k) (h' : Stream text ks') (hd' : ∀ k ∈ ks', Distinct k) :
    ks = ks' := by
  obtain ⟨ts, h1, h2⟩ := stream_located h hd 0
  obtain ⟨ts', h1', h2'⟩ := stream_located h' hd' 0
  by_cases ht : text = []
  · subst ht
    have hnil : ∀ l, Stream [] l → l = [] := by
      intro l hl
      generalize hr : ([] : Str) = r at hl
      cases hl with
      | done _ => rfl
      | block _ hb _ =>
        have := congrArg List.length hr
        cases hb
        simp at this
    rw [hnil _ h, hnil _ h']
  · have e1 := (parse_iff_located text ts).2 ⟨ht, h1⟩
    have e2 := (parse_iff_located text ts').2 ⟨ht, h1'⟩
    rw [e1] at e2
    cases e2
    exact forall₂_denotes_unique h2 h2'

example : parse "a { b: \"c\\\"\" }x { }".toList =
    .ok [{ name := "a".toList, start := 0, stop := some 14, «order» := ["b".toList],
           members := [("b".toList, "c\"".toList)] },
         { name := "x".toList, start := 14, stop := some 19 }] := by decide +kernel
example : ∃ e, parse "a { b: \"c\\\" }".toList = .error e :=
  ⟨.unterminatedValue 12, by decide +kernel⟩

/-- **C04.** For every repeat-free schema, the reordered text of a token-bearing stream parses to the same
number of tokens with the same types, and each token has exactly the same fields and values. -/
theorem C04_reorder_keeps_fields (orders : Orders) (hr : RepeatFree orders) (text : Str)
    (toks : List Token) (hp : parse text = .ok toks) (hne : toks ≠ []) :
    ∃ out toks', reorder orders text = .ok out ∧ parse out = .ok toks' ∧
      List.Forall₂ (fun t t' => t'.name = t.name ∧ t'.members.Perm t.members ∧
        t'.order.Perm t.order ∧ t'.order.Nodup) toks toks' := by
  obtain ⟨ks, hst, hden, hwr⟩ := parse_denotes hp
  have hks : ks ≠ [] := by
    rintro rfl; cases hden; exact hne rfl
  obtain ⟨toks', h1, h2⟩ := C01_write_parse
    (ks.map fun k => (⟨k.name, chosenFields orders k⟩ : Tok)) (by simpa using hks)
    (by
      intro k hk
      obtain ⟨k0, hk0, rfl⟩ := List.mem_map.1 hk
      exact writable_chosen hr (hwr k0 hk0))
  refine ⟨_, toks', reorder_denotes hp hden, h1, ?_⟩
  rw [List.forall₂_map_right_iff] at h2
  clear h1 hp hks hne hst
  induction hden generalizing toks' with
  | nil => cases h2; exact .nil
  | @cons t k toks ks hd _ ih =>
    cases h2 with
    | @cons t' _ toks'' _ hd' hrest =>
      refine .cons ?_ (ih (fun k hk => hwr k (by simp [hk])) _ hrest)
      have hpm := chosenFields_perm hr (hwr k (by simp)).2.2
      refine ⟨by rw [hd'.1, hd.1], ?_, ?_, ?_⟩
      · rw [hd'.2.2, hd.2.2]; exact hpm
      · rw [hd'.2.1, hd.2.1]; exact hpm.map _
      · rw [hd'.2.1]; exact (hpm.map _).nodup_iff.2 (hwr k (by simp)).2.2

/-- The built-in schemas are repeat-free, so C04 and C07 apply to them. -/
theorem builtin_repeatFree (l : List (String × List String))
    (h : ∀ p ∈ l, p.2.Nodup) : RepeatFree (ordersOf l) := by
  intro n declared hd
  unfold ordersOf at hd
  rw [Option.map_eq_some_iff] at hd
  obtain ⟨p, hp, rfl⟩ := hd
  exact (h p (List.mem_of_find?_eq_some hp)).map fun a b h => String.toList_injective h

example : RepeatFree (ordersOf tnOrdersList) := builtin_repeatFree _ (by decide)
example : RepeatFree (ordersOf enTnOrdersList) := builtin_repeatFree _ (by decide)
example : RepeatFree (ordersOf itnOrdersList) := builtin_repeatFree _ (by decide)

/-- **C05 and C06.** The reordered text is the written form of the same tokens, where a token that is
exempt (no schema for its type, or `preserve_order: "true"`) keeps its fields as written, and any
other token has the declared fields in schema order followed by its other fields as written. -/
theorem C05_C06_reorder_text (orders : Orders) (text : Str) (ks : List Tok)
    (hne : text ≠ []) (hs : Stream text ks) (hd : ∀ k ∈ ks, Distinct k) :
    ∃ ks', reorder orders text = .ok (writeAll ks') ∧
      List.Forall₂ (fun k k' => k'.name = k.name ∧
        (Exempt orders k → k'.fields = k.fields) ∧
        (¬ Exempt orders k → ∃ declared, orders k.name = some declared ∧
          k'.fields = canonical declared k.fields)) ks ks' := by
  obtain ⟨toks, hp, hden⟩ := (C03_parse_iff_grammar text ks).2 ⟨hne, hs, hd⟩
  refine ⟨_, reorder_denotes hp hden, ?_⟩
  rw [List.forall₂_map_right_iff, List.forall₂_same]
  intro k hk
  refine ⟨rfl, fun he => chosenFields_exempt (hd k hk) he, fun he => ?_⟩
  unfold Exempt at he
  rw [not_or] at he
  obtain ⟨declared, hsome⟩ := Option.ne_none_iff_exists'.1 he.1
  exact ⟨declared, hsome, chosenFields_canonical (hd k hk) hsome he.2⟩

/-- **C05.** After reordering, a token with a schema and without `preserve_order: "true"` lists the
declared fields it has in the schema's order, then the others in their written order. -/
theorem C05_schema_order (orders : Orders) (hr : RepeatFree orders) (text : Str)
    (toks : List Token) (hp : parse text = .ok toks) (hne : toks ≠ []) :
    ∃ out toks', reorder orders text = .ok out ∧ parse out = .ok toks' ∧
      List.Forall₂ (fun t t' => ∀ declared, orders t.name = some declared →
        ("preserve_order".toList, "true".toList) ∉ t.members →
        t'.order = declared.filter (· ∈ t.order) ++ t.order.filter (· ∉ declared)) toks toks' := by
  obtain ⟨ks, hst, hden, hwr⟩ := parse_denotes hp
  have hks : ks ≠ [] := by
    rintro rfl; cases hden; exact hne rfl
  obtain ⟨toks', h1, h2⟩ := C01_write_parse
    (ks.map fun k => (⟨k.name, chosenFields orders k⟩ : Tok)) (by simpa using hks)
    (by
      intro k hk
      obtain ⟨k0, hk0, rfl⟩ := List.mem_map.1 hk
      exact writable_chosen hr (hwr k0 hk0))
  refine ⟨_, toks', reorder_denotes hp hden, h1, ?_⟩
  rw [List.forall₂_map_right_iff] at h2
  clear h1 hp hks hne hst
  induction hden generalizing toks' with
  | nil => cases h2; exact .nil
  | @cons t k toks ks hd _ ih =>
    cases h2 with
    | @cons t' _ toks'' _ hd' hrest =>
      refine .cons ?_ (ih (fun k hk => hwr k (by simp [hk])) _ hrest)
      intro declared hsome hpres
      have hdist := (hwr k (by simp)).2.2
      rw [hd'.2.1, hd.2.1]
      dsimp only
      rw [chosenFields_canonical hdist (hd.1 ▸ hsome) (hd.2.2 ▸ hpres)]
      unfold canonical
      rw [List.map_append]
      congr 1
      · clear hsome
        induction declared with
        | nil => rfl
        | cons d ds ihd =>
          rw [List.flatMap_cons, List.map_append, ihd, ← lookup_filter hdist, List.filter_cons]
          have hmem : d ∈ k.fields.map Prod.fst ↔ (k.fields.lookup d).isSome := by
            rw [Option.isSome_iff_exists]
            constructor
            · intro h
              obtain ⟨f, hf, rfl⟩ := List.mem_map.1 h
              exact ⟨f.2, (lookup_eq_some_iff hdist _ _).2 hf⟩
            · rintro ⟨v, hv⟩
              exact List.mem_map.2 ⟨(d, v), (lookup_eq_some_iff hdist _ _).1 hv, rfl⟩
          cases hl : k.fields.lookup d with
          | none =>
            rw [if_neg (by simp only [decide_eq_true_eq, hmem, hl]; simp)]
            simp
          | some v =>
            rw [if_pos (by simp only [decide_eq_true_eq, hmem, hl]; simp)]
            simp
      · rw [List.filter_map]
        rfl

/-- **C06.** A token whose type has no schema, or that carries `preserve_order: "true"`, keeps its
fields in their written order. -/
theorem C06_exempt_unchanged (orders : Orders) (hr : RepeatFree orders) (text : Str)
    (toks : List Token) (hp : parse text = .ok toks) (hne : toks ≠ []) :
    ∃ out toks', reorder orders text = .ok out ∧ parse out = .ok toks' ∧
      List.Forall₂ (fun t t' =>
        (orders t.name = none ∨ ("preserve_order".toList, "true".toList) ∈ t.members) →
        t'.order = t.order ∧ t'.members = t.members) toks toks' := by
  obtain ⟨ks, hst, hden, hwr⟩ := parse_denotes hp
  have hks : ks ≠ [] := by
    rintro rfl; cases hden; exact hne rfl
  obtain ⟨toks', h1, h2⟩ := C01_write_parse
    (ks.map fun k => (⟨k.name, chosenFields orders k⟩ : Tok)) (by simpa using hks)
    (by
      intro k hk
      obtain ⟨k0, hk0, rfl⟩ := List.mem_map.1 hk
      exact writable_chosen hr (hwr k0 hk0))
  refine ⟨_, toks', reorder_denotes hp hden, h1, ?_⟩
  rw [List.forall₂_map_right_iff] at h2
  clear h1 hp hks hne hst
  induction hden generalizing toks' with
  | nil => cases h2; exact .nil
  | @cons t k toks ks hd _ ih =>
    cases h2 with
    | @cons t' _ toks'' _ hd' hrest =>
      refine .cons ?_ (ih (fun k hk => hwr k (by simp [hk])) _ hrest)
      intro he
      have he' : Exempt orders k := by
        unfold Exempt; rw [hd.1, hd.2.2] at he; exact he
      have := chosenFields_exempt (hwr k (by simp)).2.2 he'
      exact ⟨by rw [hd'.2.1, hd.2.1]; dsimp only; rw [this],
        by rw [hd'.2.2, hd.2.2]; dsimp only; rw [this]⟩

/-- A schema-typed, an exempt and a `preserve_order` token. -/
example : reorder (ordersOf tnOrdersList) "date { day: \"1\" x: \"2\" year: \"3\" }  c { }".toList
    = .ok "date { year: \"3\" day: \"1\" x: \"2\" } c { }".toList := by
  decide +kernel
example : reorder (ordersOf tnOrdersList) "time { hour: \"6\" preserve_order: \"true\" }".toList
    = .ok "time { hour: \"6\" preserve_order: \"true\" }".toList := by
  decide +kernel

/-- **C07.** Reordering the output of `reorder` gives the same text again. -/
theorem C07_reorder_idempotent (orders : Orders) (hr : RepeatFree orders) (text out : Str)
    (toks : List Token) (hp : parse text = .ok toks) (hne : toks ≠ [])
    (ho : reorder orders text = .ok out) : reorder orders out = .ok out := by
  obtain ⟨ks, hst, hden, hwr⟩ := parse_denotes hp
  have hks : ks ≠ [] := by
    rintro rfl; cases hden; exact hne rfl
  rw [reorder_denotes hp hden] at ho
  cases ho
  obtain ⟨toks', h1, h2⟩ := C01_write_parse
    (ks.map fun k => (⟨k.name, chosenFields orders k⟩ : Tok)) (by simpa using hks)
    (by
      intro k hk
      obtain ⟨k0, hk0, rfl⟩ := List.mem_map.1 hk
      exact writable_chosen hr (hwr k0 hk0))
  rw [reorder_denotes h1 h2, List.map_map]
  congr 2
  refine List.map_congr_left fun k hk => ?_
  simp only [Function.comp]
  have hd := (hwr k hk).2.2
  have hpm := chosenFields_perm hr hd
  have hd2 : Distinct ⟨k.name, chosenFields orders k⟩ := (hpm.map Prod.fst).nodup_iff.2 hd
  by_cases he : Exempt orders k
  · have he2 : Exempt orders ⟨k.name, chosenFields orders k⟩ := by
      rcases he with he | he
      · exact .inl he
      · exact .inr (hpm.symm.subset he)
    rw [chosenFields_exempt hd2 he2]
  · unfold Exempt at he
    rw [not_or] at he
    obtain ⟨declared, hsome⟩ := Option.ne_none_iff_exists'.1 he.1
    have he2 : ("preserve_order".toList, "true".toList) ∉ chosenFields orders k :=
      fun h => he.2 (hpm.subset h)
    rw [chosenFields_canonical hd2 hsome he2, chosenFields_canonical hd hsome he.2]
    congr 1
    unfold canonical
    congr 1
    · refine List.flatMap_congr fun d hdm => ?_
      rw [List.filter_append]
      have h0 : (k.fields.filter (fun f => f.1 ∉ declared)).filter (fun f => f.1 = d) = [] := by
        rw [List.filter_eq_nil_iff]
        intro f hf hfd
        have h1 : f.1 = d := by simpa using hfd
        have h2 := (List.mem_filter.1 hf).2
        simp only [decide_eq_true_eq] at h2
        exact h2 (h1 ▸ hdm)
      rw [h0, List.append_nil, List.filter_flatMap]
      have hnd := hr _ _ hsome
      clear hsome he2 h0
      induction declared with
      | nil => simp at hdm
      | cons x xs ih =>
        rw [List.nodup_cons] at hnd
        rw [List.flatMap_cons]
        by_cases hx : d = x
        · subst hx
          have h3 : xs.flatMap (fun a => (k.fields.filter (fun f => f.1 = a)).filter
              (fun f => f.1 = d)) = [] := by
            rw [List.flatMap_eq_nil_iff]
            intro a ha
            rw [List.filter_eq_nil_iff]
            intro f hf hfd
            have h1 : f.1 = d := by simpa using hfd
            have h2 : f.1 = a := by simpa using (List.mem_filter.1 hf).2
            exact hnd.1 (by rw [← h1, h2]; exact ha)
          rw [h3, List.append_nil, List.filter_filter]
          simp
        · have hdm' : d ∈ xs := by
            rcases List.mem_cons.1 hdm with h | h
            · exact absurd h hx
            · exact h
          rw [ih hdm' hnd.2]
          have h3 : (k.fields.filter (fun f => f.1 = x)).filter (fun f => f.1 = d) = [] := by
            rw [List.filter_eq_nil_iff]
            intro f hf hfd
            have h1 : f.1 = d := by simpa using hfd
            have h2 : f.1 = x := by simpa using (List.mem_filter.1 hf).2
            exact hx (by rw [← h1, h2])
          rw [h3, List.nil_append]
    · rw [List.filter_append, List.filter_filter]
      have h0 : (declared.flatMap fun d => k.fields.filter (fun f => f.1 = d)).filter
          (fun f => f.1 ∉ declared) = [] := by
        rw [List.filter_eq_nil_iff]
        intro f hf hfd
        obtain ⟨d, hdm, hfm⟩ := List.mem_flatMap.1 hf
        have h1 : f.1 = d := by simpa using (List.mem_filter.1 hfm).2
        simp only [decide_eq_true_eq] at hfd
        exact hfd (h1 ▸ hdm)
      rw [h0, List.nil_append]
      simp

/-- Without any token the output is empty, and reordering it again raises: the claim of C07 needs a
token-bearing stream. -/
example : reorder (fun _ => none) "  ".toList = .ok [] ∧
    reorder (fun _ => none) [] = .error .emptyStream := by decide +kernel

/-- **C08.** `reorder_with_spans` returns the same text as `reorder` and one span per parsed token; the
slice of the text at span `i` is the serialisation of token `i`; the first span starts at 0,
neighbouring spans are one space apart, and the last ends at the end of the text. -/
theorem C08_spans_slice (orders : Orders) (text : Str) (toks : List Token)
    (hp : parse text = .ok toks) :
    ∃ out spans, reorderWithSpans orders text = .ok (out, spans) ∧
      reorder orders text = .ok out ∧
      spans.map (fun s => (out.take s.2).drop s.1) = toks.map (fun t => t.string orders) ∧
      (∀ s, spans.head? = some s → s.1 = 0) ∧
      spans.IsChain (fun a b => b.1 = a.2 + 1 ∧ out[a.2]? = some ' ') ∧
      (∀ s, spans.getLast? = some s → s.2 = out.length) := by
  refine ⟨_, _, reorderWithSpans_ok hp, reorder_ok hp, ?_, ?_, ?_, ?_⟩
  · simpa using spansFrom_slices (toks.map fun t => t.string orders) []
  · intro s hs
    cases toks with
    | nil => simp [spansFrom] at hs
    | cons t toks => simp [spansFrom] at hs; rw [← hs]
  · generalize toks.map (fun t => t.string orders) = l
    suffices h : ∀ (l : List Str) (pre : Str), (spansFrom pre.length l).IsChain
        (fun a b => b.1 = a.2 + 1 ∧ (pre ++ joinSpace l)[a.2]? = some ' ') from h l []
    intro l
    induction l with
    | nil => intro pre; exact .nil
    | cons x l ih =>
      intro pre
      cases l with
      | nil => exact .singleton _
      | cons y l =>
        refine List.isChain_cons_cons.2 ⟨⟨rfl, ?_⟩, ?_⟩
        · simp [joinSpace]
        · have := ih (pre ++ x ++ [' '])
          simp only [joinSpace] at this ⊢
          simpa [Nat.add_assoc, spansFrom] using this
  · intro s hs
    simpa using joinSpace_length_last 0 _ s hs

example : reorderWithSpans (ordersOf tnOrdersList) "a { } date { day: \"1\" year: \"2\" }".toList =
    .ok ("a { } date { year: \"2\" day: \"1\" }".toList, [(0, 5), (6, 33)]) := by decide +kernel

/-- **C09.** A stream of the grammar in which some token repeats a field name is rejected, with the
duplicate-field error naming a field and the token it occurs in. -/
theorem C09_duplicates_rejected (text : Str) (ks : List Tok) (hs : Stream text ks)
    (hdup : ∃ k ∈ ks, ¬ Distinct k) :
    ∃ k ∈ ks, ∃ f ∈ k.fields, parse text = .error (.duplicateField f.1 k.name) :=
  parse_dup hs hdup

/-- **C09**, converse: without a repeated field name no token of the grammar is rejected. -/
theorem C09_distinct_accepted (text : Str) (ks : List Tok) (hne : text ≠ []) (hs : Stream text ks)
    (hd : ∀ k ∈ ks, Distinct k) : ∃ toks, parse text = .ok toks := by
  obtain ⟨toks, h, _⟩ := (C03_parse_iff_grammar text ks).2 ⟨hne, hs, hd⟩
  exact ⟨toks, h⟩

example : parse "a { } b { x: \"1\" y: \"2\" x: \"1\" } c { }".toList =
    .error (.duplicateField "x".toList "b".toList) := by decide +kernel

/-- **C10.** After parsing, each token's `start`/`end` slice of the text is its written block, the
slices are in order and do not overlap, and every character outside them is a space. -/
theorem C10_token_positions (text : Str) (toks : List Token) (hp : parse text = .ok toks) :
    (∀ t ∈ toks, ∃ stop k, t.stop = some stop ∧ t.start < stop ∧ stop ≤ text.length ∧
      Denotes t k ∧ Block ((text.take stop).drop t.start) k) ∧
    toks.Pairwise (fun a b => ∀ e, a.stop = some e → e ≤ b.start) ∧
    (∀ i c, text[i]? = some c →
      (∀ t ∈ toks, ∀ e, t.stop = some e → ¬ (t.start ≤ i ∧ i < e)) → c = ' ') := by
  obtain ⟨_, hl⟩ := (parse_iff_located _ _).1 hp
  obtain ⟨h1, h2, h3⟩ := located_layout (text := text) hl (by simp) (by omega)
  refine ⟨?_, h2, fun i c hc ho => h3 i c (by omega) hc ho⟩
  intro t ht
  obtain ⟨stop, k, ha, _, hb, hc, hd, he⟩ := h1 t ht
  exact ⟨stop, k, ha, hb, hc, hd, he⟩

example : (parse "  a { } b { x: \"}\" } ".toList).toOption.map
    (fun ts => ts.map fun t => (t.start, t.stop)) = some [(2, some 7), (8, some 20)] := by
  decide +kernel

end Verif.Token
