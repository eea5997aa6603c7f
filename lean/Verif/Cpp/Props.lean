import Verif.Cpp.Reorder
import Verif.Token.Props

/-! Properties C11-C17: the C++ runtime. -/

namespace Verif.Cpp
open Verif.Token.Spec (NameChar IsName Spaces Value Fields Block Stream Tok esc write writeAll
  Distinct Exempt canonical Writable)
open Verif.Token (Str RepeatFree Denotes)

/-! ### C11 -/

/-- **C11.** Whenever the splitter returns, the pieces concatenate to the input, and each piece has
one to four bytes. -/
theorem C11_lossless (s : Bytes) (ps : List Bytes) (h : splitUTF8 s = some ps) :
    ps.flatten = s ∧ ∀ p ∈ ps, p ≠ [] ∧ p.length ≤ 4 :=
  splitUTF8_flatten _ s ps (Nat.le_refl _) h

example : splitUTF8 [0xE4, 0xBA, 0x61] = some [[0xE4, 0xBA, 0x61]] := by decide +kernel

/-- **C11.** It returns for every byte string without a byte above 0xF7, well-formed or not. -/
theorem C11_total (s : Bytes) (h : ∀ b ∈ s, b ≤ 0xF7) :
    ∃ ps, splitUTF8 s = some ps ∧ ps.flatten = s := by
  obtain ⟨ps, hp⟩ := splitUTF8_isSome _ s (Nat.le_refl _) h
  exact ⟨ps, hp, (C11_lossless s ps hp).1⟩

example : ∃ ps, splitUTF8 [0x80, 0xF0, 0x41] = some ps ∧ ps.flatten = [0x80, 0xF0, 0x41] :=
  C11_total _ (by decide)

/-- **C11.** For every sequence of Unicode scalar values, the pieces of its UTF-8 encoding are the
encodings of its code points. `String.utf8EncodeChar` is Lean's own encoder. -/
theorem C11_code_points (cs : List Char) :
    splitUTF8 (cs.flatMap String.utf8EncodeChar) = some (cs.map String.utf8EncodeChar) :=
  splitUTF8_encAll cs

example : splitUTF8 ([0x61, 0xE4, 0xBA, 0x8C, 0xF0, 0x9F, 0x98, 0x80]) =
    some (['a', '二', '😀'].map String.utf8EncodeChar) := by decide +kernel

/-- **C11.** A byte above 0xF7 where a character should begin aborts the process. -/
theorem C11_abort (cs : List Char) (b : UInt8) (rest : Bytes) (h : 0xF7 < b) :
    splitUTF8 (cs.flatMap String.utf8EncodeChar ++ b :: rest) = none := by
  induction cs with
  | nil => exact splitUTF8_none ((utf8CharLength_none_iff b).2 h)
  | cons c cs ih =>
    rw [List.flatMap_cons, List.append_assoc]
    exact (splitUTF8_enc c _).trans (by rw [ih]; rfl)

example : splitUTF8 (['a'].flatMap String.utf8EncodeChar ++ 0xFF :: [0x61]) = none :=
  C11_abort _ _ _ (by decide)

/-- **C11.** The length function counts the pieces; on UTF-8 text it counts the code points. -/
theorem C11_length (s : Bytes) : utf8StringLength s = (splitUTF8 s).map List.length :=
  utf8StringLength_eq _ s (Nat.le_refl _)

theorem C11_length_code_points (cs : List Char) :
    utf8StringLength (cs.flatMap String.utf8EncodeChar) = some cs.length := by
  rw [C11_length, C11_code_points]; simp

/-! ### C16 -/

/-- The bytes that the C++ helpers treat as white space. -/
def IsSpaceByte (b : UInt8) : Prop :=
  b = 0x20 ∨ b = 0x09 ∨ b = 0x0A ∨ b = 0x0B ∨ b = 0x0C ∨ b = 0x0D

theorem isWs_iff (b : UInt8) : isWs b = true ↔ IsSpaceByte b := by
  unfold isWs whitespace IsSpaceByte
  simp only [List.contains_cons, List.contains_nil, Bool.or_false, Bool.or_eq_true, beq_iff_eq]
  tauto

/-- **C16.** `Trim` returns the unique text that is left when the leading and trailing ASCII white
space is cut off: the input is white space, the result, white space, and the result neither begins
nor ends with white space. -/
theorem C16_trim (s t : Bytes) :
    trim s = t ↔ ∃ a b, s = a ++ t ++ b ∧ (∀ x ∈ a, IsSpaceByte x) ∧ (∀ x ∈ b, IsSpaceByte x) ∧
      (∀ x, t.head? = some x → ¬ IsSpaceByte x) ∧ (∀ x, t.getLast? = some x → ¬ IsSpaceByte x) ∧
      (t = [] → b = []) := by
  constructor
  · rintro rfl
    obtain ⟨a, b, h1, h2, h3, h4, h5⟩ := trim_spec s
    by_cases ht : trim s = []
    · refine ⟨s, [], by simp [ht], ?_, by simp, by simp [ht], by simp [ht], by simp⟩
      intro x hx
      rw [h1, ht] at hx
      rw [← isWs_iff]
      rcases List.mem_append.1 hx with hx | hx
      · exact h2 x (by simpa using hx)
      · exact h3 x hx
    · refine ⟨a, b, h1, fun x hx => (isWs_iff x).1 (h2 x hx), fun x hx => (isWs_iff x).1 (h3 x hx),
        fun x hx => ?_, fun x hx => ?_, fun h => absurd h ht⟩
      · rw [← isWs_iff, h4 x hx]; simp
      · rw [← isWs_iff, h5 x hx]; simp
  · rintro ⟨a, b, h1, h2, h3, h4, h5, _⟩
    refine trim_unique h1 (fun x hx => (isWs_iff x).2 (h2 x hx)) (fun x hx => (isWs_iff x).2 (h3 x hx))
      (fun x hx => ?_) (fun x hx => ?_)
    · have := h4 x hx; rw [← isWs_iff] at this; simpa using this
    · have := h5 x hx; rw [← isWs_iff] at this; simpa using this

example : trim (lit " \t a b\n") = lit "a b" := by decide +kernel

/-- **C16.** Trimming twice is trimming once. -/
theorem C16_trim_idempotent (s : Bytes) : trim (trim s) = trim s := by
  obtain ⟨a, b, _, _, _, h4, h5⟩ := trim_spec s
  exact trim_unique (a := []) (b := []) (by simp) (by simp) (by simp) h4 h5

/-- **C16.** For every non-empty delimiter, the pieces of `Split` joined by the delimiter are the input, no piece
contains the delimiter, and there is at least one piece. -/
theorem C16_split (delim : Bytes) (hd : delim ≠ []) (s : Bytes) :
    delim.intercalate (split delim hd s) = s ∧ (∀ p ∈ split delim hd s, ¬ delim <:+: p) ∧
      split delim hd s ≠ [] :=
  ⟨(split_spec delim hd _ s (Nat.le_refl _)).1, (split_spec delim hd _ s (Nat.le_refl _)).2,
    split_ne_nil delim hd s⟩

example : split (lit "ab") (by decide) (lit "xababy") = [lit "x", [], lit "y"] := by
  decide +kernel

/-! ### C12 -/

theorem rawField_esc (f : Str × Str) (w : Str) (h : w = esc f.2) :
    rawField (f.1, w) = " ".toList ++ f.1 ++ ": \"".toList ++ esc f.2 ++ "\"".toList := by
  rw [h]; rfl

theorem cppRaw_esc {schema : Str → Option (List Str)} {n : Str} {fs : List (Str × Str)}
    (hd : (fs.map Prod.fst).Nodup) :
    cppRaw schema n (fs.map fun f => (f.1, esc f.2)) =
      (keptFields schema ⟨n, fs⟩).map fun f => (f.1, esc f.2) := by
  have hl : ∀ key, (fs.map fun f => (f.1, esc f.2)).lookup key = (fs.lookup key).map esc := by
    intro key
    exact lookup_map_inj (f := id) (fun _ _ h => h) esc fs key
  unfold cppRaw keptFields
  cases schema n with
  | none => rfl
  | some declared =>
    dsimp only
    have hp : (fs.map fun f => (f.1, esc f.2)).lookup "preserve_order".toList = some "true".toList ↔
        ("preserve_order".toList, "true".toList) ∈ fs := by
      rw [← Verif.Token.lookup_eq_some_iff hd, hl]
      cases fs.lookup "preserve_order".toList with
      | none => simp
      | some v =>
        simp only [Option.map_some, Option.some.injEq]
        constructor
        · intro h
          have h1 := Verif.Token.value_esc v
          rw [h] at h1
          exact Verif.Token.value_det h1 (Verif.Token.value_esc "true".toList)
        · rintro rfl; rfl
    by_cases hc : ("preserve_order".toList, "true".toList) ∈ fs
    · rw [if_pos hc, if_pos (hp.2 hc)]
    · rw [if_neg hc, if_neg (fun h' => hc (hp.1 h'))]
      simp only [← Verif.Token.lookup_filter hd, hl]
      induction declared with
      | nil => rfl
      | cons key declared ih =>
        simp only [List.flatMap_cons, List.map_append]
        rw [ih]
        cases fs.lookup key <;> rfl

theorem rawWrite_esc (n : Str) (fs : List (Str × Str)) :
    rawWrite n (fs.map fun f => (f.1, esc f.2)) = write ⟨n, fs⟩ := by
  unfold rawWrite write
  rw [List.flatMap_map]
  rfl

theorem raws_clean {ks : List Tok} {raws : List (List (Str × Str))}
    (h1 : List.Forall₂ (fun k raw => RawOf k.fields raw) ks raws)
    (h2 : ∀ kr ∈ ks.zip raws, ∀ fr ∈ kr.1.fields.zip kr.2, fr.2.2 = esc fr.1.2) :
    raws = ks.map fun k => k.fields.map fun f => (f.1, esc f.2) := by
  have inner : ∀ {fs raw : List (Str × Str)}, RawOf fs raw →
      (∀ fr ∈ fs.zip raw, fr.2.2 = esc fr.1.2) → raw = fs.map fun f => (f.1, esc f.2) := by
    intro fs raw h
    unfold RawOf at h
    induction h with
    | nil => intro _; rfl
    | @cons f r fs raw h _ ih =>
      intro hc
      rw [List.zip_cons_cons] at hc
      rw [List.map_cons, ← ih fun fr hfr => hc fr (by simp [hfr])]
      have := hc (f, r) (by simp)
      dsimp only at this
      rw [← this, ← h.1]
  induction h1 with
  | nil => rfl
  | @cons k raw ks raws h _ ih =>
    rw [List.zip_cons_cons] at h2
    rw [List.map_cons, ← ih fun kr hkr => h2 kr (by simp [hkr]),
      ← inner h (h2 (k, raw) (by simp))]

/-- The text the C++ runtime produces from a stream with clean escapes. -/
theorem reorder_clean {schema : Str → Option (List Str)} {orders : Orders}
    (hs : SameSchema schema orders) {text : Str} (hne : text ≠ []) {ks : List Tok}
    (hst : Stream text ks) (hd : ∀ k ∈ ks, Distinct k) (hc : CleanEscapes text) :
    reorder orders (encAll text) =
      .ok (encAll (writeAll (ks.map fun k => ⟨k.name, keptFields schema k⟩))) := by
  obtain ⟨raws, h1, h2, h3⟩ := reorder_raw hs hne hst hd
  rw [h3]
  have := raws_clean h1 (h2 hc)
  subst this
  unfold writeAll
  rw [List.map_map]
  congr 3
  have : ks.zip (ks.map fun k => k.fields.map fun f => (f.1, esc f.2)) =
      ks.map fun k => (k, k.fields.map fun f => (f.1, esc f.2)) := by
    clear h1 h2 h3 hd hst
    induction ks with
    | nil => rfl
    | cons k ks ih => simp [ih]
  rw [this, List.map_map]
  apply List.map_congr_left
  intro k hk
  simp only [Function.comp_apply]
  rw [cppRaw_esc (hd k hk), rawWrite_esc]

/-- **C12.** For every stream that the Python parser accepts, whose backslashes only escape quotes
and backslashes, and whose tokens with a schema carry declared fields only (unless they carry
`preserve_order: "true"`), the C++ runtime with the same schema produces the same reordered text. -/
theorem C12_reorder_agrees (schema : Str → Option (List Str)) (orders : Orders)
    (hs : ∀ n, orders (encAll n) = (schema n).map (List.map encAll)) (text : Str)
    (toks : List Verif.Token.Token) (hp : Verif.Token.parse text = .ok toks)
    (hc : CleanEscapes text)
    (hdecl : ∀ t ∈ toks, ∀ declared, schema t.name = some declared →
      ("preserve_order".toList, "true".toList) ∈ t.members ∨ ∀ key ∈ t.order, key ∈ declared) :
    ∃ out, Verif.Token.reorder schema text = .ok out ∧
      reorder orders (encAll text) = .ok (encAll out) := by
  obtain ⟨ks, hst, hden, hwr⟩ := Verif.Token.parse_denotes hp
  have hne : text ≠ [] := ((Verif.Token.parse_iff_located _ _).1 hp).1
  refine ⟨_, Verif.Token.reorder_denotes hp hden, ?_⟩
  rw [reorder_clean hs hne hst (fun k hk => (hwr k hk).2.2) hc]
  congr 3
  clear hp hst
  induction hden with
  | nil => rfl
  | @cons t k toks ks hd _ ih =>
    rw [List.map_cons, List.map_cons]
    have hdist := (hwr k (by simp)).2.2
    rw [ih (fun t ht => hdecl t (by simp [ht])) (fun k hk => hwr k (by simp [hk]))]
    congr 2
    unfold keptFields
    cases hsc : schema k.name with
    | none => exact (Verif.Token.chosenFields_exempt hdist (.inl hsc)).symm
    | some declared =>
      dsimp only
      by_cases hpres : ("preserve_order".toList, "true".toList) ∈ k.fields
      · rw [if_pos hpres]
        exact (Verif.Token.chosenFields_exempt hdist (.inr hpres)).symm
      · rw [if_neg hpres, Verif.Token.chosenFields_canonical hdist hsc hpres]
        unfold canonical
        have hall : ∀ key ∈ t.order, key ∈ declared := by
          rcases hdecl t (by simp) declared (hd.1 ▸ hsc) with h | h
          · rw [hd.2.2] at h; exact absurd h hpres
          · exact h
        rw [hd.2.1] at hall
        have : k.fields.filter (fun f => decide (f.1 ∉ declared)) = [] := by
          rw [List.filter_eq_nil_iff]
          intro f hf
          simpa using hall f.1 (List.mem_map_of_mem hf)
        rw [this, List.append_nil]

/-! ### C14 -/

theorem ordersOf_enc (l : List (String × List String))
    (h : ∀ p ∈ l, (∀ c ∈ p.1.toList, c.toNat ≤ 0x7f) ∧ ∀ s ∈ p.2, ∀ c ∈ s.toList, c.toNat ≤ 0x7f) :
    SameSchema (Verif.Token.ordersOf l) (ordersOf l) := by
  intro n
  unfold ordersOf Verif.Token.ordersOf
  have hf : l.find? (fun p => decide (lit p.1 = encAll n)) =
      l.find? (fun p => decide (p.1.toList = n)) := by
    induction l with
    | nil => rfl
    | cons p l ih =>
      have e : (lit p.1 = encAll n) ↔ (p.1.toList = n) := by
        rw [lit_eq_encAll _ (h p (by simp)).1]
        exact ⟨fun h => encAll_injective h, fun h => by rw [h]⟩
      rw [List.find?_cons, List.find?_cons, ih fun q hq => h q (by simp [hq])]
      simp only [e]
  rw [hf]
  cases hq : l.find? (fun p => decide (p.1.toList = n)) with
  | none => rfl
  | some p =>
    simp only [Option.map_some, List.map_map, Option.some.injEq]
    apply List.map_congr_left
    intro s hs
    exact lit_eq_encAll s ((h p (List.mem_of_find?_eq_some hq)).2 s hs)

theorem ascii_lists (t : ParseType) : ∀ p ∈ pySchemaOf t,
    (∀ c ∈ p.1.toList, c.toNat ≤ 0x7f) ∧ ∀ s ∈ p.2, ∀ c ∈ s.toList, c.toNat ≤ 0x7f := by
  cases t <;> decide +kernel

/-- **C14, the part that holds.** Missing: Japanese normalization. For the five other pipelines, the schema of the C++ runtime is
the Python pipeline's, as a function of the token type. -/
theorem C14_same_schema_partial (t : ParseType) (ht : t ≠ .jaTn) (n : Str) :
    ordersOf (schemaOf t) (encAll n) =
      (Verif.Token.ordersOf (pySchemaOf t) n).map (List.map encAll) := by
  have e : schemaOf t = pySchemaOf t := by
    cases t <;> first | rfl | exact absurd rfl ht
  rw [e]
  exact ordersOf_enc _ (ascii_lists t) n

example : ordersOf (schemaOf .enItn) (encAll "electronic".toList) =
    some [lit "username", lit "domain", lit "protocol"] := by decide +kernel

/-- **C14, Japanese.** The schemas agree on every token type except `fraction`, `measure`, `time`. -/
theorem C14_japanese_partial (n : Str) (h1 : n ≠ "fraction".toList) (h2 : n ≠ "measure".toList)
    (h3 : n ≠ "time".toList) :
    ordersOf (schemaOf .jaTn) (encAll n) =
      (Verif.Token.ordersOf (pySchemaOf .jaTn) n).map (List.map encAll) := by
  have e := ordersOf_enc jaTnOrdersList (by decide +kernel) n
  have e2 : schemaOf .jaTn = jaTnOrdersList := rfl
  rw [e2, e]
  congr 1
  unfold Verif.Token.ordersOf pySchemaOf pyTnOrders jaTnOrdersList
  have g1 : ("fraction".toList = n) = False := by simpa using fun h => h1 h.symm
  have g2 : ("measure".toList = n) = False := by simpa using fun h => h2 h.symm
  have g3 : ("time".toList = n) = False := by simpa using fun h => h3 h.symm
  simp only [List.find?_cons, List.find?_nil, g1, g2, g3, decide_false]

example : ("date".toList : Str) ≠ "fraction".toList ∧ ("date".toList : Str) ≠ "measure".toList ∧
    ("date".toList : Str) ≠ "time".toList := by decide

/-- **C14 is false of the code.** There is a stream for which the Japanese normalization pipelines
of the two runtimes give their verbalizers different texts. -/
theorem C14_false : ∃ text out out', 
    Verif.Token.reorder (Verif.Token.ordersOf (pySchemaOf .jaTn)) text = .ok out ∧
    reorder (ordersOf (schemaOf .jaTn)) (encAll text) = .ok (encAll out') ∧ out ≠ out' :=
  ⟨"time { hour: \"1\" noon: \"p\" }".toList, "time { noon: \"p\" hour: \"1\" }".toList,
    "time { hour: \"1\" noon: \"p\" }".toList, by decide +kernel, by decide +kernel, by decide⟩

/-- **C12 and C14 together.** For the five pipelines other than Japanese normalization, the two
runtimes present the same text to the verbalizer. -/
theorem C12_pipelines_agree (t : ParseType) (ht : t ≠ .jaTn) (text : Str)
    (toks : List Verif.Token.Token) (hp : Verif.Token.parse text = .ok toks)
    (hc : CleanEscapes text)
    (hdecl : ∀ k ∈ toks, ∀ declared, Verif.Token.ordersOf (pySchemaOf t) k.name = some declared →
      ("preserve_order".toList, "true".toList) ∈ k.members ∨ ∀ key ∈ k.order, key ∈ declared) :
    ∃ out, Verif.Token.reorder (Verif.Token.ordersOf (pySchemaOf t)) text = .ok out ∧
      reorder (ordersOf (schemaOf t)) (encAll text) = .ok (encAll out) :=
  C12_reorder_agrees _ _ (C14_same_schema_partial t ht) text toks hp hc hdecl

/-- A witness for C12: an escaped value, a token without a schema and one to be reordered. -/
def sampleText : Str := "char { value: \"\\\\\" } money { currency: \"元\" value: \"1\" }".toList

theorem sampleText_clean : CleanEscapes sampleText := by
  unfold CleanEscapes
  decide +kernel

/-- The hypotheses of C12 hold of the sample, and both runtimes move `value` before `currency`. -/
example : CleanEscapes sampleText ∧
    (match Verif.Token.parse sampleText with
     | .error _ => false
     | .ok toks => toks.all fun t =>
        match Verif.Token.ordersOf (pySchemaOf .zhTn) t.name with
        | none => true
        | some declared => t.order.all fun key => declared.contains key) = true :=
  ⟨sampleText_clean, by decide +kernel⟩

example : reorder (ordersOf (schemaOf .zhTn)) (encAll sampleText) =
    .ok (encAll "char { value: \"\\\\\" } money { value: \"1\" currency: \"元\" }".toList) := by
  decide +kernel

/-! ### C13 -/

theorem map_fst_zip {α β γ : Type*} (l : List α) (l' : List β) (h : l.length = l'.length) (f : α → γ) :
    (l.zip l').map (fun p => f p.1) = l.map f := by
  induction l generalizing l' with
  | nil => rfl
  | cons a l ih =>
    cases l' with
    | nil => simp at h
    | cons b l' => simp [ih l' (by simpa using h)]

/-- **C13, the part that holds.** Missing: fields that the schema of a token's type does not declare
are lost. For every stream that Python accepts (any escapes) and every repeat-free schema, the C++
text parses to tokens of the same types in the same order, and the fields of each token are
exactly the original fields and values that the schema declares, or all of them if the token is
exempt. -/
theorem C13_kept_fields_partial (schema : Str → Option (List Str)) (orders : Orders)
    (hs : ∀ n, orders (encAll n) = (schema n).map (List.map encAll)) (hr : RepeatFree schema)
    (text : Str) (toks : List Verif.Token.Token) (hp : Verif.Token.parse text = .ok toks)
    (hne : toks ≠ []) :
    ∃ out toks', reorder orders (encAll text) = .ok (encAll out) ∧
      Verif.Token.parse out = .ok toks' ∧
      List.Forall₂ (fun t t' => t'.name = t.name ∧ ∀ f, f ∈ t'.members ↔ f ∈ t.members ∧
        (schema t.name = none ∨ ("preserve_order".toList, "true".toList) ∈ t.members ∨
          ∃ declared, schema t.name = some declared ∧ f.1 ∈ declared)) toks toks' := by
  obtain ⟨ks, hst, hden, hwr⟩ := Verif.Token.parse_denotes hp
  have htx : text ≠ [] := ((Verif.Token.parse_iff_located _ _).1 hp).1
  have hks : ks ≠ [] := by rintro rfl; cases hden; exact hne rfl
  obtain ⟨raws, h1, h2, h3⟩ := reorder_raw hs htx hst fun k hk => (hwr k hk).2.2
  have hlen := h1.length_eq
  set l : List (Str × Tok) := (ks.zip raws).map fun kr =>
    (rawWrite kr.1.name (cppRaw schema kr.1.name kr.2), ⟨kr.1.name, keptFields schema kr.1⟩) with hl
  have hb : ∀ p ∈ l, Block p.1 p.2 := by
    intro p hpl
    obtain ⟨kr, hkr, rfl⟩ := List.mem_map.1 hpl
    have hk := hwr kr.1 (List.of_mem_zip hkr).1
    refine block_raw hk.1 (rawOf_kept ((List.forall₂_iff_zip.1 h1).2 hkr) hk.2.2) ?_
    intro f hf
    exact hk.2.1 f (kept_subset.1 hf).1
  have hstream := stream_join l hb
  have e1 : l.map Prod.fst = (ks.zip raws).map fun kr =>
      rawWrite kr.1.name (cppRaw schema kr.1.name kr.2) := by rw [hl, List.map_map]; rfl
  have e2 : l.map Prod.snd = ks.map fun k => (⟨k.name, keptFields schema k⟩ : Tok) := by
    rw [hl, List.map_map]
    exact map_fst_zip ks raws hlen fun k => (⟨k.name, keptFields schema k⟩ : Tok)
  rw [e1, e2] at hstream
  have hout : (" ".toList).intercalate ((ks.zip raws).map fun kr =>
      rawWrite kr.1.name (cppRaw schema kr.1.name kr.2)) ≠ [] := by
    rw [← e1]
    have hlne : l.map Prod.fst ≠ [] := by
      rw [e1]
      cases hz : ks with
      | nil => exact absurd hz hks
      | cons k ks' =>
        cases hz' : raws with
        | nil => rw [hz, hz'] at hlen; simp at hlen
        | cons r rs => simp
    obtain ⟨c, m, _, he⟩ := join_shape hlne (by
      intro x hx
      rw [e1] at hx
      obtain ⟨kr, hkr, rfl⟩ := List.mem_map.1 hx
      exact rawWrite_shape (hwr kr.1 (List.of_mem_zip hkr).1).1 _)
    rw [he]; simp
  obtain ⟨toks', hp', hden'⟩ := (Verif.Token.C03_parse_iff_grammar _ _).2 ⟨hout, hstream, by
    intro k hk
    obtain ⟨k0, hk0, rfl⟩ := List.mem_map.1 hk
    exact kept_distinct hr (hwr k0 hk0).2.2⟩
  refine ⟨_, toks', h3, hp', ?_⟩
  rw [List.forall₂_map_right_iff] at hden'
  clear hp' hp hst hstream hout e1 e2 hb hl l h1 h2 h3 hlen raws hne hks
  induction hden generalizing toks' with
  | nil => cases hden'; exact .nil
  | @cons t k toks ks hd _ ih =>
    cases hden' with
    | @cons t' _ toks'' _ hd' hrest =>
      refine .cons ⟨by rw [hd'.1, hd.1], fun f => ?_⟩ (ih (fun k hk => hwr k (by simp [hk])) _ hrest)
      rw [hd'.2.2, hd.2.2, hd.1]
      dsimp only
      rw [kept_subset]
      unfold Exempt
      tauto

example : RepeatFree (Verif.Token.ordersOf (pySchemaOf .enTn)) ∧
    (∀ n, ordersOf (schemaOf .enTn) (encAll n) =
      (Verif.Token.ordersOf (pySchemaOf .enTn) n).map (List.map encAll)) ∧
    (Verif.Token.parse "a { b: \"\\n\" }".toList).toOption.map List.length = some 1 :=
  ⟨Verif.Token.builtin_repeatFree _ (by decide), C14_same_schema_partial .enTn (by decide), by decide +kernel⟩

/-- **C13 is false of the code.** A field that the schema does not declare is lost by the C++
runtime and kept by Python. -/
theorem C13_false : ∃ text out out',
    Verif.Token.reorder (Verif.Token.ordersOf (pySchemaOf .zhTn)) text = .ok out ∧
    reorder (ordersOf (schemaOf .zhTn)) (encAll text) = .ok (encAll out') ∧
    (Verif.Token.parse out).toOption.map (List.map (·.members)) =
      some [[("value".toList, "1".toList), ("sign".toList, "-".toList)]] ∧
    (Verif.Token.parse out').toOption.map (List.map (·.members)) =
      some [[("value".toList, "1".toList)]] :=
  ⟨"money { sign: \"-\" value: \"1\" }".toList, "money { value: \"1\" sign: \"-\" }".toList,
    "money { value: \"1\" }".toList, by decide +kernel, by decide +kernel, by decide +kernel,
    by decide +kernel⟩

/-! ### C15 -/

/-- The C++ parser accepts the UTF-8 form of a text exactly if the text is in the wire grammar, with
or without repeated fields. -/
theorem C15_accepts_iff (text : Str) :
    (∃ toks, parse (encAll text) = .ok toks) ↔ text ≠ [] ∧ ∃ ks, Stream text ks := by
  constructor
  · rintro ⟨toks, h⟩
    unfold parse at h
    by_cases hne : text = []
    · subst hne
      rw [encAll_nil, load, splitUTF8] at h
      cases h
    · refine ⟨hne, ?_⟩
      rw [load_C hne] at h
      exact parseLoop_sound _ text [] toks (Nat.le_refl _) List.suffix_rfl h
  · rintro ⟨hne, ks, hst⟩
    obtain ⟨raws, _, _, h3⟩ := parseLoop_complete hst List.suffix_rfl
    exact ⟨_, by unfold parse; rw [load_C hne]; exact h3 []⟩

/-- **C15, the part that holds.** Missing: rejection of repeated fields. Whatever Python accepts, C++
accepts; whatever C++ accepts, Python accepts or rejects only because of a repeated field. -/
theorem C15_acceptance_partial (text : Str) :
    ((∃ toks, Verif.Token.parse text = .ok toks) → ∃ toks, parse (encAll text) = .ok toks) ∧
    ((∃ toks, parse (encAll text) = .ok toks) →
      (∃ toks, Verif.Token.parse text = .ok toks) ∨
      ∃ key name, Verif.Token.parse text = .error (.duplicateField key name)) := by
  constructor
  · rintro ⟨toks, h⟩
    obtain ⟨ks, hst, _, _⟩ := Verif.Token.parse_denotes h
    exact (C15_accepts_iff text).2 ⟨((Verif.Token.parse_iff_located _ _).1 h).1, ks, hst⟩
  · intro h
    obtain ⟨hne, ks, hst⟩ := (C15_accepts_iff text).1 h
    by_cases hd : ∀ k ∈ ks, Distinct k
    · obtain ⟨toks, h1, _⟩ := (Verif.Token.C03_parse_iff_grammar text ks).2 ⟨hne, hst, hd⟩
      exact .inl ⟨toks, h1⟩
    · push Not at hd
      obtain ⟨k, _, f, _, h1⟩ := Verif.Token.parse_dup hst hd
      exact .inr ⟨_, _, h1⟩

/-- **C15 is false of the code.** Every token whose fields are repeated is accepted by C++ and
rejected by Python. -/
theorem C15_false (k : Tok) (hn : IsName k.name) (hf : ∀ f ∈ k.fields, IsName f.1)
    (hd : ¬ Distinct k) :
    (∃ toks, parse (encAll (write k)) = .ok toks) ∧ ∃ e, Verif.Token.parse (write k) = .error e := by
  have hst : Stream (write k) [k] := by
    have := Stream.block (sp := []) (by simp [Spaces]) (Verif.Token.block_write hn hf)
      (.done (sp := []) (by simp [Spaces]))
    simpa using this
  refine ⟨(C15_accepts_iff _).2 ⟨Verif.Token.write_ne_nil k, _, hst⟩, ?_⟩
  obtain ⟨_, _, _, _, h⟩ := Verif.Token.parse_dup hst ⟨k, by simp, hd⟩
  exact ⟨_, h⟩

/-- The last of two values wins and is written twice. -/
example : reorder (ordersOf []) (encAll "a { b: \"1\" b: \"2\" }".toList) =
    .ok (encAll "a { b: \"2\" b: \"2\" }".toList) := by decide +kernel

/-! ### C17 -/

/-- The six markers looked for in the path. -/
def marker : ParseType → Bytes
  | .zhTn => lit "zh_tn_"
  | .zhItn => lit "zh_itn_"
  | .enTn => lit "en_tn_"
  | .enItn => lit "en_itn_"
  | .jaTn => lit "ja_tn_"
  | .jaItn => lit "ja_itn_"

/-- **C17, the part that holds.** Missing: directories whose name contains a marker. If no marker
occurs in the directory part, the type is decided by the file name alone. -/
theorem C17_file_name_partial (dir base : Bytes) (hdir : ∀ t, ¬ marker t <:+: dir) :
    parseTypeOf (dir ++ lit "/" ++ base) = parseTypeOf base := by
  have key : ∀ t, (find (marker t) (dir ++ lit "/" ++ base)).isSome =
      (find (marker t) base).isSome := by
    intro t
    have hm : (0x2F : UInt8) ∉ marker t := by cases t <;> decide +kernel
    have hl : lit "/" = [0x2F] := by decide +kernel
    rw [Bool.eq_iff_iff, find_isSome_iff, find_isSome_iff, hl, List.append_assoc,
      List.singleton_append]
    constructor
    · intro h
      rcases infix_slash hm h with h | h
      · exact absurd h (hdir t)
      · exact h
    · rintro ⟨a, r, rfl⟩
      exact ⟨dir ++ 0x2F :: a, r, by simp⟩
  unfold parseTypeOf
  have k1 := key .zhTn
  have k2 := key .zhItn
  have k3 := key .enTn
  have k4 := key .enItn
  have k5 := key .jaTn
  have k6 := key .jaItn
  unfold marker at k1 k2 k3 k4 k5 k6
  rw [k1, k2, k3, k4, k5, k6]

/-- The file name that the Python side gives to a graph: `<lang>_<tn|itn>_tagger.fst`
(tn/processor.py). -/
def taggerName (t : ParseType) : Bytes := marker t ++ lit "tagger.fst"

/-- **C17.** In a directory without markers, each of the six tagger files selects its own pipeline. -/
theorem C17_tagger_partial (dir : Bytes) (hdir : ∀ t, ¬ marker t <:+: dir) (t : ParseType) :
    parseTypeOf (dir ++ lit "/" ++ taggerName t) = some t := by
  rw [C17_file_name_partial dir _ hdir]
  cases t <;> decide +kernel

example : ∀ t, ¬ marker t <:+: lit "/srv/zh-tn" := by
  intro t; cases t <;> decide +kernel

/-- **C17 is false of the code.** For each of the five pipelines after the first there is a directory
in which its tagger file selects the Chinese normalization schema. -/
theorem C17_false (t : ParseType) (ht : t ≠ .zhTn) :
    parseTypeOf (lit "/data/zh_tn_models" ++ lit "/" ++ taggerName t) = some .zhTn ∧
    (∃ n, ordersOf (schemaOf .zhTn) n ≠ ordersOf (schemaOf t) n) := by
  constructor
  · cases t <;> decide +kernel
  · refine ⟨lit "time", ?_⟩
    cases t
    · exact absurd rfl ht
    all_goals decide +kernel

end Verif.Cpp
