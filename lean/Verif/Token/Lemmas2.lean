import Verif.Token.Lemmas
import Mathlib.Data.List.Forall2
import Mathlib.Data.List.Nodup
import Mathlib.Data.List.Perm.Basic
import Mathlib.Data.List.Intervals
import Mathlib.Data.List.Lookmap

namespace Verif.Token
open Spec (NameChar IsName Spaces Value Fields Block Stream Tok esc write writeAll Writable Distinct
  canonical Exempt)

/-- A parsed token object denotes the token `k`: same type, the `order` list is the list of field
names and the dictionary holds exactly the fields. -/
def Denotes (t : Token) (k : Tok) : Prop :=
  t.name = k.name ∧ t.order = k.fields.map Prod.fst ∧ t.members = k.fields

theorem denotes_ofTok (k : Tok) (a b : Nat) : Denotes (ofTok k a b) k := ⟨rfl, rfl, rfl⟩

/-! ### Escaping -/

theorem escapeValue_eq_esc (v : Str) : escapeValue v = esc v := by
  unfold escapeValue replaceChar esc
  rw [List.flatMap_assoc]
  congr 1
  funext c
  by_cases h1 : c = '\\'
  · subst h1; simp
  · by_cases h2 : c = '"' <;> simp [h1, h2]

theorem value_esc (v : Str) : Value (esc v) v := by
  induction v with
  | nil => exact .nil
  | cons c v ih =>
    unfold esc at ih ⊢
    rw [List.flatMap_cons]
    by_cases h : c = '"' ∨ c = '\\'
    · rw [if_pos h]; exact .escaped h ih
    · rw [if_neg h]
      rw [not_or] at h
      exact .plain h.1 h.2 ih

theorem value_det {w v1 : Str} (h1 : Value w v1) : ∀ {v2}, Value w v2 → v1 = v2 := by
  induction h1 with
  | nil => intro v2 h2; cases h2; rfl
  | plain a b _ ih =>
    intro v2 h2
    cases h2 with
    | plain _ _ h => rw [ih h]
    | escaped _ _ => exact absurd rfl b
    | other _ _ _ => exact absurd rfl b
  | escaped a _ ih =>
    intro v2 h2
    cases h2 with
    | plain _ h _ => exact absurd rfl h
    | escaped _ h => rw [ih h]
    | other h1 h2 _ => rcases a with a | a <;> simp_all
  | other a b _ ih =>
    intro v2 h2
    cases h2 with
    | plain _ h _ => exact absurd rfl h
    | escaped h _ => rcases h with h | h <;> simp_all
    | other _ _ h => rw [ih h]

/-- Two readings of the same text as a value followed by a quote are the same. -/
theorem value_prefix_unique {w1 v1 : Str} (h1 : Value w1 v1) :
    ∀ {w2 v2 r1 r2 : Str}, Value w2 v2 → w1 ++ '"' :: r1 = w2 ++ '"' :: r2 → w1 = w2 ∧ r1 = r2 := by
  induction h1 with
  | nil =>
    intro w2 v2 r1 r2 h2 e
    cases h2 with
    | nil => simpa using e
    | plain h _ _ => simp at e; exact absurd e.1.symm h
    | escaped _ _ => simp at e
    | other _ _ _ => simp at e
  | plain a b _ ih =>
    intro w2 v2 r1 r2 h2 e
    cases h2 with
    | nil => simp at e; exact absurd e.1 a
    | plain _ _ h =>
      simp only [List.cons_append, List.cons.injEq] at e
      obtain ⟨rfl, e⟩ := e
      obtain ⟨rfl, rfl⟩ := ih h e
      exact ⟨rfl, rfl⟩
    | escaped _ _ => simp at e; exact absurd e.1 b
    | other _ _ _ => simp at e; exact absurd e.1 b
  | escaped a _ ih =>
    intro w2 v2 r1 r2 h2 e
    cases h2 with
    | nil => simp at e
    | plain _ h _ => simp at e; exact absurd e.1.symm h
    | escaped _ h =>
      simp only [List.cons_append, List.cons.injEq, true_and] at e
      obtain ⟨rfl, e⟩ := e
      obtain ⟨rfl, rfl⟩ := ih h e
      exact ⟨rfl, rfl⟩
    | other _ _ h =>
      simp only [List.cons_append, List.cons.injEq, true_and] at e
      obtain ⟨rfl, e⟩ := e
      obtain ⟨rfl, rfl⟩ := ih h e
      exact ⟨rfl, rfl⟩
  | other a b _ ih =>
    intro w2 v2 r1 r2 h2 e
    cases h2 with
    | nil => simp at e
    | plain _ h _ => simp at e; exact absurd e.1.symm h
    | escaped _ h =>
      simp only [List.cons_append, List.cons.injEq, true_and] at e
      obtain ⟨rfl, e⟩ := e
      obtain ⟨rfl, rfl⟩ := ih h e
      exact ⟨rfl, rfl⟩
    | other _ _ h =>
      simp only [List.cons_append, List.cons.injEq, true_and] at e
      obtain ⟨rfl, e⟩ := e
      obtain ⟨rfl, rfl⟩ := ih h e
      exact ⟨rfl, rfl⟩

/-! ### Located streams and plain streams -/

theorem located_stream {pos : Nat} {r : Str} {ts : List Token} (h : Located pos r ts) :
    ∃ ks, Stream r ks ∧ (∀ k ∈ ks, Distinct k) ∧ List.Forall₂ Denotes ts ks := by
  induction h with
  | done hsp => exact ⟨[], .done hsp, by simp, .nil⟩
  | @block pos sp b k rest ts hsp hb hd _ ih =>
    obtain ⟨ks, h1, h2, h3⟩ := ih
    refine ⟨k :: ks, .block hsp hb h1, ?_, .cons (denotes_ofTok _ _ _) h3⟩
    intro k' hk'
    rcases List.mem_cons.1 hk' with rfl | h
    · exact hd
    · exact h2 _ h

theorem stream_located {r : Str} {ks : List Tok} (h : Stream r ks) :
    (∀ k ∈ ks, Distinct k) → ∀ pos, ∃ ts, Located pos r ts ∧ List.Forall₂ Denotes ts ks := by
  induction h with
  | done hsp => exact fun _ pos => ⟨[], .done hsp, .nil⟩
  | @block sp b k rest ks hsp hb _ ih =>
    intro hd pos
    obtain ⟨ts, h1, h2⟩ := ih (fun k hk => hd k (by simp [hk])) (pos + sp.length + b.length)
    exact ⟨_, .block hsp hb (hd k (by simp)) h1, .cons (denotes_ofTok _ _ _) h2⟩

theorem denotes_unique {t : Token} {k1 k2 : Tok} (h1 : Denotes t k1) (h2 : Denotes t k2) :
    k1 = k2 := by
  obtain ⟨n1, f1⟩ := k1
  obtain ⟨n2, f2⟩ := k2
  obtain ⟨a, _, c⟩ := h1
  obtain ⟨d, _, f⟩ := h2
  simp_all

theorem forall₂_denotes_unique {ts : List Token} {ks1 ks2 : List Tok}
    (h1 : List.Forall₂ Denotes ts ks1) (h2 : List.Forall₂ Denotes ts ks2) : ks1 = ks2 := by
  induction h1 generalizing ks2 with
  | nil => cases h2; rfl
  | cons a _ ih =>
    cases h2 with
    | cons b h => rw [denotes_unique a b, ih h]

/-! ### Serialisation -/

/-- The fields that `Token.string` writes, in order. -/
def chosenFields (orders : Orders) (k : Tok) : List (Str × Str) :=
  ((ofTok k 0 0).chosenOrder orders).flatMap
    fun key => ((k.fields.lookup key).map fun v => (key, v)).toList

theorem foldl_fields (ms : List (Str × Str)) (keys : List Str) (acc : Str) :
    keys.foldl (fun output key =>
      match ms.lookup key with
      | none => output
      | some value => output ++ fieldText key value) acc =
    acc ++ (keys.flatMap fun key => ((ms.lookup key).map fun v => (key, v)).toList).flatMap
      (fun f => fieldText f.1 f.2) := by
  induction keys generalizing acc with
  | nil => simp
  | cons k keys ih =>
    rw [List.foldl_cons, ih]
    rw [List.flatMap_cons]
    cases ms.lookup k <;> simp

theorem string_eq_write {t : Token} {k : Tok} (h : Denotes t k) (orders : Orders) :
    t.string orders = write ⟨k.name, chosenFields orders k⟩ := by
  obtain ⟨h1, h2, h3⟩ := h
  have h4 : t.chosenOrder orders = (ofTok k 0 0).chosenOrder orders := by
    unfold Token.chosenOrder ofTok
    rw [h1, h2, h3]
  unfold Token.string write
  dsimp only
  rw [h4]
  refine Eq.trans (congrArg (· ++ _) (foldl_fields t.members _ _)) ?_
  rw [h1, h3]
  unfold chosenFields fieldText
  simp [escapeValue_eq_esc]

theorem lookup_eq_some_iff {fs : List (Str × Str)} (hd : (fs.map Prod.fst).Nodup) (k v : Str) :
    fs.lookup k = some v ↔ (k, v) ∈ fs := by
  induction fs with
  | nil => simp
  | cons f fs ih =>
    obtain ⟨fk, fv⟩ := f
    simp only [List.map_cons, List.nodup_cons] at hd
    simp only [List.lookup, List.mem_cons, Prod.mk.injEq]
    by_cases h : k = fk
    · subst h
      have : (k, v) ∉ fs := fun hm => hd.1 (List.mem_map_of_mem (f := Prod.fst) hm)
      simp [this, eq_comm]
    · have : (k == fk) = false := by simpa using h
      simp [this, h, ih hd.2]

theorem lookup_filter {fs : List (Str × Str)} (hd : (fs.map Prod.fst).Nodup) (k : Str) :
    ((fs.lookup k).map fun v => (k, v)).toList = fs.filter (fun f => f.1 = k) := by
  induction fs with
  | nil => simp
  | cons f fs ih =>
    obtain ⟨fk, fv⟩ := f
    simp only [List.map_cons, List.nodup_cons] at hd
    simp only [List.lookup]
    by_cases h : k = fk
    · subst h
      have : fs.filter (fun f => f.1 = k) = [] := by
        rw [List.filter_eq_nil_iff]
        intro f hf hk
        have : f.1 = k := by simpa using hk
        exact hd.1 (this ▸ List.mem_map_of_mem (f := Prod.fst) hf)
      simp [this]
    · have h1 : (k == fk) = false := by simpa using h
      have h2 : ¬ fk = k := fun e => h e.symm
      simp only [h1]
      rw [ih hd.2]
      simp [h2]

theorem flatMap_filter_self {fs : List (Str × Str)} (hd : (fs.map Prod.fst).Nodup) :
    (fs.map Prod.fst).flatMap (fun k => fs.filter (fun f => f.1 = k)) = fs := by
  suffices h : ∀ gs : List (Str × Str), gs.Sublist fs →
      (gs.map Prod.fst).flatMap (fun k => fs.filter (fun f => f.1 = k)) = gs from h fs (.refl _)
  intro gs hgs
  induction gs with
  | nil => rfl
  | cons g gs ih =>
    rw [List.map_cons, List.flatMap_cons, ih ((List.sublist_cons_self g gs).trans hgs),
      ← lookup_filter hd]
    have : fs.lookup g.1 = some g.2 := (lookup_eq_some_iff hd _ _).2 (hgs.subset (by simp))
    simp [this]

theorem flatMap_filter_extra {fs : List (Str × Str)} (hd : (fs.map Prod.fst).Nodup)
    (declared : List Str) :
    ((fs.map Prod.fst).filter (fun k => !declared.contains k)).flatMap
      (fun k => fs.filter (fun f => f.1 = k)) = fs.filter (fun f => f.1 ∉ declared) := by
  have key : ∀ gs : List (Str × Str), gs.Sublist fs →
      ((gs.map Prod.fst).filter (fun k => !declared.contains k)).flatMap
        (fun k => fs.filter (fun f => f.1 = k)) = gs.filter (fun f => f.1 ∉ declared) := by
    intro gs hgs
    induction gs with
    | nil => rfl
    | cons g gs ih =>
      have ih := ih ((List.sublist_cons_self g gs).trans hgs)
      have hl : fs.lookup g.1 = some g.2 := (lookup_eq_some_iff hd _ _).2 (hgs.subset (by simp))
      by_cases h : g.1 ∈ declared
      · rw [List.map_cons, List.filter_cons_of_neg (by simpa using h),
          List.filter_cons_of_neg (by simpa using h), ih]
      · rw [List.map_cons, List.filter_cons_of_pos (by simpa using h),
          List.filter_cons_of_pos (by simpa using h), List.flatMap_cons, ih,
          ← lookup_filter hd, hl]
        simp
  exact key fs (.refl _)

theorem chosenFields_exempt {orders : Orders} {k : Tok} (hd : Distinct k) (he : Exempt orders k) :
    chosenFields orders k = k.fields := by
  have : (ofTok k 0 0).chosenOrder orders = k.fields.map Prod.fst := by
    unfold Token.chosenOrder ofTok
    dsimp only
    rcases he with he | he
    · rw [he]
    · split
      · rfl
      · rw [if_pos ((lookup_eq_some_iff hd _ _).2 he)]
  unfold chosenFields
  rw [this]
  simp only [lookup_filter hd]
  exact flatMap_filter_self hd

theorem chosenFields_canonical {orders : Orders} {k : Tok} {declared : List Str} (hd : Distinct k)
    (hs : orders k.name = some declared)
    (he : ("preserve_order".toList, "true".toList) ∉ k.fields) :
    chosenFields orders k = canonical declared k.fields := by
  unfold chosenFields Token.chosenOrder ofTok
  dsimp only
  rw [hs]
  dsimp only
  rw [if_neg (fun h => he ((lookup_eq_some_iff hd _ _).1 h))]
  simp only [lookup_filter hd, List.flatMap_append]
  rw [flatMap_filter_extra hd]
  rfl

theorem canonical_perm {declared : List Str} (hn : declared.Nodup) (fs : List (Str × Str)) :
    (canonical declared fs).Perm fs := by
  have h1 : (declared.flatMap fun k => fs.filter (fun f => f.1 = k)).Perm
      (fs.filter (fun f => f.1 ∈ declared)) := by
    induction declared with
    | nil => simp
    | cons d ds ih =>
      rw [List.nodup_cons] at hn
      rw [List.flatMap_cons]
      refine (List.Perm.append_left _ (ih hn.2)).trans ?_
      clear ih
      induction fs with
      | nil => simp
      | cons f fs ih =>
        by_cases h : f.1 = d
        · have h2 : f.1 ∉ ds := by rw [h]; exact hn.1
          simp only [List.filter_cons, h, decide_true, if_true, List.mem_cons, true_or]
          rw [if_neg (by simpa using hn.1)]
          simpa using ih
        · by_cases h3 : f.1 ∈ ds
          · simp only [List.filter_cons, h, h3, decide_true, decide_false, if_true,
              List.mem_cons, or_true, false_or]
            simp only [Bool.false_eq_true, if_false]
            refine List.perm_middle.trans ?_
            simpa using ih
          · simpa [List.filter_cons, h, h3] using ih
  unfold canonical
  refine (List.Perm.append_right _ h1).trans ?_
  have := List.filter_append_perm (fun f : Str × Str => decide (f.1 ∈ declared)) fs
  refine List.Perm.trans (List.Perm.append_left _ ?_) this
  rw [show (fun f : Str × Str => decide (f.1 ∉ declared)) =
    (fun f => !decide (f.1 ∈ declared)) from funext fun f => by simp]

/-- A schema lists no field twice. -/
def RepeatFree (orders : Orders) : Prop := ∀ n l, orders n = some l → l.Nodup

theorem chosenFields_perm {orders : Orders} (hr : RepeatFree orders) {k : Tok} (hd : Distinct k) :
    (chosenFields orders k).Perm k.fields := by
  by_cases he : Exempt orders k
  · rw [chosenFields_exempt hd he]
  · unfold Exempt at he
    rw [not_or] at he
    obtain ⟨declared, hs⟩ := Option.ne_none_iff_exists'.1 he.1
    rw [chosenFields_canonical hd hs he.2]
    exact canonical_perm (hr _ _ hs) _

/-! ### Written blocks -/

theorem fields_write (fs : List (Str × Str)) (hn : ∀ f ∈ fs, IsName f.1) (x : Str) (hx : Spaces x) :
    Fields (x ++ (fs.flatMap (fun f => f.1 ++ ": \"".toList ++ esc f.2 ++ "\"".toList ++ [' '])) ++
      ['}']) fs := by
  induction fs generalizing x with
  | nil => simpa using Fields.close hx
  | cons f fs ih =>
    have h1 := ih (fun f hf => hn f (by simp [hf])) [' '] (by simp [Spaces])
    have h2 := Fields.field hx (hn f (by simp)) (value_esc f.2) h1
    simpa using h2

theorem flatMap_rotate (fs : List (Str × Str)) (g : Str × Str → Str) (y : Str) :
    fs.flatMap (fun f => y ++ g f) ++ y = y ++ fs.flatMap (fun f => g f ++ y) := by
  induction fs with
  | nil => simp
  | cons f fs ih =>
    rw [List.flatMap_cons, List.flatMap_cons, List.append_assoc, ih]
    simp

theorem block_write {k : Tok} (hn : IsName k.name) (hf : ∀ f ∈ k.fields, IsName f.1) :
    Block (write k) k := by
  obtain ⟨n, fs⟩ := k
  have h1 := fields_write fs hf [] (by simp [Spaces])
  have h2 := Block.mk hn h1
  have h3 := flatMap_rotate fs (fun f => f.1 ++ ": \"".toList ++ esc f.2 ++ "\"".toList) [' ']
  have e : write ⟨n, fs⟩ = n ++ ([' ', '{', ' '] ++ ([] ++ (fs.flatMap (fun f => f.1 ++
      ": \"".toList ++ esc f.2 ++ "\"".toList ++ [' '])) ++ ['}'])) := by
    unfold write
    have h4 : (" }".toList : Str) = [' '] ++ ['}'] := rfl
    have h5 : ∀ X : Str, n ++ " {".toList ++ X ++ " }".toList = n ++ " {".toList ++
      ((X ++ [' ']) ++ ['}']) := by intro X; rw [h4]; simp
    rw [h5]
    have h6 : (fun f : Str × Str => " ".toList ++ f.1 ++ ": \"".toList ++ esc f.2 ++ "\"".toList) =
      (fun f => [' '] ++ (f.1 ++ ": \"".toList ++ esc f.2 ++ "\"".toList)) := by
      funext f; simp
    dsimp only
    rw [h6, h3]
    simp
  rw [e]
  exact h2

theorem write_ne_nil (k : Tok) : write k ≠ [] := by
  unfold write; simp

theorem joinSpace_eq (l : List Str) : joinSpace l = (" ".toList).intercalate l := by
  induction l with
  | nil => rfl
  | cons x l ih =>
    cases l with
    | nil => simp [joinSpace]
    | cons y l =>
      simp only [joinSpace, ih]
      simp

/-- Tokens laid out one space apart, starting at `pos`. -/
def located (pos : Nat) : List Tok → List Token
  | [] => []
  | k :: ks => ofTok k pos (pos + (write k).length) :: located (pos + (write k).length + 1) ks

theorem located_writeAll (ks : List Tok) (h : ∀ k ∈ ks, Writable k) (pos : Nat) :
    Located pos (writeAll ks) (located pos ks) := by
  have key : ∀ (ks : List Tok), (∀ k ∈ ks, Writable k) → ∀ pos, ks ≠ [] →
      Located pos ([' '] ++ writeAll ks) (located (pos + 1) ks) ∧
      Located pos (writeAll ks) (located pos ks) := by
    intro ks
    induction ks with
    | nil => intro _ _ h; exact absurd rfl h
    | cons k ks ih =>
      intro h pos _
      obtain ⟨hn, hf, hd⟩ := h k (by simp)
      have hrest : ∀ q, ∃ rest, writeAll (k :: ks) = write k ++ rest ∧
          Located q rest (located (q + 1) ks) := by
        intro q
        cases hks : ks with
        | nil =>
          exact ⟨[], by simp [writeAll], .done (by simp [Spaces])⟩
        | cons k2 ks2 =>
          refine ⟨[' '] ++ writeAll ks, ?_, ?_⟩
          · simp [writeAll, hks]
          · rw [← hks]
            exact (ih (fun k hk => h k (by simp [hk])) q (by simp [hks])).1
      constructor
      · obtain ⟨rest, e, hl⟩ := hrest (pos + 1 + (write k).length)
        rw [e]
        exact Located.block (sp := [' ']) (by simp [Spaces]) (block_write hn hf) hd hl
      · obtain ⟨rest, e, hl⟩ := hrest (pos + (write k).length)
        rw [e]
        have := Located.block (pos := pos) (sp := []) (by simp [Spaces]) (block_write hn hf) hd
          (by simpa using hl)
        simpa [located] using this
  by_cases hks : ks = []
  · subst hks; exact .done (by simp [Spaces, writeAll])
  · exact (key ks h pos hks).2

theorem located_denotes (pos : Nat) (ks : List Tok) : List.Forall₂ Denotes (located pos ks) ks := by
  induction ks generalizing pos with
  | nil => exact .nil
  | cons k ks ih => exact .cons (denotes_ofTok _ _ _) (ih _)

theorem writeAll_ne_nil {ks : List Tok} (h : ks ≠ []) : writeAll ks ≠ [] := by
  cases ks with
  | nil => exact absurd rfl h
  | cons k ks =>
    cases ks with
    | nil => simpa [writeAll] using write_ne_nil k
    | cons k2 ks => simp [writeAll, write_ne_nil]

theorem parse_writeAll {ks : List Tok} (hne : ks ≠ []) (h : ∀ k ∈ ks, Writable k) :
    parse (writeAll ks) = .ok (located 0 ks) :=
  (parse_iff_located _ _).2 ⟨writeAll_ne_nil hne, located_writeAll ks h 0⟩

/-! ### Names of parsed tokens -/

theorem fields_names {b : Str} {fs : List (Str × Str)} (h : Fields b fs) :
    ∀ f ∈ fs, IsName f.1 := by
  induction h with
  | close _ => simp
  | field _ hk _ _ ih =>
    intro f hf
    rcases List.mem_cons.1 hf with rfl | hf
    · exact hk
    · exact ih f hf

theorem stream_names {r : Str} {ks : List Tok} (h : Stream r ks) :
    ∀ k ∈ ks, IsName k.name ∧ ∀ f ∈ k.fields, IsName f.1 := by
  induction h with
  | done _ => simp
  | block _ hb _ ih =>
    intro k hk
    rcases List.mem_cons.1 hk with rfl | hk
    · obtain ⟨hn, hf⟩ := hb
      exact ⟨hn, fields_names hf⟩
    · exact ih k hk

/-! ### reorder -/

theorem reorder_fold (orders : Orders) (toks : List Token) (r : ReorderSt) :
    (toks.foldl (reorderStep orders) r).serialized =
      r.serialized ++ toks.map (fun t => t.string orders) := by
  induction toks generalizing r with
  | nil => simp
  | cons t toks ih => simp [ih, reorderStep]

/-- Spans of consecutive strings, one character apart. -/
def spansFrom (pos : Nat) : List Str → List (Nat × Nat)
  | [] => []
  | x :: xs => (pos, pos + x.length) :: spansFrom (pos + x.length + 1) xs

theorem reorder_spans (orders : Orders) (toks : List Token) (r : ReorderSt) :
    (toks.foldl (reorderStep orders) r).spans = r.spans ++
      spansFrom (if r.serialized.isEmpty then r.offset else r.offset + 1)
        (toks.map (fun t => t.string orders)) := by
  induction toks generalizing r with
  | nil => simp [spansFrom]
  | cons t toks ih =>
    simp only [List.foldl_cons, ih, List.map_cons, spansFrom]
    simp [reorderStep]

theorem reorderWithSpans_ok {orders : Orders} {text : Str} {toks : List Token}
    (h : parse text = .ok toks) :
    reorderWithSpans orders text = .ok
      (joinSpace (toks.map fun t => t.string orders),
        spansFrom 0 (toks.map fun t => t.string orders)) := by
  unfold reorderWithSpans
  rw [h]
  dsimp only
  rw [reorder_fold, reorder_spans]
  simp

theorem reorder_ok {orders : Orders} {text : Str} {toks : List Token}
    (h : parse text = .ok toks) :
    reorder orders text = .ok (joinSpace (toks.map fun t => t.string orders)) := by
  unfold reorder
  rw [reorderWithSpans_ok h]

theorem map_string {toks : List Token} {ks : List Tok} (h : List.Forall₂ Denotes toks ks)
    (orders : Orders) :
    toks.map (fun t => t.string orders) =
      (ks.map fun k => (⟨k.name, chosenFields orders k⟩ : Tok)).map write := by
  induction h with
  | nil => rfl
  | cons a _ ih => simp only [List.map_cons, ih, string_eq_write a]

/-- Effect of `reorder` at the level of denoted tokens. -/
theorem reorder_denotes {orders : Orders} {text : Str} {toks : List Token} {ks : List Tok}
    (h : parse text = .ok toks) (hk : List.Forall₂ Denotes toks ks) :
    reorder orders text =
      .ok (writeAll (ks.map fun k => ⟨k.name, chosenFields orders k⟩)) := by
  rw [reorder_ok h, map_string hk, joinSpace_eq]
  rfl

theorem parse_denotes {text : Str} {toks : List Token} (h : parse text = .ok toks) :
    ∃ ks, Stream text ks ∧ List.Forall₂ Denotes toks ks ∧ ∀ k ∈ ks, Writable k := by
  obtain ⟨_, hl⟩ := (parse_iff_located _ _).1 h
  obtain ⟨ks, h1, h2, h3⟩ := located_stream hl
  refine ⟨ks, h1, h3, fun k hk => ?_⟩
  have := stream_names h1 k hk
  exact ⟨this.1, this.2, h2 k hk⟩

theorem writable_chosen {orders : Orders} (hr : RepeatFree orders) {k : Tok} (h : Writable k) :
    Writable ⟨k.name, chosenFields orders k⟩ := by
  obtain ⟨h1, h2, h3⟩ := h
  have hp := chosenFields_perm hr h3
  refine ⟨h1, fun f hf => h2 f (hp.subset hf), ?_⟩
  exact (hp.map Prod.fst).nodup_iff.2 h3

end Verif.Token
