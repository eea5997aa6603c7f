import Verif.Cpp.Sim
import Verif.Cpp.Strings
import Verif.Token.Lemmas3

/-! The reordered text of the C++ runtime. -/

namespace Verif.Cpp
open Verif.Token.Spec (NameChar IsName Spaces Value Fields Block Stream Tok esc write writeAll
  Distinct Exempt canonical Writable)
open Verif.Token (Str isKeyChar)

theorem lookup_map_inj {α β γ : Type*} [BEq α] [LawfulBEq α] [BEq β] [LawfulBEq β] {δ : Type*}
    {f : α → β} (hf : Function.Injective f) (g : γ → δ) (l : List (α × γ)) (a : α) :
    (l.map fun p => (f p.1, g p.2)).lookup (f a) = (l.lookup a).map g := by
  induction l with
  | nil => rfl
  | cons p l ih =>
    obtain ⟨x, y⟩ := p
    simp only [List.map_cons, List.lookup_cons]
    by_cases h : a = x
    · subst h; simp
    · have h1 : (a == x) = false := by simpa using h
      have h2 : (f a == f x) = false := by simpa using fun h' => h (hf h')
      rw [h1, h2]
      exact ih

theorem lookup_none {α β : Type*} [BEq α] [LawfulBEq α] {l : List (α × β)} {a : α}
    (h : a ∉ l.map Prod.fst) : l.lookup a = none := by
  induction l with
  | nil => rfl
  | cons p l ih =>
    obtain ⟨x, y⟩ := p
    simp only [List.map_cons, List.mem_cons, not_or] at h
    rw [List.lookup_cons, (by simpa using h.1 : (a == x) = false)]
    exact ih h.2

/-- Both components of a field as bytes. -/
def encField (f : Str × Str) : Bytes × Bytes := (encAll f.1, encAll f.2)

theorem encAll_inj : Function.Injective encAll := fun _ _ h => encAll_injective h

theorem appendAll_distinct (raws : List (Str × Str)) : ∀ (tok : Token),
    (tok.members.map Prod.fst ++ raws.map fun f => encAll f.1).Nodup →
    appendAll tok raws = { tok with «order» := tok.order ++ raws.map (fun f => encAll f.1),
                                    members := tok.members ++ raws.map encField } := by
  induction raws with
  | nil => intro tok _; simp [appendAll]
  | cons f raws ih =>
    intro tok h
    have hn : encAll f.1 ∉ tok.members.map Prod.fst := by
      intro h'
      rw [List.nodup_append] at h
      exact h.2.2 _ h' _ (by simp) rfl
    have ha : tok.append (encAll f.1) (encAll f.2) =
        { tok with «order» := tok.order ++ [encAll f.1], members := tok.members ++ [encField f] } := by
      unfold Token.append assign
      rw [lookup_none hn]
      rfl
    have : appendAll tok (f :: raws) = appendAll (tok.append (encAll f.1) (encAll f.2)) raws := rfl
    rw [this, ha, ih]
    · simp
    · simpa [encField] using h

/-- A field with its raw value, as written. -/
def rawField (f : Str × Str) : Str := " ".toList ++ f.1 ++ ": \"".toList ++ f.2 ++ "\"".toList

/-- A token with raw values, as written. -/
def rawWrite (n : Str) (raws : List (Str × Str)) : Str :=
  n ++ " {".toList ++ raws.flatMap rawField ++ " }".toList

/-- The raw fields that the C++ runtime writes for a token. -/
def cppRaw (schema : Str → Option (List Str)) (n : Str) (raws : List (Str × Str)) :
    List (Str × Str) :=
  match schema n with
  | none => raws
  | some declared =>
    if raws.lookup "preserve_order".toList = some "true".toList then raws
    else declared.flatMap fun key => ((raws.lookup key).map fun v => (key, v)).toList

/-- `orders` is the schema with its names in bytes. -/
def SameSchema (schema : Str → Option (List Str)) (orders : Orders) : Prop :=
  ∀ n, orders (encAll n) = (schema n).map (List.map encAll)

theorem foldl_cpp (ms : List (Bytes × Bytes)) (keys : List Bytes) (acc : Bytes) :
    keys.foldl (fun output key =>
      match ms.lookup key with
      | none => output
      | some value => output ++ lit " " ++ key ++ lit ": \"" ++ value ++ lit "\"") acc =
    acc ++ (keys.flatMap fun key => ((ms.lookup key).map fun v => (key, v)).toList).flatMap
      (fun f => lit " " ++ f.1 ++ lit ": \"" ++ f.2 ++ lit "\"") := by
  induction keys generalizing acc with
  | nil => simp
  | cons k keys ih =>
    rw [List.foldl_cons, ih]
    cases h : ms.lookup k <;> simp [h]

theorem lit_pres : lit "preserve_order" = encAll "preserve_order".toList :=
  lit_eq_encAll _ (by decide)
theorem lit_true : lit "true" = encAll "true".toList := lit_eq_encAll _ (by decide)

theorem encAll_flatMap {α : Type*} (l : List α) (f : α → Str) :
    encAll (l.flatMap f) = l.flatMap fun a => encAll (f a) := by
  induction l with
  | nil => rfl
  | cons a l ih => simp [encAll_append, ih]

theorem encField_text (l : List (Str × Str)) :
    (l.map encField).flatMap (fun f => lit " " ++ f.1 ++ lit ": \"" ++ f.2 ++ lit "\"") =
      encAll (l.flatMap rawField) := by
  rw [encAll_flatMap, List.flatMap_map]
  congr 1
  funext f
  unfold rawField encField
  simp only [encAll_append]
  rw [lit_eq_encAll " " (by decide), lit_eq_encAll ": \"" (by decide),
    lit_eq_encAll "\"" (by decide)]

theorem fold_keys (raws : List (Str × Str)) (keys : List Str) :
    ((keys.map encAll).flatMap fun key =>
      (((raws.map encField).lookup key).map fun v => (key, v)).toList) =
    (keys.flatMap fun key => ((raws.lookup key).map fun v => (key, v)).toList).map encField := by
  induction keys with
  | nil => rfl
  | cons k keys ih =>
    have : (raws.map encField).lookup (encAll k) = (raws.lookup k).map encAll :=
      lookup_map_inj encAll_inj encAll raws k
    simp only [List.map_cons, List.flatMap_cons, List.map_append]
    rw [ih, this]
    cases raws.lookup k <;> simp [encField]

theorem own_keys {raws : List (Str × Str)} (hd : (raws.map Prod.fst).Nodup) :
    ((raws.map Prod.fst).flatMap fun key => ((raws.lookup key).map fun v => (key, v)).toList) =
      raws := by
  have key : ∀ (ks : List (Str × Str)), (∀ p ∈ ks, raws.lookup p.1 = some p.2) →
      ((ks.map Prod.fst).flatMap fun key => ((raws.lookup key).map fun v => (key, v)).toList) = ks := by
    intro ks
    induction ks with
    | nil => intro _; rfl
    | cons p ks ih =>
      intro h
      simp only [List.map_cons, List.flatMap_cons]
      rw [h p (by simp), ih fun q hq => h q (by simp [hq])]
      simp
  exact key raws fun p hp => (Verif.Token.lookup_eq_some_iff hd _ _).2 hp

theorem cppTok_string {schema : Str → Option (List Str)} {orders : Orders}
    (hs : SameSchema schema orders) (k : Tok) (raws : List (Str × Str))
    (hd : (raws.map Prod.fst).Nodup) :
    (cppTok k raws).string orders = encAll (rawWrite k.name (cppRaw schema k.name raws)) := by
  have hd' : (raws.map fun f => encAll f.1).Nodup := by
    have := hd.map encAll_inj
    rw [List.map_map] at this
    exact this
  unfold cppTok
  rw [appendAll_distinct raws _ (by simpa using hd')]
  unfold Token.string
  dsimp only [List.nil_append]
  have hm : (raws.map fun f => encAll f.1) = (raws.map Prod.fst).map encAll := by simp
  refine Eq.trans (congrArg (· ++ _) (foldl_cpp _ _ _)) ?_
  have hl : (raws.map encField).lookup (lit "preserve_order") =
      (raws.lookup "preserve_order".toList).map encAll := by
    rw [lit_pres]; exact lookup_map_inj encAll_inj encAll raws _
  have hown := fold_keys raws (raws.map Prod.fst)
  rw [own_keys hd] at hown
  have hfin : ∀ (l : List (Str × Str)), encAll k.name ++ lit " {" ++ (l.map encField).flatMap
      (fun f => lit " " ++ f.1 ++ lit ": \"" ++ f.2 ++ lit "\"") ++ lit " }" =
      encAll (rawWrite k.name l) := by
    intro l
    rw [encField_text]
    unfold rawWrite
    simp only [encAll_append]
    rw [lit_eq_encAll " {" (by decide), lit_eq_encAll " }" (by decide)]
  rw [hs k.name, hm]
  unfold cppRaw
  cases hsc : schema k.name with
  | none =>
    dsimp only [Option.map_none]
    rw [hown]
    exact hfin raws
  | some declared =>
    dsimp only [Option.map_some]
    cases hp : raws.lookup "preserve_order".toList with
    | none =>
      rw [hp, Option.map_none] at hl
      rw [if_pos (.inl hl), if_neg (by simp), fold_keys]
      exact hfin _
    | some v =>
      rw [hp, Option.map_some] at hl
      by_cases hv : v = "true".toList
      · subst hv
        rw [← lit_true] at hl
        rw [if_neg (fun h => h.elim (fun h => by cases hl.symm.trans h) (fun h => h hl)), if_pos rfl,
          hown]
        exact hfin raws
      · have hne : (raws.map encField).lookup (lit "preserve_order") ≠ some (lit "true") := by
          intro h
          have := hl.symm.trans h
          rw [lit_true] at this
          exact hv (encAll_injective (Option.some.inj this))
        have hv' : ¬ (some v = some "true".toList) := fun h => hv (Option.some.inj h)
        rw [if_pos (.inr hne), if_neg hv', fold_keys]
        exact hfin _

/-! ### The loop and the trim -/

theorem foldl_concat (l : List Bytes) (acc : Bytes) :
    l.foldl (fun o x => o ++ (x ++ lit " ")) acc = acc ++ l.flatMap fun x => x ++ lit " " := by
  induction l generalizing acc with
  | nil => simp
  | cons x l ih => rw [List.foldl_cons, ih]; simp

theorem flatMap_space (l : List Str) (h : l ≠ []) :
    (l.flatMap fun x => x ++ [' ']) = (" ".toList).intercalate l ++ [' '] := by
  induction l with
  | nil => exact absurd rfl h
  | cons x l ih =>
    by_cases hl : l = []
    · subst hl; simp
    · rw [intercalate_cons hl, List.flatMap_cons, ih hl]
      simp

theorem name_head_not_ws {c : Char} (h : NameChar c) : ∃ b rest, enc c = b :: rest ∧ isWs b = false := by
  have hk : asciiLetters.contains (enc c) = true := by
    rw [asciiLetters_enc]; exact (Verif.Token.isKeyChar_iff c).2 h
  rw [List.contains_iff_mem] at hk
  have : ∀ p ∈ asciiLetters, ∃ b ∈ p.head?, isWs b = false := by decide +kernel
  obtain ⟨b, hb, hw⟩ := this _ hk
  cases he : enc c with
  | nil => exact absurd he (enc_ne_nil c)
  | cons x r =>
    rw [he] at hb
    obtain rfl : x = b := by simpa using hb
    exact ⟨x, r, rfl, hw⟩

theorem rawWrite_shape {n : Str} (hn : IsName n) (raws : List (Str × Str)) :
    ∃ c m, NameChar c ∧ rawWrite n raws = c :: (m ++ ['}']) := by
  obtain ⟨h1, h2⟩ := hn
  cases n with
  | nil => exact absurd rfl h1
  | cons c n =>
    refine ⟨c, n ++ " {".toList ++ raws.flatMap rawField ++ [' '], h2 c (by simp), ?_⟩
    simp [rawWrite]

theorem join_shape {l : List Str} (hne : l ≠ [])
    (h : ∀ x ∈ l, ∃ c m, NameChar c ∧ x = c :: (m ++ ['}'])) :
    ∃ c m, NameChar c ∧ (" ".toList).intercalate l = c :: (m ++ ['}']) := by
  induction l with
  | nil => exact absurd rfl hne
  | cons x l ih =>
    obtain ⟨c, m, hc, rfl⟩ := h x (by simp)
    by_cases hl : l = []
    · subst hl; exact ⟨c, m, hc, by simp⟩
    · obtain ⟨d, e, _, he⟩ := ih hl fun y hy => h y (by simp [hy])
      rw [intercalate_cons hl, he]
      exact ⟨c, m ++ ['}'] ++ " ".toList ++ d :: e, hc, by simp⟩

theorem trim_join {l : List Str} (h : ∀ x ∈ l, ∃ c m, NameChar c ∧ x = c :: (m ++ ['}'])) :
    trim (l.flatMap fun x => encAll x ++ lit " ") = encAll ((" ".toList).intercalate l) := by
  by_cases hl : l = []
  · subst hl; rfl
  · obtain ⟨c, m, hc, he⟩ := join_shape hl h
    have h1 : (l.flatMap fun x => encAll x ++ lit " ") =
        encAll (l.flatMap fun x => x ++ [' ']) := by
      rw [encAll_flatMap]
      congr 1
      funext x
      rw [encAll_append, lit_space]
      simp
    rw [h1, flatMap_space l hl, he]
    obtain ⟨b, rest, hb, hw⟩ := name_head_not_ws hc
    apply trim_unique (a := []) (b := lit " ")
    · rw [encAll_append, lit_space]; simp
    · simp
    · decide
    · intro x hx
      rw [encAll_cons, hb] at hx
      simp at hx
      rw [← hx]; exact hw
    · intro x hx
      rw [encAll_cons, encAll_append, ← List.append_assoc] at hx
      have : encAll ['}'] = [0x7D] := by decide +kernel
      rw [this] at hx
      simp at hx
      subst hx
      decide

theorem reorder_raw {schema : Str → Option (List Str)} {orders : Orders}
    (hs : SameSchema schema orders) {text : Str} (hne : text ≠ []) {ks : List Tok}
    (hst : Stream text ks) (hd : ∀ k ∈ ks, Distinct k) :
    ∃ raws : List (List (Str × Str)),
      List.Forall₂ (fun k raw => RawOf k.fields raw) ks raws ∧
      (CleanEscapes text → ∀ kr ∈ ks.zip raws, ∀ fr ∈ kr.1.fields.zip kr.2, fr.2.2 = esc fr.1.2) ∧
      reorder orders (encAll text) = .ok (encAll ((" ".toList).intercalate
        ((ks.zip raws).map fun kr => rawWrite kr.1.name (cppRaw schema kr.1.name kr.2)))) := by
  obtain ⟨raws, h1, h2, h3⟩ := parseLoop_complete hst List.suffix_rfl
  refine ⟨raws, h1, h2, ?_⟩
  unfold reorder parse
  rw [load_C hne]
  dsimp only
  rw [h3 []]
  dsimp only
  have hstr : (ks.zip raws).map (fun kr => (cppTok kr.1 kr.2).string orders) =
      ((ks.zip raws).map fun kr => rawWrite kr.1.name (cppRaw schema kr.1.name kr.2)).map encAll := by
    rw [List.map_map]
    apply List.map_congr_left
    intro kr hkr
    refine cppTok_string hs kr.1 kr.2 ?_
    have hk := hd kr.1 (List.of_mem_zip hkr).1
    have hraw : RawOf kr.1.fields kr.2 := (List.forall₂_iff_zip.1 h1).2 hkr
    have : kr.2.map Prod.fst = kr.1.fields.map Prod.fst := by
      unfold RawOf at hraw
      clear hk hkr
      generalize kr.1.fields = fs at hraw
      generalize kr.2 = rs at hraw
      induction hraw with
      | nil => rfl
      | cons h _ ih => simp [h.1, ih]
    rw [this]
    exact hk
  have hnames := Verif.Token.stream_names hst
  rw [List.nil_append]
  have hfold : ((ks.zip raws).map fun kr => cppTok kr.1 kr.2).foldl
      (fun output token => output ++ (token.string orders ++ lit " ")) [] =
      ((ks.zip raws).map (fun kr => (cppTok kr.1 kr.2).string orders)).foldl
        (fun o x => o ++ (x ++ lit " ")) [] := by
    rw [List.foldl_map, List.foldl_map]
  rw [hfold, hstr, foldl_concat, List.nil_append, List.flatMap_map]
  rw [trim_join]
  intro x hx
  obtain ⟨kr, hkr, rfl⟩ := List.mem_map.1 hx
  exact rawWrite_shape (hnames kr.1 (List.of_mem_zip hkr).1).1 _

/-- The fields that the C++ runtime keeps for a token: all of them if the token is exempt, otherwise
only those that the schema declares, in the schema's order. -/
def keptFields (schema : Str → Option (List Str)) (k : Tok) : List (Str × Str) :=
  match schema k.name with
  | none => k.fields
  | some declared =>
    if ("preserve_order".toList, "true".toList) ∈ k.fields then k.fields
    else declared.flatMap fun key => k.fields.filter fun f => f.1 = key

theorem value_plain {w v : Str} (h : Value w v) (hv : ∀ c ∈ v, c ≠ '"' ∧ c ≠ '\\') : w = v := by
  induction h with
  | nil => rfl
  | plain _ _ _ ih => rw [ih fun c hc => hv c (by simp [hc])]
  | @escaped c w v a _ _ =>
    have := hv c (by simp)
    rcases a with rfl | rfl <;> simp at this
  | @other c w v _ _ _ _ =>
    have := hv '\\' (by simp)
    simp at this

theorem rawOf_lookup {fs raws : List (Str × Str)} (h : RawOf fs raws) (key : Str) :
    (fs.lookup key = none ∧ raws.lookup key = none) ∨
    ∃ v w, fs.lookup key = some v ∧ raws.lookup key = some w ∧ Value w v := by
  unfold RawOf at h
  induction h with
  | nil => left; exact ⟨rfl, rfl⟩
  | @cons f r fs raws h _ ih =>
    obtain ⟨k, v⟩ := f
    obtain ⟨k', w⟩ := r
    obtain ⟨h1, h2⟩ := h
    dsimp only at h1 h2
    subst h1
    by_cases hk : key = k'
    · subst hk
      right
      exact ⟨v, w, by simp, by simp, h2⟩
    · have : (key == k') = false := by simpa using hk
      simpa [List.lookup_cons, this] using ih

theorem rawOf_kept {schema : Str → Option (List Str)} {k : Tok} {raws : List (Str × Str)}
    (h : RawOf k.fields raws) (hd : Distinct k) :
    RawOf (keptFields schema k) (cppRaw schema k.name raws) := by
  unfold keptFields cppRaw
  cases schema k.name with
  | none => exact h
  | some declared =>
    dsimp only
    have hp : raws.lookup "preserve_order".toList = some "true".toList ↔
        ("preserve_order".toList, "true".toList) ∈ k.fields := by
      rw [← Verif.Token.lookup_eq_some_iff hd]
      rcases rawOf_lookup h "preserve_order".toList with ⟨h1, h2⟩ | ⟨v, w, h1, h2, h3⟩
      · rw [h1, h2]
      · rw [h1, h2]
        simp only [Option.some.injEq]
        constructor
        · rintro rfl
          exact Verif.Token.value_det h3 (Verif.Token.value_esc "true".toList)
        · rintro rfl
          exact value_plain h3 (by decide)
    by_cases hc : ("preserve_order".toList, "true".toList) ∈ k.fields
    · rw [if_pos hc, if_pos (hp.2 hc)]; exact h
    · rw [if_neg hc, if_neg (fun h' => hc (hp.1 h'))]
      simp only [← Verif.Token.lookup_filter hd]
      unfold RawOf
      induction declared with
      | nil => exact .nil
      | cons key declared ih =>
        simp only [List.flatMap_cons]
        refine List.rel_append ?_ ih
        rcases rawOf_lookup h key with ⟨h1, h2⟩ | ⟨v, w, h1, h2, h3⟩
        · rw [h1, h2]; exact .nil
        · rw [h1, h2]; exact .cons ⟨rfl, h3⟩ .nil

/-! ### The written form of a token with raw values is a block of the grammar -/

theorem fields_raw {fs raws : List (Str × Str)} (h : RawOf fs raws) :
    ∀ (_ : ∀ f ∈ fs, IsName f.1) (x : Str) (_ : Spaces x),
    Fields (x ++ (raws.flatMap (fun f => f.1 ++ ": \"".toList ++ f.2 ++ "\"".toList ++ [' '])) ++
      ['}']) fs := by
  unfold RawOf at h
  induction h with
  | nil => intro _ x hx; simpa using Fields.close hx
  | @cons f r fs raws h _ ih =>
    intro hn x hx
    obtain ⟨k, v⟩ := f
    obtain ⟨k', w⟩ := r
    obtain ⟨h1, h2⟩ := h
    dsimp only at h1 h2
    subst h1
    have i1 := ih (fun f hf => hn f (by simp [hf])) [' '] (by simp [Spaces])
    have i2 := Fields.field hx (hn (k', v) (by simp)) h2 i1
    simpa using i2

theorem block_raw {n : Str} {fs raws : List (Str × Str)} (hn : IsName n) (h : RawOf fs raws)
    (hf : ∀ f ∈ fs, IsName f.1) : Block (rawWrite n raws) ⟨n, fs⟩ := by
  have h1 := fields_raw h hf [] (by simp [Spaces])
  have h2 := Block.mk hn h1
  have h3 := Verif.Token.flatMap_rotate raws
    (fun f => f.1 ++ ": \"".toList ++ f.2 ++ "\"".toList) [' ']
  have e : rawWrite n raws = n ++ ([' ', '{', ' '] ++ ([] ++ (raws.flatMap (fun f => f.1 ++
      ": \"".toList ++ f.2 ++ "\"".toList ++ [' '])) ++ ['}'])) := by
    unfold rawWrite
    have h4 : (" }".toList : Str) = [' '] ++ ['}'] := rfl
    have h5 : ∀ X : Str, n ++ " {".toList ++ X ++ " }".toList = n ++ " {".toList ++
      ((X ++ [' ']) ++ ['}']) := by intro X; rw [h4]; simp
    rw [h5]
    have h6 : rawField =
      (fun f => [' '] ++ (f.1 ++ ": \"".toList ++ f.2 ++ "\"".toList)) := by
      funext f; simp [rawField]
    rw [h6, h3]
    simp
  rw [e]
  exact h2

theorem stream_space {s : Str} {ks : List Tok} (h : Stream s ks) : Stream (' ' :: s) ks := by
  cases h with
  | @done sp h =>
    exact .done (by intro c hc; rcases List.mem_cons.1 hc with rfl | hc; exacts [rfl, h c hc])
  | @block sp b t rest ts h hb hr =>
    have : ' ' :: (sp ++ (b ++ rest)) = (' ' :: sp) ++ (b ++ rest) := rfl
    rw [this]
    exact .block (by intro c hc; rcases List.mem_cons.1 hc with rfl | hc; exacts [rfl, h c hc]) hb hr

theorem stream_join (l : List (Str × Tok)) (h : ∀ p ∈ l, Block p.1 p.2) :
    Stream ((" ".toList).intercalate (l.map Prod.fst)) (l.map Prod.snd) := by
  induction l with
  | nil => exact .done (by simp [Spaces])
  | cons p l ih =>
    have hi := ih fun q hq => h q (by simp [hq])
    by_cases hl : l = []
    · subst hl
      have := Stream.block (sp := []) (by simp [Spaces]) (h p (by simp)) (.done (sp := []) (by simp [Spaces]))
      simpa using this
    · rw [List.map_cons, intercalate_cons (by simpa using hl)]
      have := Stream.block (sp := []) (by simp [Spaces]) (h p (by simp)) (stream_space hi)
      simpa using this

theorem kept_subset {schema : Str → Option (List Str)} {k : Tok} {f : Str × Str} :
    f ∈ keptFields schema k ↔ f ∈ k.fields ∧
      (Exempt schema k ∨ ∃ declared, schema k.name = some declared ∧ f.1 ∈ declared) := by
  unfold keptFields Exempt
  cases hs : schema k.name with
  | none => simp
  | some declared =>
    dsimp only
    by_cases hp : ("preserve_order".toList, "true".toList) ∈ k.fields
    · rw [if_pos hp]
      constructor
      · exact fun h => ⟨h, .inl (.inr hp)⟩
      · exact fun h => h.1
    · rw [if_neg hp]
      simp only [List.mem_flatMap, List.mem_filter, decide_eq_true_eq]
      constructor
      · rintro ⟨key, h1, h2, rfl⟩
        exact ⟨h2, .inr ⟨declared, rfl, h1⟩⟩
      · rintro ⟨h1, h2 | ⟨d, h2, h3⟩⟩
        · rcases h2 with h2 | h2
          · cases h2
          · exact absurd h2 hp
        · cases h2
          exact ⟨f.1, h3, h1, rfl⟩

theorem kept_distinct {schema : Str → Option (List Str)} (hr : Verif.Token.RepeatFree schema) {k : Tok}
    (hd : Distinct k) : ((keptFields schema k).map Prod.fst).Nodup := by
  have : (keptFields schema k).Sublist (Verif.Token.chosenFields schema k) := by
    unfold keptFields
    cases hs : schema k.name with
    | none => rw [Verif.Token.chosenFields_exempt hd (.inl hs)]
    | some declared =>
      dsimp only
      by_cases hp : ("preserve_order".toList, "true".toList) ∈ k.fields
      · rw [if_pos hp, Verif.Token.chosenFields_exempt hd (.inr hp)]
      · rw [if_neg hp, Verif.Token.chosenFields_canonical hd hs hp]
        exact List.sublist_append_left _ _
  have h2 := (Verif.Token.chosenFields_perm hr hd).map Prod.fst
  exact (h2.nodup_iff.2 hd).sublist (this.map Prod.fst)

end Verif.Cpp
