import Verif.Wfst.Loose
import Verif.Wfst.Must
import Verif.Wfst.Reads
import Verif.Cpp.Sim

/-
Every tagging can be verbalized: taggers whose tokens, reordered by the schema, the verbalizer reads.
Only the texts read and written are looked at, not what is said.
-/

namespace Verif.Wfst

open Verif.Token.Spec (esc write writeAll Tok Writable IsName Distinct Block Stream Spaces Exempt)
open Verif.Token (Orders chosenFields RepeatFree)
open Verif.Cpp (CleanEscapes clean_append clean_escape clean_plain)

/-! ### The texts a grammar reads and writes -/

/-- The grammar reads the text. -/
def Takes (g : G) (x : Str) : Prop := ∃ y w, g.den x y w
/-- The grammar writes the text. -/
def Gives (g : G) (t : Str) : Prop := ∃ x w, g.den x t w

/-- A field as it is written. -/
def fieldT (f : Str × Str) : Str := f.1 ++ t!": \"" ++ esc f.2 ++ t!"\""

theorem takes_add {a b : G} {x x' : Str} (h : Takes a x) (h' : Takes b x') : Takes (a + b) (x ++ x') := by
  obtain ⟨y, w, h⟩ := h
  obtain ⟨y', w', h'⟩ := h'
  exact ⟨_, _, h.cat h'⟩

theorem takes_del {s : Str} : Takes (del s) s := ⟨_, _, den_del.2 ⟨rfl, rfl, rfl⟩⟩
theorem takes_insert {s : Str} : Takes (insert s) [] := ⟨_, _, den_insert.2 ⟨rfl, rfl, rfl⟩⟩
theorem takes_lit {s : Str} : Takes (.lit s) s := ⟨_, _, den_lit.2 ⟨rfl, rfl, rfl⟩⟩
theorem takes_none {a : G} : Takes a.ques [] := ⟨_, _, den_ques.2 (.inl ⟨rfl, rfl, rfl⟩)⟩
theorem takes_some {a : G} {x : Str} (h : Takes a x) : Takes a.ques x := by
  obtain ⟨y, w, h⟩ := h
  exact ⟨_, _, den_ques.2 (.inr h)⟩
theorem takes_left {a b : G} {x : Str} (h : Takes a x) : Takes (a ||| b) x := by
  obtain ⟨y, w, h⟩ := h
  exact ⟨_, _, den_or.2 (.inl h)⟩
theorem takes_right {a b : G} {x : Str} (h : Takes b x) : Takes (a ||| b) x := by
  obtain ⟨y, w, h⟩ := h
  exact ⟨_, _, den_or.2 (.inr h)⟩

theorem takes_verbalizeField {n v : Str} {g : G} {sp : Bool} (hv : VText v) (h : Takes g v) :
    Takes (verbalizeField n (some g) sp) ((if sp then t!" " else []) ++ fieldT (n, v)) := by
  obtain ⟨y, w, h⟩ := h
  exact ⟨y, w, den_verbalizeField.2 ⟨esc v, by simp [fieldT], den_decoded_some.2 ⟨v, rfl, hv, h⟩⟩⟩

theorem takes_field {n v : Str} {g : G} (hv : VText v) (h : Takes g v) :
    Takes (verbalizeField n (some g)) (fieldT (n, v)) := takes_verbalizeField (sp := false) hv h

theorem takes_spaceField {n v : Str} {g : G} (hv : VText v) (h : Takes g v) :
    Takes (verbalizeField n (some g) true) (' ' :: fieldT (n, v)) := takes_verbalizeField (sp := true) hv h

/-- A text that is written without escapes. -/
def Bare (g : G) : Prop := ∀ v, Takes g v → esc v = v

theorem esc_bare {v : Str} (h1 : '"' ∉ v) (h2 : '\\' ∉ v) : esc v = v := by
  induction v with
  | nil => rfl
  | cons c v ih =>
    rw [esc_cons, ih (fun h => h1 (by simp [h])) (fun h => h2 (by simp [h])), if_neg]
    · rfl
    · rintro (rfl | rfl)
      · exact h1 (by simp)
      · exact h2 (by simp)

theorem bare_of {g : G} (h : (avoids '"' g && avoids '\\' g) = true) : Bare g := by
  rw [Bool.and_eq_true] at h
  rintro v ⟨y, w, hd⟩
  exact esc_bare (avoids_den h.1 hd) (avoids_den h.2 hd)

/-- A field that is read without decoding. -/
theorem takes_raw {v : Str} {pre post : Str} {g : G} (hb : Bare g) (h : Takes g v) {x : Str}
    (hpre : pre ++ esc v ++ post = x) : Takes (del pre + g + del post) x := by
  subst hpre
  rw [hb v h]
  exact takes_add (takes_add takes_del h) takes_del

/-! Outputs. -/

theorem gives_add {a b : G} {t : Str} : Gives (a + b) t ↔ ∃ t₁ t₂, Gives a t₁ ∧ Gives b t₂ ∧ t = t₁ ++ t₂ := by
  constructor
  · rintro ⟨_, _, x₁, y₁, w₁, x₂, y₂, w₂, h1, h2, rfl, rfl, rfl⟩
    exact ⟨y₁, y₂, ⟨_, _, h1⟩, ⟨_, _, h2⟩, rfl⟩
  · rintro ⟨t₁, t₂, ⟨x₁, w₁, h1⟩, ⟨x₂, w₂, h2⟩, rfl⟩
    exact ⟨_, _, h1.cat h2⟩

theorem gives_or {a b : G} {t : Str} : Gives (a ||| b) t ↔ Gives a t ∨ Gives b t := by
  constructor
  · rintro ⟨x, w, h | h⟩
    · exact .inl ⟨_, _, h⟩
    · exact .inr ⟨_, _, h⟩
  · rintro (⟨x, w, h⟩ | ⟨x, w, h⟩)
    · exact ⟨x, w, .inl h⟩
    · exact ⟨x, w, .inr h⟩

theorem gives_insert {s t : Str} : Gives (insert s) t ↔ t = s := by
  constructor
  · rintro ⟨x, w, h⟩; exact (den_insert.1 h).2.1
  · rintro rfl; exact ⟨_, _, den_insert.2 ⟨rfl, rfl, rfl⟩⟩

theorem gives_lit {s t : Str} : Gives (.lit s) t ↔ t = s := by
  constructor
  · rintro ⟨x, w, h⟩; exact h.2.1
  · rintro rfl; exact ⟨_, _, rfl, rfl, rfl⟩

theorem gives_del {s t : Str} : Gives (del s) t ↔ t = [] := by
  constructor
  · rintro ⟨x, w, h⟩; exact (den_del.1 h).2.1
  · rintro rfl; exact ⟨_, _, den_del.2 ⟨rfl, rfl, rfl⟩⟩

theorem gives_ques {a : G} {t : Str} : Gives a.ques t ↔ t = [] ∨ Gives a t := by
  constructor
  · rintro ⟨x, w, h | h⟩
    · exact .inl h.2.1
    · exact .inr ⟨_, _, h⟩
  · rintro (rfl | ⟨x, w, h⟩)
    · exact ⟨_, _, .inl ⟨rfl, rfl, rfl⟩⟩
    · exact ⟨_, _, .inr h⟩

theorem gives_wt {a : G} {k : W} {t : Str} : Gives (.wt a k) t ↔ Gives a t := by
  constructor
  · rintro ⟨x, w, w₀, h, rfl⟩; exact ⟨_, _, h⟩
  · rintro ⟨x, w, h⟩; exact ⟨x, _, w, h, rfl⟩

theorem gives_tagField {n t : Str} {g : G} :
    Gives (tagField n g) t ↔ ∃ v, t = fieldT (n, v) ∧ VText v ∧ Takes g v := by
  constructor
  · rintro ⟨x, w, h⟩
    obtain ⟨h1, h2, z, h3⟩ := den_tagField.1 h
    exact ⟨x, h1, h2, z, w, h3⟩
  · rintro ⟨v, rfl, h2, z, w, h3⟩
    exact ⟨v, w, den_tagField.2 ⟨rfl, h2, z, h3⟩⟩

/-- Takes apart a statement about what a grammar of fields gives. -/
macro "fields_of " h:ident : tactic =>
  `(tactic| (simp only [gives_add, gives_or, gives_wt, gives_tagField, gives_insert, gives_lit, gives_del,
      gives_ques, or_self] at $h:ident <;> casesm* _ ∧ _, Exists _, _ ∨ _ <;> subst_vars))

/-! ### Tokens -/

theorem write_cons (n : Str) (f : Str × Str) (fs : List (Str × Str)) :
    write ⟨n, f :: fs⟩ = n ++ t!" { " ++ (fieldT f ++ fs.flatMap fun f => ' ' :: fieldT f) ++ t!" }" := by
  simp [write, fieldT]

theorem writable_of {n : Str} {fs : List (Str × Str)} (keys : List Str) (e : fs.map Prod.fst = keys)
    (h : IsName n ∧ (∀ k ∈ keys, IsName k) ∧ keys.Nodup) : Writable ⟨n, fs⟩ := by
  subst e
  refine ⟨h.1, ?_, h.2.2⟩
  intro f hf
  exact h.2.1 _ (List.mem_map_of_mem hf)

/-- A token that the two runtimes read alike and the verbalizer reads after reordering. -/
structure Good (orders : Orders) (v : G) (k : Tok) : Prop where
  writable : Writable k
  text : ∀ f ∈ k.fields, VText f.2
  declared : ∀ d, orders k.name = some d →
    ("preserve_order".toList, "true".toList) ∈ k.fields ∨ ∀ f ∈ k.fields, f.1 ∈ d
  said : ∀ sp, (sp = [] ∨ sp = [' ']) → Takes v (write ⟨k.name, chosenFields orders k⟩ ++ sp)

theorem Good.mono {orders : Orders} {v v' : G} {k : Tok} (h : Good orders v k)
    (hv : ∀ x, Takes v x → Takes v' x) : Good orders v' k :=
  ⟨h.writable, h.text, h.declared, fun sp hsp => hv _ (h.said sp hsp)⟩

/-- A token of a type without schema. -/
theorem good_free {orders : Orders} {n : Str} {f : Str × Str} {fs : List (Str × Str)} {body : G}
    (hw : Writable ⟨n, f :: fs⟩) (ht : ∀ e ∈ f :: fs, VText e.2) (ho : orders n = none)
    (hb : Takes body (fieldT f ++ fs.flatMap fun f => ' ' :: fieldT f)) :
    Good orders (deleteTokens n body) ⟨n, f :: fs⟩ where
  writable := hw
  text := ht
  declared d hd := by rw [ho] at hd; cases hd
  said sp hsp := by
    rw [Verif.Token.chosenFields_exempt hw.2.2 (.inl ho), write_cons]
    obtain ⟨y, w, hb⟩ := hb
    exact ⟨y, w, den_deleteTokens.2 ⟨_, sp, hsp, rfl, hb⟩⟩

/-- A token that keeps its order. -/
theorem good_marked {orders : Orders} {n : Str} {f : Str × Str} {fs : List (Str × Str)} {body : G}
    (hw : Writable ⟨n, f :: fs⟩) (ht : ∀ e ∈ f :: fs, VText e.2)
    (hm : (t!"preserve_order", t!"true") ∈ f :: fs)
    (hb : Takes body (fieldT f ++ fs.flatMap fun f => ' ' :: fieldT f)) :
    Good orders (deleteTokens n body) ⟨n, f :: fs⟩ where
  writable := hw
  text := ht
  declared d hd := .inl hm
  said sp hsp := by
    rw [Verif.Token.chosenFields_exempt hw.2.2 (.inr hm), write_cons]
    obtain ⟨y, w, hb⟩ := hb
    exact ⟨y, w, den_deleteTokens.2 ⟨_, sp, hsp, rfl, hb⟩⟩

/-- A token with a schema, and its fields in the order of the schema. -/
theorem good_sorted {orders : Orders} {n : Str} {fs : List (Str × Str)} {d : List Str}
    {f : Str × Str} {gs : List (Str × Str)} {body : G}
    (hw : Writable ⟨n, fs⟩) (ht : ∀ f ∈ fs, VText f.2) (ho : orders n = some d)
    (hm : ∀ f ∈ fs, f.1 ≠ t!"preserve_order") (hd : ∀ f ∈ fs, f.1 ∈ d)
    (hs : Verif.Token.Spec.canonical d fs = f :: gs)
    (hb : Takes body (fieldT f ++ gs.flatMap fun f => ' ' :: fieldT f)) :
    Good orders (deleteTokens n body) ⟨n, fs⟩ where
  writable := hw
  text := ht
  declared d' hd' := by
    rw [ho] at hd'
    cases hd'
    exact .inr hd
  said sp hsp := by
    rw [Verif.Token.chosenFields_canonical hw.2.2 ho (fun h => hm _ h rfl), hs, write_cons]
    obtain ⟨y, w, hb⟩ := hb
    exact ⟨y, w, den_deleteTokens.2 ⟨_, sp, hsp, rfl, hb⟩⟩

/-- A token with a schema whose fields have these names. -/
macro "sorted_by " d:term ", " ks:term ", " f:term ", " gs:term : tactic =>
  `(tactic| refine good_sorted (d := $d) (f := $f) (gs := $gs) (writable_of $ks rfl (by decide))
      (by simp [*]) (by decide +kernel) (by simp) (by simp) (by simp [Verif.Token.Spec.canonical]) ?_)

/-! ### Escapes -/

theorem clean_esc_append {v r : Str} : CleanEscapes (esc v ++ r) ↔ CleanEscapes r := by
  induction v with
  | nil => rfl
  | cons c v ih =>
    rw [esc_cons]
    by_cases h : c = '"' ∨ c = '\\'
    · rw [if_pos h, List.append_assoc]
      show CleanEscapes ('\\' :: c :: (esc v ++ r)) ↔ _
      rw [clean_escape, ih]
      exact ⟨fun h => h.2, fun h' => ⟨h, h'⟩⟩
    · rw [if_neg h, List.append_assoc]
      show CleanEscapes (c :: (esc v ++ r)) ↔ _
      rw [clean_plain (fun e => h (.inr e)), ih]

theorem name_clean {n : Str} (h : IsName n) : ∀ c ∈ n, c ≠ '\\' := by
  rintro c hc rfl
  have := h.2 _ hc
  revert this; decide

theorem clean_fieldT {f : Str × Str} (h : IsName f.1) {r : Str} :
    CleanEscapes (fieldT f ++ r) ↔ CleanEscapes r := by
  unfold fieldT
  rw [List.append_assoc, List.append_assoc, List.append_assoc, clean_append (name_clean h),
    clean_append (by decide), clean_esc_append, clean_append (by decide)]

theorem clean_write {k : Tok} (h : Writable k) {r : Str} :
    CleanEscapes (write k ++ r) ↔ CleanEscapes r := by
  obtain ⟨n, fs⟩ := k
  have key : ∀ fs : List (Str × Str), (∀ f ∈ fs, IsName f.1) → ∀ r : Str,
      CleanEscapes ((fs.flatMap fun f => ' ' :: fieldT f) ++ r) ↔ CleanEscapes r := by
    intro fs
    induction fs with
    | nil => intro _ r; rfl
    | cons f fs ih =>
      intro hf r
      rw [List.flatMap_cons, List.append_assoc, List.cons_append, clean_plain (by decide),
        clean_fieldT (hf f (by simp)), ih fun g hg => hf g (by simp [hg])]
  have e : write ⟨n, fs⟩ = n ++ (t!" {" ++ ((fs.flatMap fun f => ' ' :: fieldT f) ++ t!" }")) := by
    simp [write, fieldT]
  rw [e]
  simp only [List.append_assoc]
  rw [clean_append (name_clean h.1), clean_append (by decide), key fs h.2.1, clean_append (by decide)]

/-! ### Taggers -/

/-- A written token, possibly with additional spaces. -/
structure Written (orders : Orders) (v : G) (b : Str) (k : Tok) : Prop where
  block : Block b k
  clean : ∀ r, CleanEscapes (b ++ r) ↔ CleanEscapes r
  good : Good orders v k

theorem Good.written {orders : Orders} {v : G} {k : Tok} (h : Good orders v k) :
    Written orders v (write k) k :=
  ⟨Verif.Token.block_write h.writable.1 h.writable.2.1, fun _ => clean_write h.writable, h⟩

/-- The outputs of a grammar are tokens that the verbalizer reads. -/
def Utters (orders : Orders) (v g : G) : Prop :=
  ∀ t, Gives g t → ∃ (bs : List Str) (ks : List Tok), ks ≠ [] ∧ t = spacedB bs ∧
    List.Forall₂ (Written orders v) bs ks

theorem Utters.mono {orders : Orders} {v v' g : G} (h : Utters orders v g)
    (hv : ∀ x, Takes v x → Takes v' x) : Utters orders v' g := by
  intro t ht
  obtain ⟨bs, ks, h1, h2, h3⟩ := h t ht
  exact ⟨bs, ks, h1, h2, h3.imp fun _ _ h => ⟨h.block, h.clean, h.good.mono hv⟩⟩

/-- A tagger of single tokens. -/
theorem utters_token {orders : Orders} {v : G} {n : Str} {body : G}
    (h : ∀ m, Gives body m → ∃ f fs, m = fieldT f ++ (fs.flatMap fun f => ' ' :: fieldT f) ∧
      Good orders v ⟨n, f :: fs⟩) : Utters orders v (addTokens n body) := by
  rintro t ⟨x, w, hd⟩
  obtain ⟨m, rfl, hm⟩ := den_addTokens.1 hd
  obtain ⟨f, fs, rfl, hg⟩ := h m ⟨_, _, hm⟩
  refine ⟨[write ⟨n, f :: fs⟩], [⟨n, f :: fs⟩], by simp, ?_, .cons hg.written .nil⟩
  rw [write_cons]
  simp [spacedB]

theorem Utters.add {orders : Orders} {v a b : G} (ha : Utters orders v a) (hb : Utters orders v b) :
    Utters orders v (a + b) := by
  intro t ht
  obtain ⟨t₁, t₂, h1, h2, rfl⟩ := gives_add.1 ht
  obtain ⟨bs, ks, h11, rfl, h13⟩ := ha _ h1
  obtain ⟨cs, ls, h21, rfl, h23⟩ := hb _ h2
  exact ⟨bs ++ cs, ks ++ ls, by simp [h11], by simp [spacedB], List.rel_append h13 h23⟩

theorem Utters.or {orders : Orders} {v a b : G} (ha : Utters orders v a) (hb : Utters orders v b) :
    Utters orders v (a ||| b) := by
  intro t ht
  rcases gives_or.1 ht with h | h
  · exact ha _ h
  · exact hb _ h

theorem Utters.add_ques {orders : Orders} {v a b : G} (ha : Utters orders v a) (hb : Utters orders v b) :
    Utters orders v (a + b.ques) := by
  intro t ht
  obtain ⟨t₁, t₂, h1, h2, rfl⟩ := gives_add.1 ht
  rcases gives_ques.1 h2 with rfl | h2
  · simpa using ha _ h1
  · exact ha.add hb _ (gives_add.2 ⟨_, _, h1, h2, rfl⟩)

/-- Each rule's tokens are read by its own verbalizer or by that of another rule. -/
theorem utters_union {orders : Orders} {specs : List RuleSpec} {u v : G} (hu : taggerUnion specs = some u)
    (hs : ∀ s ∈ specs, s.taggerWeight.isSome = true → Utters orders v s.rule.tagger) : Utters orders v u := by
  rintro t ⟨x, w, hd⟩
  obtain ⟨s, hmem, k, w₀, hk, h0, _⟩ := ((tagger_union specs).2 u hu x t w).1 hd
  exact hs s hmem (by rw [hk]; rfl) t ⟨_, _, h0⟩

theorem takes_union {specs : List RuleSpec} {v : G} (h : verbalizerUnion specs = some v) {s : RuleSpec}
    (hs : s ∈ specs) (hv : s.verbalize = true) (x : Str) (hd : Takes s.rule.verbalizer x) : Takes v x := by
  obtain ⟨y, w, hd⟩ := hd
  exact ⟨y, w, verb_union h hs hv hd⟩

theorem star_utters {orders : Orders} {v g : G} (hg : Utters orders v g) {x t : Str} {w : W}
    (h : Star g.den x t w) : ∃ (bs : List Str) (ks : List Tok), t = spacedB bs ∧
      List.Forall₂ (Written orders v) bs ks ∧ (ks = [] → x = []) := by
  induction h with
  | nil => exact ⟨[], [], rfl, .nil, fun _ => rfl⟩
  | @cons x y w x' y' w' h1 h2 ih =>
    obtain ⟨bs, ks, h11, rfl, h12⟩ := hg _ ⟨_, _, h1⟩
    obtain ⟨cs, ls, rfl, h22, _⟩ := ih
    exact ⟨bs ++ cs, ks ++ ls, by simp [spacedB], List.rel_append h12 h22, by simp [h11]⟩

/-- The text of a written token stream without additional spaces at its ends. -/
theorem clean_blocks {orders : Orders} {v : G} {bs : List Str} {ks : List Tok}
    (h : List.Forall₂ (Written orders v) bs ks) {t : Str} (ht : spacedB bs = t ++ [' ']) : CleanEscapes t := by
  have h1 : ∀ r, CleanEscapes (spacedB bs ++ r) ↔ CleanEscapes r := by
    clear ht
    induction h with
    | nil => intro r; rfl
    | @cons b k bs ks hb _ ih =>
      intro r
      rw [show spacedB (b :: bs) ++ r = b ++ (' ' :: (spacedB bs ++ r)) by simp [spacedB], hb.clean,
        clean_plain (by decide), ih]
  have h2 : ∀ (t : Str) (b : Bool), Verif.Cpp.cleanFrom b (t ++ [' ']) = true → Verif.Cpp.cleanFrom b t = true := by
    intro t
    induction t with
    | nil => intro b hb; cases b <;> revert hb <;> decide
    | cons c t ih =>
      intro b hb
      cases b
      · exact ih _ hb
      · rw [List.cons_append, Verif.Cpp.cleanFrom, Bool.and_eq_true] at hb
        rw [Verif.Cpp.cleanFrom, Bool.and_eq_true]
        exact ⟨hb.1, ih _ hb.2⟩
  refine h2 t false ?_
  rw [← ht]
  have := (h1 []).2 (by rfl)
  rw [List.append_nil] at this
  exact this

theorem takes_writeAll {orders : Orders} {v : G} {ks : List Tok} (hne : ks ≠ [])
    (h : ∀ k ∈ ks, Good orders v k) :
    Takes (.star v) (writeAll (ks.map fun k => ⟨k.name, chosenFields orders k⟩)) := by
  induction ks with
  | nil => exact absurd rfl hne
  | cons k ks ih =>
    cases ks with
    | nil =>
      obtain ⟨y, w, hd⟩ := (h k (by simp)).said [] (.inl rfl)
      refine ⟨y, w, ?_⟩
      show Star v.den _ _ _
      simpa [writeAll, List.intercalate] using Star.one hd
    | cons l ls =>
      obtain ⟨y, w, hw⟩ := ih (by simp) fun k' hk' => h k' (by simp [hk'])
      obtain ⟨z, u, hd⟩ := (h k (by simp)).said [' '] (.inr rfl)
      refine ⟨z ++ y, u + w, ?_⟩
      show Star v.den _ _ _
      have := Star.cons hd hw
      simpa [writeAll, List.intercalate] using this

theorem forall₂_right {α β : Type} {R : α → β → Prop} {P : β → Prop} {l : List α} {l' : List β}
    (h : List.Forall₂ R l l') (hp : ∀ a b, R a b → P b) : ∀ b ∈ l', P b := by
  induction h with
  | nil => simp
  | cons h1 _ ih =>
    intro b hb
    rcases List.mem_cons.1 hb with rfl | hb
    · exact hp _ _ h1
    · exact ih b hb

/-- **Every tagging can be verbalized.** A tagging of a non-empty text parses, its escapes are clean,
its fields are declared, and what reordering makes of it is read by the verbalizer. -/
theorem utters_stream {orders : Orders} {v g : G} (hg : Utters orders v g) {x t : Str} {w : W}
    (hx : x ≠ []) (h : (stream g).den x t w) :
    ∃ (ks : List Tok) (toks : List Verif.Token.Token) (r : Str), Stream t ks ∧
      Verif.Token.parse t = .ok toks ∧ List.Forall₂ Verif.Token.Denotes toks ks ∧
      CleanEscapes t ∧ (∀ k ∈ ks, Good orders v k) ∧
      Verif.Token.reorder orders t = .ok r ∧ Takes (.star v) r := by
  obtain ⟨m, w₁, w₂, h1, h2, _⟩ := h
  obtain ⟨_, rfl, _⟩ := den_dropFinal.1 h2
  obtain ⟨bs, ks, rfl, h3, h4⟩ := star_utters hg h1
  have hne : ks ≠ [] := fun hk => hx (h4 hk)
  obtain ⟨t, ht, hn, hst⟩ := stream_blocks (h3.imp fun _ _ h => h.block) hne
  have hgood : ∀ k ∈ ks, Good orders v k := by
    intro k hk
    exact forall₂_right h3 (fun _ _ h => h.good) k hk
  obtain ⟨toks, hp, hd⟩ := (Verif.Token.C03_parse_iff_grammar t ks).2
    ⟨hn, hst, fun k hk => (hgood k hk).writable.2.2⟩
  rw [ht, dropFinalSpace_append]
  exact ⟨ks, toks, _, hst, hp, hd, clean_blocks h3 ht, hgood,
    Verif.Token.reorder_denotes hp hd, takes_writeAll hne hgood⟩

/-- A rule whose verbalizer reads the field without decoding. -/
theorem utters_rawValue {orders : Orders} {v g : G} {n : Str} (hn : IsName n) (ho : orders n = none)
    (hb : Bare g) (hv : ∀ x, Takes (deleteTokens n (del t!"value: \"" + g + del t!"\"")) x → Takes v x) :
    Utters orders v (addTokens n (tagField t!"value" g)) := by
  refine utters_token ?_
  intro m hm
  obtain ⟨u, rfl, hu, ht⟩ := gives_tagField.1 hm
  refine ⟨(t!"value", u), [], by simp, Good.mono (good_free ⟨hn, by simp; decide, by simp [Distinct]⟩ (by simpa using hu) ho
    (takes_raw hb ht ?_)) hv⟩
  simp [fieldT]

/-- A rule whose verbalizer decodes the field. -/
theorem utters_value {orders : Orders} {v g : G} {n : Str} (hn : IsName n) (ho : orders n = none)
    (hv : ∀ x, Takes (deleteTokens n (verbalizeField t!"value" (some g))) x → Takes v x) :
    Utters orders v (addTokens n (tagField t!"value" g)) := by
  refine utters_token ?_
  intro m hm
  obtain ⟨u, rfl, hu, ht⟩ := gives_tagField.1 hm
  refine ⟨(t!"value", u), [], by simp, Good.mono (good_free ⟨hn, by simp; decide, by simp [Distinct]⟩ (by simpa using hu) ho
    ?_) hv⟩
  simpa using takes_field hu ht

/-- The rule of single characters. -/
theorem utters_char {orders : Orders} {v : G} (ho : orders t!"char" = none)
    (hv : ∀ x, Takes (defaultVerbalizer t!"char") x → Takes v x) :
    Utters orders v (addTokens t!"char" (insert t!"value: \"" + CHAR + insert t!"\"")) := by
  refine utters_token ?_
  rintro m ⟨x, w, hd0⟩
  obtain ⟨m'', rfl, hd'⟩ := den_add_insert.1 hd0
  obtain ⟨m', rfl, hd⟩ := den_insert_add.1 hd'
  have hs : (G.star CHAR).den x m' w := by
    have := Star.one hd
    exact this
  obtain ⟨rfl, _, hx⟩ := den_CHAR_star.1 hs
  refine ⟨(t!"value", x), [], by simp [fieldT], Good.mono (good_free
    (writable_of [t!"value"] rfl (by decide)) ?_ ho ?_) hv⟩
  · simpa using hx
  · exact ⟨x, 0, den_verbalizeField.2 ⟨esc x, by simp [fieldT], den_decoded_none.2 ⟨rfl, rfl, hx⟩⟩⟩

/-! ### Post-processing -/

theorem name_vtext {n : Str} (h : IsName n) : VText n := by
  intro c hc
  have := h.2 c hc
  unfold vchar
  rw [bne_iff_ne]
  rintro rfl
  revert this; decide

theorem Good.vtext {orders : Orders} (hr : RepeatFree orders) {v : G} {k : Tok} (h : Good orders v k) :
    VText (write ⟨k.name, chosenFields orders k⟩) := by
  refine VText.of_write (name_vtext h.writable.1) ?_
  intro f hf
  have := (Verif.Token.chosenFields_perm hr h.writable.2.2).mem_iff.1 hf
  exact ⟨name_vtext (h.writable.2.1 f this), h.text f this⟩

/-- What is said of a token can be post-processed. -/
theorem Good.post {orders : Orders} (hr : RepeatFree orders) {v p : G} {k : Tok} (h : Good orders v k)
    (hv : (mustC ['\x00'] v).2 = true) (hp : ∀ y, VText y → Takes p y) : Good orders (.comp v p) k where
  writable := h.writable
  text := h.text
  declared := h.declared
  said sp hsp := by
    obtain ⟨y, w, hd⟩ := h.said sp hsp
    have hx : VText (write ⟨k.name, chosenFields orders k⟩ ++ sp) := by
      intro c hc
      rcases List.mem_append.1 hc with hc | hc
      · exact h.vtext hr c hc
      · rcases hsp with rfl | rfl
        · cases hc
        · rw [List.mem_singleton.1 hc]; rfl
    have hy : VText y := by
      intro c hc
      unfold vchar
      rw [bne_iff_ne]
      rintro rfl
      obtain ⟨d, hd1, hd2⟩ := hasAny_iff.1 ((must_both ['\x00'] v).2 hv _ _ _ hd
        (hasAny_iff.2 ⟨_, hc, by simp⟩))
      rw [List.mem_singleton.1 hd2] at hd1
      have := hx _ hd1
      revert this; decide
    obtain ⟨z, u, hz⟩ := hp y hy
    exact ⟨z, w + u, y, w, u, hd, hz, rfl⟩

theorem Utters.post {orders : Orders} (hr : RepeatFree orders) {v p g : G} (h : Utters orders v g)
    (hv : (mustC ['\x00'] v).2 = true) (hp : ∀ y, VText y → Takes p y) : Utters orders (.comp v p) g := by
  intro t ht
  obtain ⟨bs, ks, h1, h2, h3⟩ := h t ht
  exact ⟨bs, ks, h1, h2, h3.imp fun _ _ h => ⟨h.block, h.clean, h.good.post hr hv hp⟩⟩

end Verif.Wfst
