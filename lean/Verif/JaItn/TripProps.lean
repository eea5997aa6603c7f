import Verif.JaItn.TextProps
import Verif.JaItn.TripSpec
import Verif.JaTn.TextProps

/-
Property C89: a Japanese text with numbers that is said and written again.
-/

namespace Verif.JaItn

open Verif.Wfst
open Verif.JaItn.Spec
open Verif.NBest (Pipeline normalize)

theorem tnSee {s : Str} (h : Half s) (b : Bool) : JaTn.Spec.see b s = s := by
  unfold JaTn.Spec.see
  split
  · have : (s.map fun c => (JaTn.fullToHalf.lookup c).getD c) = s.map id :=
      List.map_congr_left fun c hc => by rw [(h c hc).1]; rfl
    rw [this, List.map_id]
  · rfl

theorem itnSee {s : Str} (h : Half s) (b : Bool) : see b s = s := by
  unfold see
  split
  · have : (s.map fun c => (fullToHalf.lookup c).getD c) = s.map id :=
      List.map_congr_left fun c hc => by rw [(h c hc).2]; rfl
    rw [this, List.map_id]
  · rfl

theorem isDigit_toDigits {n : Nat} : ∀ c ∈ Nat.toDigits 10 n, c ∈ t!"0123456789." := by
  intro c hc
  obtain ⟨d, hd, rfl⟩ := isDigit_digitChar (Nat.isDigit_of_mem_toDigits (by decide) (by decide) hc)
  have : ∀ d < 10, Nat.digitChar d ∈ t!"0123456789." := by decide
  exact this d hd

theorem number_chars {s z m : Bool} {x : Str} (h : Number s z m x) : ∀ c ∈ x, c ∈ t!"0123456789." := by
  cases h with
  | whole => exact isDigit_toDigits
  | point _ _ he _ =>
    intro c hc
    rcases List.mem_append.1 hc with hc | hc
    · exact isDigit_toDigits c hc
    · rcases List.mem_cons.1 hc with rfl | hc
      · decide
      · obtain ⟨d, hd, rfl⟩ := List.mem_map.1 hc
        have : ∀ d < 10, Nat.digitChar d ∈ t!"0123456789." := by decide
        exact this d (he d hd)

theorem number_half {s z m : Bool} {x : Str} (h : Number s z m x) : Half x := by
  have : ∀ c ∈ t!"0123456789.", JaTn.fullToHalf.lookup c = none ∧ fullToHalf.lookup c = none := by decide +kernel
  exact fun c hc => this c (number_chars h c hc)

theorem digitsWith_digits {m : Bool} {n : Nat} (h : n < 10 ^ 6 ∨ m = true ∧ n < 10 ^ 8) : digitsWith m n = Nat.toDigits 10 n := by
  unfold digitsWith; rw [if_pos h]

/-- A number is said by a name that is written as the number. -/
theorem number_name {s z m : Bool} {x : Str} (h : Number s z m x) : ∃ y, JaTn.Spec.Stands x y ∧ Stands s z m y x := by
  cases h with
  | @whole n h1 h2 h3 =>
    have h8 : n < 10 ^ 8 := by rcases h3 with h | h <;> omega
    obtain ⟨hr, hv⟩ := JaTn.readable_toDigits (n := n) (.inl h8)
    refine ⟨JaTn.Spec.japanese n, ?_, ?_⟩
    · have := JaTn.Spec.Stands.whole (JaTn.writes_toDigits n) hr
        (.inl (by simpa [JaTn.digitVals] using (Nat.length_toDigits_le_iff (by decide) (by decide)).2 h8))
      rwa [hv] at this
    · have := Stands.whole (standalone := s) (zeroToNine := z) (million := m) h1 h2 (by omega : n < 10 ^ 12)
      rwa [digitsWith_digits h3] at this
  | @point n es h1 h2 h3 h4 =>
    have h8 : n < 10 ^ 8 := by rcases h1 with h | h <;> omega
    obtain ⟨hr, hv⟩ := JaTn.readable_toDigits (n := n) (.inl h8)
    refine ⟨JaTn.Spec.japanese n ++ '点' :: es.map JaTn.Spec.digitName, ?_, ?_⟩
    · have := JaTn.Spec.Stands.point (z := es.map Nat.digitChar) (es := es) (JaTn.writes_toDigits n) hr h2 ?_ ?_
      · rwa [hv] at this
      · rw [List.map_map]
        refine List.map_congr_left fun d hd => ?_
        have : ∀ d < 10, JaTn.Spec.digitVal (Nat.digitChar d) = some d := by decide
        exact this d (h3 d hd)
      · rintro ⟨hl, hd⟩
        refine h4 ⟨?_, ?_, hd⟩
        · by_contra hn
          have := (Nat.length_toDigits_le_iff (b := 10) (k := 3) (n := n) (by decide) (by decide)).2 (by omega)
          simp only [JaTn.digitVals, List.length_map] at hl
          omega
        · have : (Nat.toDigits 10 n).length ≤ 4 := by
            simp only [JaTn.digitVals, List.length_map] at hl
            omega
          have := (Nat.length_toDigits_le_iff (b := 10) (k := 4) (n := n) (by decide) (by decide)).1 this
          omega
    · have := Stands.point (standalone := s) (zeroToNine := z) (million := m) h8 h2 h3
      rwa [digitsWith_digits h1] at this

/-- The texts between the numbers. -/
def Between (k : JaTn.Config) (k' : Config) (s : Str) : Prop := JaTn.Unread k s ∧ Unread k' s

theorem flatMap_one {f : Char → Str} {s : Str} (h : ∀ c ∈ s, f c = [c]) : s.flatMap f = s := by
  induction s with
  | nil => rfl
  | cons c s ih => rw [List.flatMap_cons, h c (by simp), ih fun c hc => h c (by simp [hc])]; rfl

theorem trip_half {k : JaTn.Config} {k' : Config} {t : Str}
    (h : Trip (Number k'.standalone k'.zeroToNine k'.million) (Between k k') t) : Half t := by
  induction h with
  | plain _ h => exact h
  | number _ h _ hn _ _ ih =>
    intro c hc
    simp only [List.mem_append] at hc
    rcases hc with (hc | hc) | hc
    · exact h c hc
    · exact number_half hn c hc
    · exact ih c hc

theorem half_names {y : Str} (h : ∀ c ∈ y, c ∈ numc) : Half y := by
  have : ∀ c ∈ numc, JaTn.fullToHalf.lookup c = none ∧ fullToHalf.lookup c = none := by decide +kernel
  exact fun c hc => this c (h c hc)

/-- What is said for such a text, and that it is written as the text. -/
theorem trip_texts {k : JaTn.Config} {k' : Config} {t : Str} {f : Char → Str}
    (hf : ∀ c, JaTn.fullToHalf.lookup c = none → f c = [c])
    (h : Trip (Number k'.standalone k'.zeroToNine k'.million) (Between k k') t) (ht : VText t) :
    ∃ z, JaTn.Spec.Text k.fullToHalf (JaTn.Unread k) f t z ∧
      Text k'.fullToHalf k'.standalone k'.zeroToNine k'.million (Unread k') z t ∧ VText z ∧ Half z ∧ (z = [] → t = []) ∧
      (Apart t → z.head? = t.head?) := by
  have one : ∀ {s : Str}, Half s → s.flatMap f = s := fun h => flatMap_one fun c hc => hf c (h c hc).1
  induction h with
  | @plain s hs hh =>
    have h1 := JaTn.Spec.Text.plain (fullWidth := k.fullToHalf) (Plain := JaTn.Unread k) (f := f) hs.1
    have h2 := Text.plain (fullWidth := k'.fullToHalf) (standalone := k'.standalone) (zeroToNine := k'.zeroToNine)
      (million := k'.million) (Plain := Unread k') hs.2
    rw [one hh] at h1
    rw [itnSee hh] at h2
    exact ⟨s, h1, h2, ht, hh, id, fun _ => rfl⟩
  | @number s x r hs hh ho hn ha htr ih =>
    obtain ⟨z, i1, i2, i3, i4, i5, i6⟩ := ih fun c hc => ht c (by simp [hc])
    obtain ⟨y, hy1, hy2⟩ := number_name hn
    have hyh := half_names hy2.numc
    have h1 : JaTn.Spec.Text k.fullToHalf (JaTn.Unread k) f (s ++ x ++ r) (s.flatMap f ++ y.flatMap f ++ z) := by
      refine .number hs.1 (fun w hw => ?_) ?_ (fun c hc => ?_) i1
      · rw [tnSee hh]
        exact ho w (List.mem_append_left _ hw)
      · rwa [tnSee (number_half hn)]
      · rw [tnSee (trip_half htr)] at hc
        exact ⟨(ha c hc).1, (ha c hc).2.1⟩
    have h2 : Text k'.fullToHalf k'.standalone k'.zeroToNine k'.million (Unread k') (s ++ y ++ z)
        (see k'.fullToHalf s ++ x ++ r) := by
      refine .number hs.2 (fun w hw => ?_) hy2 (fun c hc => ?_) i2
      · rw [itnSee hh]
        exact ho w (List.mem_append_right _ hw)
      · rw [itnSee i4, i6 ha] at hc
        exact (ha c hc).2.2
    rw [one hh, one hyh] at h1
    rw [itnSee hh] at h2
    refine ⟨s ++ y ++ z, h1, h2, fun c hc => ?_, fun c hc => ?_, fun e => ?_, fun hap => ?_⟩
    · simp only [List.mem_append] at hc
      rcases hc with (hc | hc) | hc
      · exact ht c (by simp [hc])
      · exact vtext_numc hy2.numc c hc
      · exact i3 c hc
    · simp only [List.mem_append] at hc
      rcases hc with (hc | hc) | hc
      · exact hh c hc
      · exact hyh c hc
      · exact i4 c hc
    · simp only [List.append_eq_nil_iff] at e
      exact absurd e.1.2 (stands_ne hy2)
    · cases s with
      | cons c s => rfl
      | nil =>
        obtain ⟨c, q, e, hd⟩ := hy1.first
        have := (hap c (by rw [List.nil_append, e]; simp)).1
        rw [this] at hd
        cases hd

/-- **C89.** A text with numbers is said in exactly one way, and what is said is written in exactly one way: as the
text. -/
theorem C89_ja_says (k : JaTn.Config) (hk : k.transliterate = false ∧ k.removePuncts = false ∧ k.tagOov = false)
    (k' : Config) (tg vg tg' vg' : G) (ht : JaTn.tagger k = some tg) (hv : JaTn.verbalizer k = some vg)
    (ht' : tagger k' = some tg') (hv' : verbalizer k' = some vg') (p p' : Pipeline W) (hr : Runs p JaTn.tokenOrders tg vg)
    (hr' : Runs p' tokenOrders tg' vg') (t : Str) (hx : VText t)
    (h : Trip (Number k'.standalone k'.zeroToNine k'.million) (fun s => JaTn.Unread k s ∧ Unread k' s) t) :
    ∃ z, VText z ∧ (z = [] → t = []) ∧ (∀ z', Says p t z' ↔ z' = z) ∧ ∀ t', Says p' z t' ↔ t' = t := by
  obtain ⟨h1, h2, h3⟩ := hk
  obtain ⟨z, i1, i2, i3, _, i5, _⟩ := trip_texts (f := fun c =>
      let c := if k.fullToHalf then (JaTn.fullToHalf.lookup c).getD c else c
      if k.removePuncts && (JaTn.punctsJa.contains c || isPunct c) then []
      else if k.tagOov && !JaTn.inCharset c then "<oov>".toList ++ c :: "</oov>".toList else [c])
    (fun c hc => by simp [h2, h3, hc]) h hx
  exact ⟨z, i3, i5, fun z' => JaTn.C82_ja_tn k h1 tg vg ht hv p hr t z hx i1 z',
    fun t' => C88_ja_itn k' tg' vg' ht' hv' p' hr' z t i3 i2 t'⟩

/-- **C89.** So in all runs of the two normalizers, the first result of the one given to the other brings the text back,
and there are such runs. -/
theorem C89_ja_trip (k : JaTn.Config) (hk : k.transliterate = false ∧ k.removePuncts = false ∧ k.tagOov = false)
    (k' : Config) (tg vg tg' vg' : G) (ht : JaTn.tagger k = some tg) (hv : JaTn.verbalizer k = some vg)
    (ht' : tagger k' = some tg') (hv' : verbalizer k' = some vg') (p p' : Pipeline W) (hr : Runs p JaTn.tokenOrders tg vg)
    (hr' : Runs p' tokenOrders tg' vg') (t : Str) (hx : VText t) (hne : t ≠ [])
    (h : Trip (Number k'.standalone k'.zeroToNine k'.million) (fun s => JaTn.Unread k s ∧ Unread k' s) t)
    (n m : Int) (hn : 1 ≤ n) (hm : 1 ≤ m) :
    (∃ fuel out, normalize p fuel t (.int n) = some (.ok out)) ∧
    ∀ fuel out, normalize p fuel t (.int n) = some (.ok out) → ∃ z, out.toList.head? = some z ∧
      (∃ fuel' out', normalize p' fuel' z (.int m) = some (.ok out')) ∧
      ∀ fuel' out', normalize p' fuel' z (.int m) = some (.ok out') → out'.toList.head? = some t := by
  obtain ⟨z, hz, hz0, h1, h2⟩ := C89_ja_says k hk k' tg vg tg' vg' ht hv ht' hv' p p' hr hr' t hx h
  refine ⟨JaTn.C51_ja_tn k tg vg ht hv p hr t hx hne n hn, fun fuel out hd => ?_⟩
  obtain ⟨z', e, hs⟩ := says_first hne hd
  obtain rfl := (h1 z').1 hs
  have hzne : z' ≠ [] := fun e => hne (hz0 e)
  refine ⟨z', e, C51_ja_itn k' tg' vg' ht' hv' p' hr' z' hz hzne m hm, fun fuel' out' hd' => ?_⟩
  obtain ⟨t', e', hs'⟩ := says_first hzne hd'
  rw [e', (h2 t').1 hs']

/-- For instance. -/
theorem trip_example : Trip (Number true false false) (fun s => JaTn.Unread {} s ∧ Unread {} s)
    t!"今日は12、明日は1234.5です" := by
  have h1 : Trip (Number true false false) (fun s => JaTn.Unread {} s ∧ Unread {} s) t!"です" :=
    .plain ⟨⟨by decide, by decide +kernel, fun h => by cases h⟩, by decide +kernel, by decide +kernel, by decide +kernel⟩
      (by unfold Half; decide +kernel)
  have h2 := Trip.number (s := t!"、明日は") (x := t!"1234.5") (Num := Number true false false)
    (Plain := fun s => JaTn.Unread {} s ∧ Unread {} s)
    ⟨⟨by decide, by decide +kernel, fun h => by cases h⟩, by decide +kernel, by decide +kernel, by decide +kernel⟩
    (by unfold Half; decide +kernel) (by decide +kernel)
    (.point (n := 1234) (es := [5]) (by decide) (by decide) (by decide) (by rintro ⟨_, _, _, _, h⟩; cases h))
    (by intro c hc; revert c; decide +kernel) h1
  exact Trip.number (s := t!"今日は") (x := t!"12") (Num := Number true false false)
    (Plain := fun s => JaTn.Unread {} s ∧ Unread {} s)
    ⟨⟨by decide, by decide +kernel, fun h => by cases h⟩, by decide +kernel, by decide +kernel, by decide +kernel⟩
    (by unfold Half; decide +kernel) (by decide +kernel) (.whole (n := 12) rfl (.inr (by decide)) (.inl (by decide)))
    (by intro c hc; revert c; decide +kernel) h2

end Verif.JaItn
