import Verif.ZhItn.TextProps
import Verif.ZhItn.TripSpec
import Verif.ZhTn.TextProps
import Verif.JaTn.NumberProps

/-
Property C91: a Chinese text with numbers that is said and written again.
-/

namespace Verif.ZhItn

open Verif.Wfst
open Verif.ZhItn.Spec
open Verif.ZhTn.Spec (chinese)
open Verif.NBest (Pipeline normalize)

/-- The digits of a number as the text normalizer reads them. -/
theorem reads_toDigits {n : Nat} (h : n < 10 ^ 8) : ∃ ds, ZhTn.Spec.Wrote (Nat.toDigits 10 n) ds ∧ ZhTn.Spec.Readable ds ∧
    ZhTn.Spec.numOf ds = n := by
  obtain ⟨hr, hv⟩ := JaTn.readable_toDigits (n := n) (.inl h)
  refine ⟨JaTn.digitVals (Nat.toDigits 10 n), ?_, ⟨hr.1, hr.2.1, hr.2.2.1⟩, hv⟩
  unfold ZhTn.Spec.Wrote JaTn.digitVals
  rw [List.map_map]
  refine List.map_congr_left fun c hc => ?_
  obtain ⟨d, hd, rfl⟩ := isDigit_digitChar (Nat.isDigit_of_mem_toDigits (by decide) (by decide) hc)
  have : ∀ d < 10, ZhTn.Spec.digitVal (Nat.digitChar d) = some ((JaTn.Spec.digitVal (Nat.digitChar d)).getD 0) := by decide
  exact this d hd

/-- A number is said by a name that is written as the number. -/
theorem number_name {s z m : Bool} {x : Str} (h : Number s z m x) : ∃ y, ZhTn.Spec.Stands x y ∧ Stands s z m y x := by
  obtain ⟨h1, h2, h3, h4⟩ := h
  rename_i n
  obtain ⟨ds, hw, hr, hv⟩ := reads_toDigits (n := n) (by omega)
  refine ⟨chinese n, .number ?_ h4, .whole h1 h2 h3⟩
  have := ZhTn.Spec.Amount.mk hw hr .none
  rw [List.append_nil, List.append_nil, hv] at this
  exact this

/-- The texts between the numbers. -/
def Between (k : ZhTn.Config) (k' : Config) (s : Str) : Prop :=
  ZhTn.Unread s ∧ Unread s ∧ Steady k.traditionalToSimple k.fullToHalf (k.removeInterjections || k'.removeInterjections) s

theorem steady_out {k : ZhTn.Config} (hk : k.removePuncts = false ∧ k.tagOov = false) {b : Bool} {s : Str}
    (h : Steady k.traditionalToSimple k.fullToHalf (k.removeInterjections || b) s) : s.flatMap (ZhTn.out k) = s := by
  have one : ∀ c ∈ s, ZhTn.out k c = [c] := by
    intro c hc
    obtain ⟨h1, h2, h3⟩ := h c hc
    have e1 : (if k.traditionalToSimple then (ZhTn.traditionalToSimple.lookup c).getD c else c) = c := by
      split
      · rename_i h; exact h1 h
      · rfl
    have e2 : (if k.fullToHalf then (ZhTn.fullToHalf.lookup c).getD c else c) = c := by
      split
      · rename_i h; exact h2 h
      · rfl
    have e3 : (k.removeInterjections && (c == '呃' || c == '啊')) = false := by
      cases hi : k.removeInterjections with
      | false => rfl
      | true =>
        have := h3 (by rw [hi]; rfl)
        simp [this]
    unfold ZhTn.out
    simp only [e1, e2, e3, hk.1, hk.2, Bool.false_and, Bool.false_eq_true, if_false]
  clear h
  induction s with
  | nil => rfl
  | cons c s ih => rw [List.flatMap_cons, one c (by simp), ih fun c hc => one c (by simp [hc])]; rfl

theorem steady_kept {a b : Bool} {c d : Bool} {s : Str} (h : Steady a b (c || d) s) : kept d s = s := by
  unfold kept
  split
  · rename_i hd
    refine List.filter_eq_self.2 fun e he => ?_
    have := (h e he).2.2 (by rw [hd, Bool.or_true])
    simp [this]
  · rfl

theorem steady_names {a b c : Bool} {y : Str} (h : ∀ c ∈ y, c ∈ numc) : Steady a b c y := by
  have : ∀ c ∈ numc, (ZhTn.traditionalToSimple.lookup c).getD c = c ∧ (ZhTn.fullToHalf.lookup c).getD c = c ∧ c ≠ '呃' ∧ c ≠ '啊' := by
    decide +kernel
  exact fun c hc => ⟨fun _ => (this c (h c hc)).1, fun _ => (this c (h c hc)).2.1, fun _ => (this c (h c hc)).2.2⟩

/-- What is said for such a text, and that it is written as the text. -/
theorem trip_texts {k : ZhTn.Config} (hk : k.removePuncts = false ∧ k.tagOov = false) {k' : Config} {t : Str}
    (h : Trip (Number k'.standalone k'.zeroToNine k'.million) (Between k k') t) (ht : VText t) :
    ∃ z, ZhTn.Spec.Text ZhTn.Unread (ZhTn.out k) t z ∧
      Text k'.removeInterjections k'.standalone k'.zeroToNine k'.million Unread z t ∧ VText z ∧ (z = [] → t = []) ∧
      (Apart t → z.head? = t.head?) := by
  induction h with
  | @plain s hs =>
    have h1 := ZhTn.Spec.Text.plain (Plain := ZhTn.Unread) (f := ZhTn.out k) hs.1
    have h2 := Text.plain (interjections := k'.removeInterjections) (standalone := k'.standalone) (zeroToNine := k'.zeroToNine)
      (million := k'.million) (Plain := Unread) hs.2.1
    rw [steady_out hk hs.2.2] at h1
    rw [steady_kept hs.2.2] at h2
    exact ⟨s, h1, h2, ht, id, fun _ => rfl⟩
  | @number s x r hs ho hpl hn ha htr ih =>
    obtain ⟨z, i1, i2, i3, i5, i6⟩ := ih fun c hc => ht c (by simp [hc])
    obtain ⟨y, hy1, hy2⟩ := number_name hn
    have hyc : ∀ c ∈ y, c ∈ numc := by
      obtain ⟨n, rfl, h⟩ := stands_name hy2
      exact (numeral_chinese h).chars
    have hyne : y ≠ [] := by
      obtain ⟨n, rfl, h⟩ := stands_name hy2
      exact chinese_ne (n := n) (by omega)
    have h1 : ZhTn.Spec.Text ZhTn.Unread (ZhTn.out k) (s ++ x ++ r) (s.flatMap (ZhTn.out k) ++ y.flatMap (ZhTn.out k) ++ z) :=
      .number hs.1 (fun w hw => ho w (by simp [hw])) hy1 ha.1 i1
    have h2 : Text k'.removeInterjections k'.standalone k'.zeroToNine k'.million Unread (s ++ y ++ z)
        (kept k'.removeInterjections s ++ x ++ r) := by
      refine .number hs.2.1 (fun w hw => ho w ?_) hpl hy2 (fun c hc => ?_) i2
      · rw [List.append_assoc]
        exact List.mem_append_right _ hw
      · rw [i6 ha] at hc
        exact ha.2 c hc
    rw [steady_out hk hs.2.2, steady_out hk (b := false) (steady_names hyc)] at h1
    rw [steady_kept hs.2.2] at h2
    refine ⟨s ++ y ++ z, h1, h2, fun c hc => ?_, fun e => ?_, fun hap => ?_⟩
    · simp only [List.mem_append] at hc
      rcases hc with (hc | hc) | hc
      · exact ht c (by simp [hc])
      · exact vtext_numc hyc c hc
      · exact i3 c hc
    · simp only [List.append_eq_nil_iff] at e
      exact absurd e.1.2 hyne
    · cases s with
      | cons c s => rfl
      | nil =>
        exfalso
        cases hn with
        | @mk n _ _ _ _ =>
        obtain ⟨c, q, e⟩ := List.exists_cons_of_ne_nil (Nat.toDigits_ne_nil (n := n) (b := 10))
        have h3 := (hap.1 c (by rw [List.nil_append, e]; simp)).1
        obtain ⟨d, hd, rfl⟩ := isDigit_digitChar (Nat.isDigit_of_mem_toDigits (b := 10) (n := n) (c := c) (by decide) (by decide)
          (by rw [e]; simp))
        have : ∀ d < 10, ZhTn.Spec.digitVal (Nat.digitChar d) ≠ none := by decide
        exact this d hd h3

/-- **C91.** A text with numbers is said in exactly one way, and what is said is written in exactly one way: as the
text. -/
theorem C91_zh_says (k : ZhTn.Config) (hk : k.removePuncts = false ∧ k.tagOov = false)
    (k' : Config) (tg vg tg' vg' : G) (ht : ZhTn.tagger k = some tg) (hv : ZhTn.verbalizer k = some vg)
    (ht' : tagger k' = some tg') (hv' : verbalizer k' = some vg') (p p' : Pipeline W) (hr : Runs p ZhTn.tokenOrders tg vg)
    (hr' : Runs p' tokenOrders tg' vg') (t : Str) (hx : VText t)
    (h : Trip (Number k'.standalone k'.zeroToNine k'.million) (fun s => ZhTn.Unread s ∧ Unread s ∧
      Steady k.traditionalToSimple k.fullToHalf (k.removeInterjections || k'.removeInterjections) s) t) :
    ∃ z, VText z ∧ (z = [] → t = []) ∧ (∀ z', Wfst.Says p t z' ↔ z' = z) ∧ ∀ t', Wfst.Says p' z t' ↔ t' = t := by
  obtain ⟨z, i1, i2, i3, i5, _⟩ := trip_texts hk h hx
  exact ⟨z, i3, i5, fun z' => ZhTn.C84_zh_tn k tg vg ht hv p hr t z hx i1 z',
    fun t' => C90_zh_itn k' tg' vg' ht' hv' p' hr' z t i3 i2 t'⟩

/-- **C91.** So in all runs of the two normalizers, the first result of the one given to the other brings the text back,
and there are such runs. -/
theorem C91_zh_trip (k : ZhTn.Config) (hk : k.removePuncts = false ∧ k.tagOov = false)
    (k' : Config) (tg vg tg' vg' : G) (ht : ZhTn.tagger k = some tg) (hv : ZhTn.verbalizer k = some vg)
    (ht' : tagger k' = some tg') (hv' : verbalizer k' = some vg') (p p' : Pipeline W) (hr : Runs p ZhTn.tokenOrders tg vg)
    (hr' : Runs p' tokenOrders tg' vg') (t : Str) (hx : VText t) (hne : t ≠ [])
    (h : Trip (Number k'.standalone k'.zeroToNine k'.million) (fun s => ZhTn.Unread s ∧ Unread s ∧
      Steady k.traditionalToSimple k.fullToHalf (k.removeInterjections || k'.removeInterjections) s) t)
    (n m : Int) (hn : 1 ≤ n) (hm : 1 ≤ m) :
    (∃ fuel out, normalize p fuel t (.int n) = some (.ok out)) ∧
    ∀ fuel out, normalize p fuel t (.int n) = some (.ok out) → ∃ z, out.toList.head? = some z ∧
      (∃ fuel' out', normalize p' fuel' z (.int m) = some (.ok out')) ∧
      ∀ fuel' out', normalize p' fuel' z (.int m) = some (.ok out') → out'.toList.head? = some t := by
  obtain ⟨z, hz, hz0, h1, h2⟩ := C91_zh_says k hk k' tg vg tg' vg' ht hv ht' hv' p p' hr hr' t hx h
  refine ⟨ZhTn.C51_zh_tn k tg vg ht hv p hr t hx hne n hn, fun fuel out hd => ?_⟩
  obtain ⟨z', e, hs⟩ := says_first hne hd
  obtain rfl := (h1 z').1 hs
  have hzne : z' ≠ [] := fun e => hne (hz0 e)
  refine ⟨z', e, C51_zh_itn k' tg' vg' ht' hv' p' hr' z' hz hzne m hm, fun fuel' out' hd' => ?_⟩
  obtain ⟨t', e', hs'⟩ := says_first hzne hd'
  rw [e', (h2 t').1 hs']

theorem trip_openers {s : Str} (h : ((ZhTn.Spec.openers ++ openers).all fun w => !w.isSuffixOf s) = true) (hs : '每' ∉ s) :
    ∀ w ∈ ZhTn.Spec.openers ++ openers ++ each, ¬ w <:+ s := by
  intro w hw hk
  rcases List.mem_append.1 hw with hw | hw
  · have := List.all_eq_true.1 h w hw
    rw [List.isSuffixOf_iff_suffix.2 hk] at this
    cases this
  · obtain ⟨p, _, hw⟩ := List.mem_flatMap.1 hw
    obtain ⟨u, _, rfl⟩ := List.mem_map.1 hw
    exact hs (hk.subset List.mem_cons_self)

theorem number_short {n : Nat} (h : 10 ≤ n) (h' : n < 100) : Number true false false (Nat.toDigits 10 n) := by
  refine .mk rfl (.inr h) (.inl (by omega)) (ZhTn.short_row Nat.toDigits_ne_nil ?_)
  exact (Nat.length_toDigits_le_iff (by decide) (by decide)).2 h'

theorem trip_part : Trip (Number true false false) (fun s => ZhTn.Unread s ∧ Unread s ∧ Steady true true true s) t!"、86啦" := by
  have h1 : Trip (Number true false false) (fun s => ZhTn.Unread s ∧ Unread s ∧ Steady true true true s) t!"啦" :=
    .plain ⟨by decide +kernel, .easy (by decide +kernel), by unfold Steady; decide +kernel⟩
  have n1 : Number true false false t!"86" := number_short (n := 86) (by decide) (by decide)
  exact Trip.number (s := t!"、") (x := t!"86") (r := t!"啦")
    ⟨by decide +kernel, .easy (by decide +kernel), by unfold Steady; decide +kernel⟩
    (trip_openers (by decide +kernel) (by decide)) (noPlate_easy (by decide +kernel)) n1
    ⟨by intro c hc; revert c; decide +kernel, by intro c hc; revert c; decide +kernel⟩ h1

/-- For instance. -/
theorem trip_example : Trip (Number true false false) (fun s => ZhTn.Unread s ∧ Unread s ∧ Steady true true true s)
    t!"说42、86啦" := by
  have n2 : Number true false false t!"42" := number_short (n := 42) (by decide) (by decide)
  exact Trip.number (s := t!"说") (x := t!"42") (r := t!"、86啦")
    ⟨by decide +kernel, .easy (by decide +kernel), by unfold Steady; decide +kernel⟩
    (trip_openers (by decide +kernel) (by decide)) (noPlate_easy (by decide +kernel)) n2
    ⟨by intro c hc; revert c; decide +kernel, by intro c hc; revert c; decide +kernel⟩ trip_part

end Verif.ZhItn
