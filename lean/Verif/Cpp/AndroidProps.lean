import Verif.Cpp.AndroidSpec
import Verif.Cpp.ApiProps
import Verif.Cpp.Props

/-
Property C93: the Android binding.
-/

namespace Verif.Cpp.Android

open Verif.Cpp Verif.Cpp.Android.Spec
open Verif.Cpp.Api (Stop Proc Files cString cString_nul cut_free encAll_free verbalize_free)

/-! ### Encodings -/

theorem ofNat8 {n : Nat} (h : n < 256) : (UInt8.ofNat n).toNat = n := by
  rw [UInt8.toNat_ofNat']
  exact Nat.mod_eq_of_lt h

theorem ofNat16 {n : Nat} (h : n < 65536) : (UInt16.ofNat n).toNat = n := by
  rw [UInt16.toNat_ofNat']
  exact Nat.mod_eq_of_lt h

theorem ofNat8_inj {a b : Nat} (ha : a < 256) (hb : b < 256) (h : UInt8.ofNat a = UInt8.ofNat b) : a = b := by
  rw [← ofNat8 ha, ← ofNat8 hb, h]

theorem unit_of {n : Nat} {u : UInt16} (h : n = u.toNat) : UInt16.ofNat n = u := by
  subst h
  exact UInt16.ofNat_toNat

theorem unit_zero (u : UInt16) : 0 ∉ unitBytes u := by
  have hu : u.toNat < 65536 := u.toNat_lt
  have z : ∀ {n : Nat}, 0 < n → n < 256 → (0 : UInt8) ≠ UInt8.ofNat n := by
    intro n h1 h2 e
    have := ofNat8_inj (a := 0) (by decide) h2 e
    omega
  unfold unitBytes
  dsimp only
  split
  · rw [List.mem_singleton]; exact z (by omega) (by omega)
  · split
    · simp only [List.mem_cons, List.not_mem_nil, or_false, not_or]
      exact ⟨z (by omega) (by omega), z (by omega) (by omega)⟩
    · simp only [List.mem_cons, List.not_mem_nil, or_false, not_or]
      exact ⟨z (by omega) (by omega), z (by omega) (by omega), z (by omega) (by omega)⟩

theorem units_zero (s : JString) : 0 ∉ s.flatMap unitBytes := by
  intro h
  obtain ⟨u, -, h⟩ := List.mem_flatMap.1 h
  exact unit_zero u h

theorem decode_cons (a : UInt8) (s : Bytes) : decode (a :: s) =
    if a.toNat < 0x80 then (decode s).map (UInt16.ofNat a.toNat :: ·)
    else if a.toNat / 32 = 6 then
      match s with
      | b :: s => if b.toNat / 64 = 2 then (decode s).map (UInt16.ofNat (a.toNat % 32 * 64 + b.toNat % 64) :: ·) else none
      | [] => none
    else if a.toNat / 16 = 14 then
      match s with
      | b :: c :: s =>
        if b.toNat / 64 = 2 ∧ c.toNat / 64 = 2 then
          (decode s).map (UInt16.ofNat (a.toNat % 16 * 4096 + b.toNat % 64 * 64 + c.toNat % 64) :: ·)
        else none
      | _ => none
    else none := by
  rw [decode.eq_def]
  rfl

theorem decode_unit (u : UInt16) (s : Bytes) : decode (unitBytes u ++ s) = (decode s).map (u :: ·) := by
  have hu : u.toNat < 65536 := u.toNat_lt
  unfold unitBytes
  dsimp only
  split
  · rw [List.singleton_append, decode_cons, ofNat8 (by omega), if_pos (by omega), unit_of rfl]
  · split
    · rw [List.cons_append, decode_cons, ofNat8 (by omega), if_neg (by omega), if_pos (by omega), List.cons_append, List.nil_append]
      simp only [ofNat8 (show u.toNat % 64 + 128 < 256 by omega)]
      rw [if_pos (by omega), unit_of (u := u) (by omega)]
    · rw [List.cons_append, decode_cons, ofNat8 (by omega), if_neg (by omega), if_neg (by omega), if_pos (by omega), List.cons_append,
        List.cons_append, List.nil_append]
      simp only [ofNat8 (show u.toNat % 64 + 128 < 256 by omega), ofNat8 (show u.toNat / 64 % 64 + 128 < 256 by omega)]
      rw [if_pos (by omega), unit_of (u := u) (by omega)]

theorem decode_units (s : JString) : decode (s.flatMap unitBytes) = some s := by
  induction s with
  | nil => rw [List.flatMap_nil, decode]
  | cons u s ih => rw [List.flatMap_cons, decode_unit, ih]; rfl

theorem plain_unit {c : Char} (h : 0 < c.toNat ∧ c.toNat < 0x10000) : ∃ u, units c = [u] ∧ unitBytes u = enc c := by
  refine ⟨UInt16.ofNat c.toNat, by rw [units, if_pos h.2], ?_⟩
  unfold unitBytes enc String.utf8EncodeChar
  dsimp only
  rw [ofNat16 h.2]
  have e : c.val.toNat = c.toNat := rfl
  rw [e]
  by_cases h1 : c.toNat ≤ 127
  · rw [if_pos ⟨by omega, h1⟩, if_pos h1]
  · rw [if_neg (by omega), if_neg h1]
    by_cases h2 : c.toNat ≤ 2047
    · rw [if_pos h2, if_pos h2, Nat.mod_eq_of_lt (a := c.toNat / 64) (by omega)]
    · rw [if_neg h2, if_neg h2, if_pos (by omega), Nat.mod_eq_of_lt (a := c.toNat / 4096) (by omega)]

theorem plain_bytes {x : List Char} (h : Plain x) : (utf16 x).flatMap unitBytes = encAll x := by
  induction x with
  | nil => rfl
  | cons c x ih =>
    obtain ⟨u, h1, h2⟩ := plain_unit (h c (by simp))
    rw [utf16, List.flatMap_cons, h1, List.singleton_append, List.flatMap_cons, h2, encAll_cons]
    congr 1
    exact ih fun d hd => h d (by simp [hd])

theorem enc_prefix {c c' : Char} {s s' : Bytes} (h : enc c ++ s = enc c' ++ s') : c = c' ∧ s = s' := by
  have ha := @ByteArray.utf8DecodeChar?_utf8EncodeChar_append s.toByteArray c
  have hb := @ByteArray.utf8DecodeChar?_utf8EncodeChar_append s'.toByteArray c'
  rw [← List.toByteArray_append] at ha hb
  simp only [enc] at h
  rw [h, hb] at ha
  obtain rfl := Option.some.inj ha
  exact ⟨rfl, List.append_cancel_left h⟩

/-- **C93.** What the processors get is the text in UTF-8 exactly when every character but NUL needs one code unit; for
other texts, as those with emoji, it is not UTF-8 at all. -/
theorem C93_utf8 (x x' : List Char) : getStringUTFChars (utf16 x) = encAll x' ++ [0] ↔ Plain x ∧ x' = x := by
  constructor
  · intro h
    replace h := List.append_cancel_right h
    induction x generalizing x' with
    | nil =>
      cases x' with
      | nil => exact ⟨by simp [Plain], rfl⟩
      | cons c x' =>
        rw [encAll_cons] at h
        have := (List.append_eq_nil_iff.1 h.symm).1
        exact absurd this (enc_ne_nil c)
    | cons c x ih =>
      rw [utf16, List.flatMap_cons, List.flatMap_append] at h
      cases x' with
      | nil =>
        exfalso
        have h1 := (List.append_eq_nil_iff.1 h).1
        unfold units at h1
        split at h1
        · unfold unitBytes at h1
          dsimp only at h1
          rw [List.flatMap_cons, List.flatMap_nil, List.append_nil] at h1
          split at h1
          · cases h1
          · split at h1 <;> cases h1
        · rw [List.flatMap_cons] at h1
          have h1 := (List.append_eq_nil_iff.1 h1).1
          unfold unitBytes at h1
          dsimp only at h1
          split at h1
          · cases h1
          · split at h1 <;> cases h1
      | cons c' x' =>
        rw [encAll_cons] at h
        by_cases hc : 0 < c.toNat ∧ c.toNat < 0x10000
        · obtain ⟨u, h1, h2⟩ := plain_unit hc
          rw [h1, List.flatMap_cons, List.flatMap_nil, List.append_nil, h2] at h
          obtain ⟨rfl, h'⟩ := enc_prefix h
          obtain ⟨h3, rfl⟩ := ih x' h'
          refine ⟨fun d hd => ?_, rfl⟩
          rcases List.mem_cons.1 hd with rfl | hd
          · exact hc
          · exact h3 d hd
        · exfalso
          have hv' : c'.toNat < 0xd800 ∨ 0xdfff < c'.toNat ∧ c'.toNat < 0x110000 := c'.valid
          have hv : c.toNat < 0x110000 := by
            rcases c.valid with h | h
            · exact Nat.lt_trans h (by decide)
            · exact h.2
          have hb : ∃ b0 b1 r, (units c).flatMap unitBytes = UInt8.ofNat b0 :: UInt8.ofNat b1 :: r ∧
              (b0 = 192 ∨ b0 = 237 ∧ 160 ≤ b1 ∧ b1 < 256) := by
            by_cases h0 : c.toNat = 0
            · refine ⟨192, 128, [], ?_, .inl rfl⟩
              rw [units, if_pos (by omega), h0]
              decide
            · rw [units, if_neg (by omega), List.flatMap_cons]
              have e1 : (UInt16.ofNat (0xd800 + (c.toNat - 0x10000) / 0x400)).toNat = 0xd800 + (c.toNat - 0x10000) / 0x400 :=
                ofNat16 (by omega)
              generalize UInt16.ofNat (0xd800 + (c.toNat - 0x10000) / 0x400) = u at e1
              rw [unitBytes]
              rw [if_neg (by omega), if_neg (by omega)]
              exact ⟨_, _, _, rfl, .inr ⟨by omega, by omega, by omega⟩⟩
          obtain ⟨b0, b1, r, hb, hb'⟩ := hb
          have e : c'.val.toNat = c'.toNat := rfl
          rw [hb] at h
          unfold enc String.utf8EncodeChar at h
          dsimp only at h
          rw [e] at h
          split at h
          · have := ofNat8_inj (by omega) (by omega) (List.cons.inj h).1
            omega
          · split at h
            · have := ofNat8_inj (by omega) (by omega) (List.cons.inj h).1
              omega
            · split at h
              · have h1 := ofNat8_inj (by omega) (by omega) (List.cons.inj h).1
                have h2 := ofNat8_inj (by omega) (by omega) (List.cons.inj (List.cons.inj h).2).1
                omega
              · have := ofNat8_inj (by omega) (by omega) (List.cons.inj h).1
                omega
  · rintro ⟨h, rfl⟩
    rw [getStringUTFChars, plain_bytes h]

/-- Characters outside the basic plane are not read by `NewStringUTF`. -/
theorem decode_plane {y : List Char} (h0 : '\x00' ∉ y) (h : ¬ Plain y) : decode (encAll y) = none := by
  induction y with
  | nil => exact absurd (by simp [Plain]) h
  | cons c y ih =>
    have hc0 : 0 < c.toNat := by
      rcases Nat.eq_zero_or_pos c.toNat with h | h
      · exact absurd (Char.toNat_inj.1 (h.trans (by decide : 0 = '\x00'.toNat))) (fun e => h0 (by simp [e]))
      · exact h
    rw [encAll_cons]
    by_cases hc : c.toNat < 0x10000
    · obtain ⟨u, -, h2⟩ := plain_unit ⟨hc0, hc⟩
      rw [← h2, decode_unit, ih (fun hm => h0 (by simp [hm])) fun hp => h ?_]
      · rfl
      · intro d hd
        rcases List.mem_cons.1 hd with rfl | hd
        · exact ⟨hc0, hc⟩
        · exact hp d hd
    · unfold enc String.utf8EncodeChar
      dsimp only
      have e : c.val.toNat = c.toNat := rfl
      rw [e, if_neg (by omega), if_neg (by omega), if_neg (by omega), List.cons_append, decode_cons, ofNat8 (by omega),
        if_neg (by omega), if_neg (by omega), if_neg (by omega)]

theorem new_string {y : List Char} (h : Plain y) : newStringUTF (encAll y) = .ok (utf16 y) := by
  have h0 : 0 ∉ encAll y := by
    rw [← plain_bytes h]
    exact units_zero _
  rw [newStringUTF, cString_nul, cut_free h0]
  dsimp only
  rw [← plain_bytes h, decode_units]

/-! ### Sessions -/

theorem zhItn_type (d : Bytes) : parseTypeOf (d ++ lit "/zh_itn_tagger.fst") =
    some (if lit "zh_tn_" <:+: d then .zhTn else .zhItn) := by
  have e : lit "/zh_itn_tagger.fst" = 0x2F :: lit "zh_itn_tagger.fst" := by decide +kernel
  have h1 : lit "zh_tn_" <:+: d ++ lit "/zh_itn_tagger.fst" ↔ lit "zh_tn_" <:+: d := by
    constructor
    · intro h
      rw [e] at h
      rcases infix_slash (by decide +kernel) h with h | h
      · exact h
      · exact absurd h (by decide +kernel)
    · rintro ⟨a, b, h⟩
      exact ⟨a, b ++ lit "/zh_itn_tagger.fst", by rw [← h]; simp⟩
  have h2 : lit "zh_itn_" <:+: d ++ lit "/zh_itn_tagger.fst" :=
    ⟨d ++ lit "/", lit "tagger.fst", by
      have : lit "/zh_itn_tagger.fst" = lit "/" ++ (lit "zh_itn_" ++ lit "tagger.fst") := by decide +kernel
      rw [this]; simp⟩
  unfold parseTypeOf
  by_cases h : lit "zh_tn_" <:+: d
  · rw [if_pos (find_isSome_iff.2 (h1.2 h)), if_pos h]
  · rw [if_neg (fun h' => h (h1.1 (find_isSome_iff.1 h'))), if_pos (find_isSome_iff.2 h2), if_neg h]

theorem zhTn_type (d : Bytes) : parseTypeOf (d ++ lit "/zh_tn_tagger.fst") = some .zhTn := by
  have h2 : lit "zh_tn_" <:+: d ++ lit "/zh_tn_tagger.fst" :=
    ⟨d ++ lit "/", lit "tagger.fst", by
      have : lit "/zh_tn_tagger.fst" = lit "/" ++ (lit "zh_tn_" ++ lit "tagger.fst") := by decide +kernel
      rw [this]; simp⟩
  unfold parseTypeOf
  rw [if_pos (find_isSome_iff.2 h2)]

/-- **C93.** `init` always returns. The processors use the files of the directory. The text normalizer has the field
orders of Chinese text normalization, the inverse normalizer those of Chinese inverse normalization unless the name of the
directory has "zh_tn_" in it. -/
theorem C93_init (files : Files) (st : State) (dir : List Char) (hd : Plain dir) : ∃ st', step files st (.init (utf16 dir)) = .ok (none, st') ∧
    st'.tn = some ⟨.zhTn, files (encAll dir ++ lit "/zh_tn_tagger.fst"), files (encAll dir ++ lit "/zh_tn_verbalizer.fst")⟩ ∧
    st'.itn = some ⟨if lit "zh_tn_" <:+: encAll dir then .zhTn else .zhItn, files (encAll dir ++ lit "/zh_itn_tagger.fst"),
      files (encAll dir ++ lit "/zh_itn_verbalizer.fst")⟩ := by
  have h0 : 0 ∉ encAll dir := by
    rw [← plain_bytes hd]
    exact units_zero _
  refine ⟨⟨some ⟨.zhTn, _, _⟩, some ⟨_, _, _⟩, getStringUTFChars (utf16 dir) :: st.arrays⟩, ?_, rfl, rfl⟩
  rw [step, init, getStringUTFChars, plain_bytes hd]
  rw [cString_nul, cut_free h0]
  simp only [Proc.new, zhTn_type, zhItn_type]

theorem proc_writes {files : Files} {ty : ParseType} {tp vp x y : Bytes} {f g : Bytes → Bytes} (hf : files tp = some f)
    (hg : files vp = some g) (hn : Cpp.normalize ty f g x = .ok y) :
    Proc.tag ⟨ty, files tp, files vp⟩ x = .ok (Cpp.tag f x) ∧ Proc.verbalize ⟨ty, files tp, files vp⟩ (Cpp.tag f x) = .ok y := by
  constructor
  · unfold Proc.tag Cpp.tag
    rw [hf]
    split <;> rfl
  · unfold Cpp.normalize at hn
    unfold Proc.verbalize
    rw [hg]
    split
    · rename_i e
      rw [e] at hn
      simpa [Cpp.verbalize] using hn
    · simp only [hn]

theorem process_writes {files : Files} {ty : ParseType} {tp vp : Bytes} {x y : List Char} (hx : Plain x) (hy : Plain y)
    (h : Writes files ty tp vp x y) (st : State) :
    process (some ⟨ty, files tp, files vp⟩) st (utf16 x) = .ok (utf16 y, { st with arrays := (encAll x ++ [0]) :: st.arrays }) := by
  obtain ⟨f, g, hf, hg, hn⟩ := h
  have h0 : 0 ∉ encAll x := by
    rw [← plain_bytes hx]
    exact units_zero _
  obtain ⟨ht, hv⟩ := proc_writes hf hg hn
  rw [process, getStringUTFChars, plain_bytes hx]
  dsimp only
  rw [cString_nul, cut_free h0]
  simp only [ht, hv, new_string hy]

theorem run_snoc (files : Files) (c : Call) (cs : List Call) : ∀ (st : State), run files st (cs ++ [c]) =
    match run files st cs with
    | .error e => .error e
    | .ok (rs, st') =>
      match step files st' c with
      | .error e => .error e
      | .ok (r, st'') => .ok (rs ++ [r], st'') := by
  induction cs with
  | nil =>
    intro st
    simp only [List.nil_append, run]
    cases step files st c <;> rfl
  | cons c' cs ih =>
    intro st
    rw [List.cons_append, run, run]
    cases step files st c' with
    | error e => rfl
    | ok p =>
      simp only [ih]
      cases run files p.2 cs with
      | error e => rfl
      | ok q =>
        simp only
        cases step files q.2 c <;> rfl

/-- The processors in a session. -/
theorem session_state {files : Files} {cs : List Call} {d : Option (List Char)} {rs : List (Option JString)} (h : Session files cs d rs) :
    ∃ st, run files start cs = .ok (rs, st) ∧ ∀ dir, d = some dir →
      st.tn = some ⟨.zhTn, files (encAll dir ++ lit "/zh_tn_tagger.fst"), files (encAll dir ++ lit "/zh_tn_verbalizer.fst")⟩ ∧
      st.itn = some ⟨.zhItn, files (encAll dir ++ lit "/zh_itn_tagger.fst"), files (encAll dir ++ lit "/zh_itn_verbalizer.fst")⟩ := by
  induction h with
  | start => exact ⟨start, rfl, fun dir h => by cases h⟩
  | @init cs rs d dir _ hp hn ih =>
    obtain ⟨st, h1, -⟩ := ih
    obtain ⟨st', h2, h3, h4⟩ := C93_init files st dir hp
    refine ⟨st', by rw [run_snoc, h1]; simp only [h2], ?_⟩
    rintro _ ⟨⟩
    rw [if_neg hn] at h4
    exact ⟨h3, h4⟩
  | @normalize cs rs dir x y _ hx hy hw ih =>
    obtain ⟨st, h1, h2⟩ := ih
    obtain ⟨h3, h4⟩ := h2 dir rfl
    have h5 := process_writes hx hy hw st
    rw [← h3] at h5
    refine ⟨{ st with arrays := (encAll x ++ [0]) :: st.arrays }, by rw [run_snoc, h1]; simp only [step, h5], ?_⟩
    rintro _ ⟨⟩
    exact ⟨h3, h4⟩
  | @inverseNormalize cs rs dir x y _ hx hy hw ih =>
    obtain ⟨st, h1, h2⟩ := ih
    obtain ⟨h3, h4⟩ := h2 dir rfl
    have h5 := process_writes hx hy hw st
    rw [← h4] at h5
    refine ⟨{ st with arrays := (encAll x ++ [0]) :: st.arrays }, by rw [run_snoc, h1]; simp only [step, h5], ?_⟩
    rintro _ ⟨⟩
    exact ⟨h3, h4⟩

/-- **C93.** In a session every call returns what the C++ runtime writes for the text with the files of the last `init`,
and the whole of it. -/
theorem C93_session (files : Files) (cs : List Call) (d : Option (List Char)) (rs : List (Option JString)) (h : Session files cs d rs) :
    ∃ st, run files start cs = .ok (rs, st) := by
  obtain ⟨st, h, -⟩ := session_state h
  exact ⟨st, h⟩

/-- **C93.** Any string, also with NUL, emoji or halves of surrogate pairs, that a machine copies comes back as it was: what
`GetStringUTFChars` makes of a string is read by `NewStringUTF` as the string. -/
theorem C93_copied (files : Files) (st : State) (ty : ParseType) (tp vp : Bytes) (f g : Bytes → Bytes) (hf : files tp = some f)
    (hg : files vp = some g) (ht : st.tn = some ⟨ty, files tp, files vp⟩) (s r : JString) (b b' : Bytes)
    (hb : getStringUTFChars s = b ++ [0]) (hb' : getStringUTFChars r = b' ++ [0]) (hn : Cpp.normalize ty f g b = .ok b') :
    ∃ st', step files st (.normalize s) = .ok (some r, st') := by
  have e : s.flatMap unitBytes = b := List.append_cancel_right hb
  have e' : r.flatMap unitBytes = b' := List.append_cancel_right hb'
  obtain ⟨h1, h2⟩ := proc_writes hf hg hn
  have h3 : newStringUTF b' = .ok r := by
    rw [newStringUTF, cString_nul, cut_free (e' ▸ units_zero r), ← e']
    simp only [decode_units]
  refine ⟨{ st with arrays := (b ++ [0]) :: st.arrays }, ?_⟩
  rw [step, process, hb, ht]
  dsimp only
  rw [cString_nul, cut_free (e ▸ units_zero s)]
  simp only [h1, h2, h3]

/-! ### What goes wrong -/

/-- **C93.** Before `init` every other call is undefined. -/
theorem C93_before_init (files : Files) (s : JString) (cs : List Call) : run files start (.normalize s :: cs) = .error .undefined ∧
    run files start (.inverseNormalize s :: cs) = .error .undefined := by
  have h : process none start s = .error .undefined := by
    rw [process, getStringUTFChars]
    dsimp only
    rw [cString_nul]
  constructor
  · simp only [run, step, start, h]
    rw [show process none ⟨none, none, []⟩ s = .error .undefined from h]
  · simp only [run, step, start]
    rw [show process none ⟨none, none, []⟩ s = .error .undefined from h]

/-- **C93.** Every call leaks an array: none is ever released. -/
theorem C93_leak (files : Files) (cs : List Call) (st st' : State) (rs : List (Option JString)) (h : run files st cs = .ok (rs, st')) :
    st'.arrays.length = st.arrays.length + cs.length := by
  have one : ∀ {st st' : State} {c : Call} {r : Option JString}, step files st c = .ok (r, st') → st'.arrays.length = st.arrays.length + 1 := by
    have hp : ∀ {p : Option Proc} {st st' : State} {s r : JString}, process p st s = .ok (r, st') → st'.arrays.length = st.arrays.length + 1 := by
      intro p st st' s r h
      unfold process at h
      dsimp only at h
      repeat' split at h
      all_goals first | cases h; rfl | cases h
    intro st st' c r h
    cases c with
    | init d =>
      simp only [step] at h
      split at h
      · cases h
      · rename_i h1
        cases h
        unfold init at h1
        dsimp only at h1
        repeat' split at h1
        all_goals first | cases h1; rfl | cases h1
    | normalize s =>
      simp only [step] at h
      split at h
      · cases h
      · rename_i h1
        cases h
        exact hp h1
    | inverseNormalize s =>
      simp only [step] at h
      split at h
      · cases h
      · rename_i h1
        cases h
        exact hp h1
  induction cs generalizing st rs with
  | nil => simp only [run] at h; cases h; rfl
  | cons c cs ih =>
    rw [run] at h
    split at h
    · cases h
    · rename_i h1
      split at h
      · cases h
      · rename_i h2
        cases h
        have := ih _ _ h2
        rw [this, one h1, List.length_cons]
        omega

theorem process_plane {files : Files} {ty : ParseType} {tp vp : Bytes} {x y : List Char} (hx : Plain x) (hy : ¬ Plain y)
    (hw : Writes files ty tp vp x y) (st : State) : process (some ⟨ty, files tp, files vp⟩) st (utf16 x) = .error .undefined := by
  obtain ⟨f, g, hf, hg, hn⟩ := hw
  have h0 : 0 ∉ encAll x := by
    rw [← plain_bytes hx]
    exact units_zero _
  obtain ⟨h1, h2⟩ := proc_writes hf hg hn
  have h3 : 0 ∉ encAll y := verbalize_free hn
  have h4 : newStringUTF (encAll y) = .error .undefined := by
    rw [newStringUTF, cString_nul, cut_free h3]
    dsimp only
    rw [decode_plane (fun hm => h3 (List.mem_flatMap.2 ⟨_, hm, by decide⟩)) hy]
  rw [process, getStringUTFChars, plain_bytes hx]
  dsimp only
  rw [cString_nul, cut_free h0]
  simp only [h1, h2, h4]

/-- **C93.** If the text to be returned has a character outside the basic plane, as an emoji, the call is undefined: it
is handed to `NewStringUTF` in UTF-8, which is not modified UTF-8. -/
theorem C93_plane (files : Files) (cs : List Call) (dir : List Char) (rs : List (Option JString)) (hs : Session files cs (some dir) rs)
    (x y : List Char) (hx : Plain x) (hy : ¬ Plain y) :
    (Writes files .zhTn (encAll dir ++ lit "/zh_tn_tagger.fst") (encAll dir ++ lit "/zh_tn_verbalizer.fst") x y →
      run files start (cs ++ [.normalize (utf16 x)]) = .error .undefined) ∧
    (Writes files .zhItn (encAll dir ++ lit "/zh_itn_tagger.fst") (encAll dir ++ lit "/zh_itn_verbalizer.fst") x y →
      run files start (cs ++ [.inverseNormalize (utf16 x)]) = .error .undefined) := by
  obtain ⟨st, h1, h2⟩ := session_state hs
  obtain ⟨h3, h4⟩ := h2 dir rfl
  constructor
  · intro hw
    rw [run_snoc, h1]
    simp only [step, h3, process_plane hx hy hw st]
  · intro hw
    rw [run_snoc, h1]
    simp only [step, h4, process_plane hx hy hw st]

example : ∀ x', getStringUTFChars (utf16 "😀".toList) ≠ encAll x' ++ [0] := by
  intro x' h
  have := ((C93_utf8 _ _).1 h).1
  unfold Plain at this
  exact absurd this (by decide)

example : getStringUTFChars (utf16 "😀".toList) = [0xed, 0xa0, 0xbd, 0xed, 0xb8, 0x80, 0] := by decide +kernel

/-! A session with the machines of `sampleFiles`. -/

def sampleFiles : Files := fun path =>
  if lit "tagger.fst" <:+ path then some fun _ => lit "char { value: \"5\" }" else some fun _ => encAll "五".toList

example : Session sampleFiles [.init (utf16 "/data".toList), .normalize (utf16 "5".toList)] (some "/data".toList)
    [none, some (utf16 "五".toList)] :=
  .normalize (.init .start (by unfold Plain; decide) (by decide +kernel)) (by unfold Plain; decide) (by unfold Plain; decide)
    ⟨_, _, if_pos (by decide +kernel), if_neg (by decide +kernel), by decide +kernel⟩

end Verif.Cpp.Android
