import Verif.Token.Lemmas2

namespace Verif.Token
open Spec (NameChar IsName Spaces Value Fields Block Stream Tok esc write writeAll Writable Distinct
  canonical Exempt)

/-! ### Repeated fields -/

theorem parseFields_append_error {s s1 s2 s3 s4 s5 : St} {tok : Token} {key value : Str} {e : Err}
    (hw : parseWs s = (true, s1)) (hc : s1.char ≠ some '}') (hk : parseKey s1 = .ok (key, s2))
    (h3 : expectChars s2 [':', ' ', '"'] = .ok s3) (h4 : parseValue s3 = .ok (value, s4))
    (h5 : expectChars s4 ['"'] = .ok s5) (ha : tok.append key value = .error e) :
    parseFields s tok = .error e := by
  rw [parseFields]
  split
  · simp_all
  · rename_i s1' hw'
    obtain rfl : s1' = s1 := by simp_all
    rw [if_neg hc]
    split
    · simp_all
    · rename_i k2 s2' hk'
      obtain ⟨rfl, rfl⟩ : k2 = key ∧ s2' = s2 := by simp_all
      split
      · simp_all
      · rename_i s3' h3'
        obtain rfl : s3' = s3 := by simp_all
        split
        · simp_all
        · rename_i v4 s4' h4'
          obtain ⟨rfl, rfl⟩ : v4 = value ∧ s4' = s4 := by simp_all
          split
          · simp_all
          · rename_i s5' h5'
            obtain rfl : s5' = s5 := by simp_all
            split <;> simp_all

theorem append_error {tok : Token} {k : Str} (v : Str) (h : tok.members.lookup k ≠ none) :
    tok.append k v = .error (.duplicateField k tok.name) := by
  unfold Token.append
  cases h' : tok.members.lookup k with
  | none => exact absurd h' h
  | some x => simp

theorem parseFields_dup {t body : Str} {fs : List (Str × Str)} (hf : Fields body fs) :
    ∀ (rest : Str) (tok : Token), body ++ rest <:+ t → ¬ CanAppend tok.members fs →
      ∃ k ∈ fs.map Prod.fst, parseFields (S t (body ++ rest)) tok =
        .error (.duplicateField k tok.name) := by
  induction hf with
  | close _ => intro rest tok _ h; exact absurd (by simp [CanAppend]) h
  | @field sp k w v rest0 fs hsp hk hv _ ih =>
    intro rest tok h hca
    have e : sp ++ (k ++ ([':', ' ', '"'] ++ (w ++ ('"' :: rest0)))) ++ rest =
        sp ++ (k ++ ([':', ' ', '"'] ++ (w ++ ('"' :: (rest0 ++ rest))))) := by simp
    rw [e] at h ⊢
    obtain ⟨c, hc1, hc2⟩ := isName_head (rest := [':', ' ', '"'] ++ (w ++ ('"' :: (rest0 ++ rest)))) hk
    have hw := parseWs_skip h hsp hc1 (by rintro rfl; simp [isKeyChar] at hc2)
    have hs1 := suffix_of_append h
    obtain ⟨ht1, ht2⟩ := takeWhile_name (rest := [':', ' ', '"'] ++ (w ++ ('"' :: (rest0 ++ rest)))) hk
      (by intro c hc; simp at hc; subst hc; decide)
    have hkey := (parseKey_S hs1 k (S t ([':', ' ', '"'] ++ (w ++ ('"' :: (rest0 ++ rest)))))).2
      ⟨hk.1, ht1.symm, by rw [ht2]⟩
    have hs2 := suffix_of_append hs1
    have h3 := (expectChars_S hs2 [':', ' ', '"'] _).2 ⟨_, rfl, rfl⟩
    have hs3 := suffix_of_append hs2
    have h4 := (parseValue_S hs3 v _).2 ⟨w, rest0 ++ rest, rfl, hv, rfl⟩
    have hs4 := suffix_of_append hs3
    have h5 := (expectChars_S hs4 ['"'] _).2 ⟨rest0 ++ rest, rfl, rfl⟩
    have hnc : (S t (k ++ ([':', ' ', '"'] ++ (w ++ ('"' :: (rest0 ++ rest)))))).char ≠ some '}' := by
      rw [S_char, hc1]
      rintro ⟨rfl⟩
      simp [isKeyChar] at hc2
    by_cases hl : tok.members.lookup k = none
    · have ha := (append_ok_iff tok _ k v).2 ⟨hl, rfl⟩
      have hca' : ¬ CanAppend (addFields tok [(k, v)]).members fs :=
        fun h' => hca (canAppend_cons.2 ⟨hl, h'⟩)
      obtain ⟨k', hk', he⟩ := ih rest _ (suffix_tail hs4) hca'
      refine ⟨k', by simp at hk' ⊢; tauto, ?_⟩
      rw [parseFields_field hw hnc hkey h3 h4 h5 ha, he]
      rfl
    · refine ⟨k, by simp, ?_⟩
      exact parseFields_append_error hw hnc hkey h3 h4 h5 (append_error v hl)

theorem parseLoop_token_error {s s1 s2 s3 : St} {toks : List Token} {name : Str} {e : Err}
    (hw : parseWs s = (true, s1)) (hk : parseKey s1 = .ok (name, s2))
    (h3 : expectChars s2 [' ', '{', ' '] = .ok s3)
    (h4 : parseFields s3 { name := name, start := s1.index } = .error e) :
    parseLoop s toks = .error e := by
  rw [parseLoop]
  split
  · simp_all
  · rename_i s1' hw'
    obtain rfl : s1' = s1 := by simp_all
    dsimp only
    split
    · simp_all
    · rename_i k2 s2' hk'
      obtain ⟨rfl, rfl⟩ : k2 = name ∧ s2' = s2 := by simp_all
      split
      · simp_all
      · rename_i s3' h3'
        obtain rfl : s3' = s3 := by simp_all
        split <;> simp_all

theorem parseLoop_dup {t r : Str} {ks : List Tok} (hst : Stream r ks) :
    ∀ (toks : List Token), r <:+ t → (∃ k ∈ ks, ¬ Distinct k) →
    ∃ k ∈ ks, ∃ f ∈ k.fields, parseLoop (S t r) toks = .error (.duplicateField f.1 k.name) := by
  induction hst with
  | done _ => intro _ _ h; obtain ⟨k, hk, _⟩ := h; simp at hk
  | @block sp b k rest ks hsp hb _ ih =>
    intro toks h hdup
    obtain @⟨n, body, fs, hn, hf⟩ := hb
    have e : sp ++ (n ++ ([' ', '{', ' '] ++ body) ++ rest) =
      sp ++ (n ++ ([' ', '{', ' '] ++ (body ++ rest))) := by simp
    rw [e] at h ⊢
    obtain ⟨c, hc1, hc2⟩ := isName_head (rest := [' ', '{', ' '] ++ (body ++ rest)) hn
    have hw := parseWs_skip h hsp hc1 (by rintro rfl; simp [isKeyChar] at hc2)
    have hs1 := suffix_of_append h
    obtain ⟨ht1, ht2⟩ := takeWhile_name (rest := [' ', '{', ' '] ++ (body ++ rest)) hn
      (by intro c hc; simp at hc; subst hc; decide)
    have hkey := (parseKey_S hs1 n (S t ([' ', '{', ' '] ++ (body ++ rest)))).2
      ⟨hn.1, ht1.symm, by rw [ht2]⟩
    have hs2 := suffix_of_append hs1
    have h3 := (expectChars_S hs2 [' ', '{', ' '] _).2 ⟨_, rfl, rfl⟩
    have hs3 := suffix_of_append hs2
    by_cases hd : Distinct ⟨n, fs⟩
    · have h4 := parseFields_complete hf rest
        { name := n, start := (S t (n ++ ([' ', '{', ' '] ++ (body ++ rest)))).index } hs3
        ⟨hd, by simp⟩
      rw [parseLoop_token hw hkey h3 h4]
      obtain ⟨k, hk, f, hf', he⟩ := ih _ (suffix_of_append hs3) (by
        obtain ⟨k, hk, hnd⟩ := hdup
        rcases List.mem_cons.1 hk with rfl | hk
        · exact absurd hd hnd
        · exact ⟨k, hk, hnd⟩)
      exact ⟨k, by simp [hk], f, hf', he⟩
    · obtain ⟨key, hkey', he⟩ := parseFields_dup hf rest
        { name := n, start := (S t (n ++ ([' ', '{', ' '] ++ (body ++ rest)))).index } hs3
        (fun h' => hd h'.1)
      obtain ⟨f, hf1, rfl⟩ := List.mem_map.1 hkey'
      refine ⟨⟨n, fs⟩, by simp, f, hf1, ?_⟩
      exact parseLoop_token_error hw hkey h3 he

theorem parse_dup {t : Str} {ks : List Tok} (hst : Stream t ks) (h : ∃ k ∈ ks, ¬ Distinct k) :
    ∃ k ∈ ks, ∃ f ∈ k.fields, parse t = .error (.duplicateField f.1 k.name) := by
  have ht : t ≠ [] := by
    rintro rfl
    cases hst' : ks with
    | nil => subst hst'; obtain ⟨k, hk, _⟩ := h; simp at hk
    | cons k ks2 =>
      subst hst'
      generalize hr : ([] : Str) = r at hst
      cases hst with
      | block _ hb _ =>
        have := congrArg List.length hr
        cases hb
        simp at this
  obtain ⟨k, hk, f, hf, he⟩ := parseLoop_dup hst [] (List.suffix_refl t) h
  refine ⟨k, hk, f, hf, ?_⟩
  unfold parse
  rw [load_S ht]
  exact he

/-! ### Layout facts -/

/-- `r` occupies `text` from `pos` on: slices, order and gaps. -/
theorem located_layout {text : Str} {pos : Nat} {r : Str} {ts : List Token} (h : Located pos r ts) :
    text.drop pos = r → pos ≤ text.length →
    (∀ t ∈ ts, ∃ stop k, t.stop = some stop ∧ pos ≤ t.start ∧ t.start < stop ∧
      stop ≤ text.length ∧ Denotes t k ∧ Block ((text.take stop).drop t.start) k) ∧
    ts.Pairwise (fun a b => ∀ e, a.stop = some e → e ≤ b.start) ∧
    (∀ i c, pos ≤ i → text[i]? = some c →
      (∀ t ∈ ts, ∀ e, t.stop = some e → ¬ (t.start ≤ i ∧ i < e)) → c = ' ') := by
  induction h with
  | @done pos sp hsp =>
    intro hr _
    refine ⟨by simp, List.Pairwise.nil, ?_⟩
    intro i c hi hc _
    apply hsp
    rw [← hr]
    rw [List.mem_iff_getElem?]
    exact ⟨i - pos, by rw [List.getElem?_drop, Nat.add_sub_cancel' hi, hc]⟩
  | @block pos sp b k rest ts hsp hb hd hl ih =>
    intro hr hpos
    have hlen : pos + sp.length + b.length ≤ text.length := by
      have := congrArg List.length hr
      simp at this
      omega
    have hd1 : text.drop (pos + sp.length) = b ++ rest := by
      rw [← List.drop_drop, hr]; simp
    have hd2 : text.drop (pos + sp.length + b.length) = rest := by
      rw [← List.drop_drop, hd1]; simp
    obtain ⟨i1, i2, i3⟩ := ih hd2 hlen
    have hb0 : 0 < b.length := by cases hb; simp; omega
    refine ⟨?_, ?_, ?_⟩
    · intro t ht
      rcases List.mem_cons.1 ht with rfl | ht
      · refine ⟨_, k, rfl, by simp [ofTok], by simp [ofTok]; omega, hlen, denotes_ofTok _ _ _, ?_⟩
        have : (text.take (pos + sp.length + b.length)).drop (pos + sp.length) = b := by
          rw [List.drop_take, hd1]
          simp
        simp only [ofTok]
        rw [this]
        exact hb
      · obtain ⟨stop, k', h1, h2, h3⟩ := i1 t ht
        exact ⟨stop, k', h1, by omega, h3⟩
    · refine List.Pairwise.cons ?_ i2
      intro t ht e he
      obtain ⟨_, _, _, h2, _⟩ := i1 t ht
      simp [ofTok] at he
      omega
    · intro i c hi hc hout
      by_cases h1 : i < pos + sp.length
      · apply hsp
        have : (text.drop pos)[i - pos]? = some c := by
          rw [List.getElem?_drop, Nat.add_sub_cancel' hi, hc]
        rw [hr, List.getElem?_append_left (by omega)] at this
        exact List.mem_iff_getElem?.2 ⟨_, this⟩
      · by_cases h2 : i < pos + sp.length + b.length
        · exact absurd ⟨by simp [ofTok]; omega, h2⟩
            (hout (ofTok k (pos + sp.length) (pos + sp.length + b.length)) (by simp) _ rfl)
        · exact i3 i c (by omega) hc (fun t ht => hout t (by simp [ht]))

theorem spansFrom_length (pos : Nat) (l : List Str) : (spansFrom pos l).length = l.length := by
  induction l generalizing pos with
  | nil => rfl
  | cons x l ih => simp [spansFrom, ih]

/-- Slices of a joined text: what a caller who cuts at the spans sees. -/
theorem spansFrom_slices (l : List Str) (pre : Str) :
    (spansFrom pre.length l).map (fun s => ((pre ++ joinSpace l).take s.2).drop s.1) = l := by
  induction l generalizing pre with
  | nil => rfl
  | cons x l ih =>
    simp only [spansFrom, List.map_cons]
    congr 1
    · cases l with
      | nil => simp only [joinSpace]; rw [List.drop_take]; simp
      | cons y l =>
        simp only [joinSpace]
        rw [List.drop_take]
        simp
    · cases l with
      | nil => rfl
      | cons y l =>
        have := ih (pre ++ x ++ [' '])
        simp only [joinSpace] at this ⊢
        simpa [Nat.add_assoc] using this

theorem spansFrom_gaps (pos : Nat) (l : List Str) :
    (spansFrom pos l).IsChain (fun a b => b.1 = a.2 + 1) := by
  induction l generalizing pos with
  | nil => exact .nil
  | cons x l ih =>
    cases l with
    | nil => exact .singleton _
    | cons y l => exact List.isChain_cons_cons.2 ⟨rfl, ih _⟩

theorem joinSpace_length_last (pos : Nat) (l : List Str) (s : Nat × Nat)
    (h : (spansFrom pos l).getLast? = some s) : s.2 = pos + (joinSpace l).length := by
  induction l generalizing pos with
  | nil => simp [spansFrom] at h
  | cons x l ih =>
    cases l with
    | nil => simp [spansFrom] at h; subst h; simp [joinSpace]
    | cons y l =>
      have := ih (pos + x.length + 1) (by
        simp only [spansFrom] at h ⊢
        simpa using h)
      simp only [joinSpace] at this ⊢
      simp at this ⊢
      omega

end Verif.Token
