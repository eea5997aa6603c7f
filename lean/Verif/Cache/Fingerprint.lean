import Verif.Cache.PathLemmas
import Verif.Cache.DumpLemmas
import Verif.Cache.Prog
import Mathlib.Data.List.Nodup

/-
`production_source_fingerprint` (tn/cache.py:98-124) up to the digest: which files are hashed and the
byte stream that is fed to SHA-256.

A source tree is the list, in any order, of what `rglob("*")` yields below `tn` and `itn`: for each
path its components after the project root, whether it is a file, and its content. Links are not
modelled. The order of `Path` objects is the order of the lists of their components (`_parts_normcase`
before Python 3.12, `str` with `/` as separator after; only that it is total is used).
-/

namespace Verif.Cache

structure Source where
  parts : List Str
  isFile : Bool
  content : Bytes

/-- `path.suffix`: from the last dot of the name, unless that is its first or last character. -/
def suffixOf (name : Str) : Str :=
  let rev := name.reverse
  let ext := rev.takeWhile (· ≠ '.')
  let stem := (rev.dropWhile (· ≠ '.')).drop 1
  if ext = [] ∨ stem = [] then [] else '.' :: ext.reverse

/-- `_PRODUCTION_SUFFIXES`, cache.py:40. -/
def productionSuffixes : List Str := [".py".toList, ".tsv".toList, ".far".toList]

/-- The conditions of the inner loop, cache.py:106-113; the first component is the package. -/
def Source.counts (s : Source) : Bool :=
  s.isFile && decide (suffixOf (s.parts.getLast?.getD []) ∈ productionSuffixes) &&
    !(decide ("test".toList ∈ s.parts.tail)) && !(decide ("__pycache__".toList ∈ s.parts.tail)) &&
    !(decide (s.parts.getLast?.getD [] = "_version.py".toList))

/-- `<` of lists of components. -/
def partsLt : List Str → List Str → Bool
  | [], [] => false
  | [], _ :: _ => true
  | _ :: _, [] => false
  | a :: as, b :: bs => strLt a b || (a = b && partsLt as bs)

def insertSource (s : Source) : List Source → List Source
  | [] => [s]
  | t :: rest => if partsLt t.parts s.parts then t :: insertSource s rest else s :: t :: rest

/-- `sorted(sources)`. -/
def sortSources : List Source → List Source
  | [] => []
  | s :: rest => insertSource s (sortSources rest)

/-- `n.to_bytes(8, "big")`, for `n < 2^64`. -/
def bytes8 (n : Nat) : Bytes :=
  [7, 6, 5, 4, 3, 2, 1, 0].map fun i => UInt8.ofNat (n / 256 ^ i % 256)

/-- `source.relative_to(project_root).as_posix().encode("utf-8")`, cache.py:117. -/
def Source.pathBytes (s : Source) : Bytes := Cpp.encAll (joinSlash s.parts)

/-- What the loop adds for one file, cache.py:116-122. -/
def Source.record (s : Source) : Bytes := bytes8 s.pathBytes.length ++ s.pathBytes ++ s.content

/-- The bytes that are hashed, cache.py:115-122. -/
def sourceStream (tree : List Source) : Bytes :=
  (sortSources (tree.filter Source.counts)).flatMap Source.record

/-- `production_source_fingerprint`, cache.py:98-124. -/
def fingerprint (H : Bytes → Str) (tree : List Source) : Str := H (sourceStream tree)

/-! ### Specification -/

/-- What a file system allows and Python can name: plain components and no NUL. The length of the
path fits one byte. -/
structure Source.Ok (s : Source) : Prop where
  ne : s.parts ≠ []
  plain : Resolved s.parts
  nul : (0 : UInt8) ∉ s.pathBytes
  short : s.pathBytes.length < 256

/-- A possible source tree: no path occurs twice. -/
structure TreeOk (tree : List Source) : Prop where
  ok : ∀ s ∈ tree, s.Ok
  nodup : (tree.map Source.parts).Nodup

/-- What is hashed before the content of a file. -/
def Source.header (s : Source) : Bytes := bytes8 s.pathBytes.length ++ s.pathBytes

/-- No production file of the first tree contains the header of one of the second. -/
def Unmarked (a b : List Source) : Prop :=
  ∀ s ∈ a, s.counts = true → ∀ t ∈ b, t.counts = true → ¬ t.header <:+: s.content

/-! ### Sorting -/

theorem partsLt_irrefl : ∀ a, partsLt a a = false
  | [] => rfl
  | a :: as => by simp [partsLt, strLt_irrefl, partsLt_irrefl as]

theorem partsLt_asymm : ∀ a b, partsLt a b = true → partsLt b a = false
  | [], [], _ => rfl
  | [], _ :: _, _ => rfl
  | _ :: _, [], h => by simp [partsLt] at h
  | a :: as, b :: bs, h => by
    simp only [partsLt, Bool.or_eq_true, Bool.and_eq_true, decide_eq_true_eq] at h
    rw [partsLt]
    rcases h with h | ⟨rfl, h⟩
    · have h1 := strLt_asymm a b h
      have h2 : b ≠ a := by rintro rfl; rw [strLt_irrefl] at h; cases h
      simp [h1, h2]
    · simp [strLt_irrefl, partsLt_asymm as bs h]

theorem partsLt_trans : ∀ a b c, partsLt a b = true → partsLt b c = true → partsLt a c = true
  | [], [], _, h, _ => by simp [partsLt] at h
  | [], _ :: _, [], _, h => by simp [partsLt] at h
  | [], _ :: _, _ :: _, _, _ => rfl
  | _ :: _, [], _, h, _ => by simp [partsLt] at h
  | _ :: _, _ :: _, [], _, h => by simp [partsLt] at h
  | a :: as, b :: bs, c :: cs, h, h' => by
    simp only [partsLt, Bool.or_eq_true, Bool.and_eq_true, decide_eq_true_eq] at h h' ⊢
    rcases h with h | ⟨rfl, h⟩
    · rcases h' with h' | ⟨rfl, h'⟩
      · exact .inl (strLt_trans a b c h h')
      · exact .inl h
    · rcases h' with h' | ⟨rfl, h'⟩
      · exact .inl h'
      · exact .inr ⟨rfl, partsLt_trans as bs cs h h'⟩

theorem partsLt_total : ∀ a b, a ≠ b → partsLt a b = false → partsLt b a = true
  | [], [], h, _ => (h rfl).elim
  | [], _ :: _, _, h => by simp [partsLt] at h
  | _ :: _, [], _, _ => rfl
  | a :: as, b :: bs, h, h' => by
    simp only [partsLt, Bool.or_eq_false_iff, Bool.and_eq_false_iff, decide_eq_false_iff_not] at h'
    simp only [partsLt, Bool.or_eq_true, Bool.and_eq_true, decide_eq_true_eq]
    by_cases hab : a = b
    · subst hab
      have : as ≠ bs := fun e => h (by rw [e])
      rcases h'.2 with h2 | h2
      · exact (h2 rfl).elim
      · exact .inr ⟨rfl, partsLt_total as bs this h2⟩
    · exact .inl (strLt_total a b hab h'.1)

theorem insertSource_perm (s : Source) (l : List Source) : (insertSource s l).Perm (s :: l) := by
  induction l with
  | nil => rfl
  | cons t l ih =>
    rw [insertSource]
    split
    · exact (ih.cons t).trans (List.Perm.swap s t l)
    · rfl

theorem sortSources_perm (l : List Source) : (sortSources l).Perm l := by
  induction l with
  | nil => rfl
  | cons s l ih => exact (insertSource_perm s _).trans (ih.cons s)

/-- In the order of the paths. -/
def InOrder (l : List Source) : Prop := l.Pairwise fun s t => partsLt s.parts t.parts = true

theorem insertSource_inOrder {s : Source} : ∀ {l : List Source}, InOrder l →
    (∀ t ∈ l, t.parts ≠ s.parts) → InOrder (insertSource s l)
  | [], _, _ => by simp [insertSource, InOrder]
  | t :: l, h, hn => by
    rw [InOrder, List.pairwise_cons] at h
    rw [insertSource]
    split
    · rename_i hlt
      rw [InOrder, List.pairwise_cons]
      refine ⟨fun u hu => ?_, insertSource_inOrder h.2 fun u hu => hn u (by simp [hu])⟩
      have := (insertSource_perm s l).mem_iff.1 hu
      simp only [List.mem_cons] at this
      rcases this with rfl | hu
      · exact hlt
      · exact h.1 u hu
    · rename_i hlt
      have h1 : partsLt s.parts t.parts = true :=
        partsLt_total _ _ (hn t (by simp)) (by simpa using hlt)
      rw [InOrder, List.pairwise_cons]
      refine ⟨fun u hu => ?_, List.pairwise_cons.2 h⟩
      simp only [List.mem_cons] at hu
      rcases hu with rfl | hu
      · exact h1
      · exact partsLt_trans _ _ _ h1 (h.1 u hu)

theorem sortSources_inOrder {l : List Source} (h : (l.map Source.parts).Nodup) :
    InOrder (sortSources l) := by
  induction l with
  | nil => exact List.Pairwise.nil
  | cons s l ih =>
    rw [List.map_cons, List.nodup_cons] at h
    refine insertSource_inOrder (ih h.2) fun t ht he => h.1 ?_
    have := (sortSources_perm l).mem_iff.1 ht
    exact List.mem_map.2 ⟨t, this, he⟩

theorem inOrder_unique : ∀ {l m : List Source}, InOrder l → InOrder m → l.Perm m → l = m
  | [], m, _, _, h => by rw [List.nil_perm] at h; exact h.symm
  | s :: l, [], _, _, h => by simp at h
  | s :: l, t :: m, hl, hm, h => by
    rw [InOrder, List.pairwise_cons] at hl hm
    have hst : s = t := by
      have h1 : s ∈ t :: m := h.mem_iff.1 (by simp)
      have h2 : t ∈ s :: l := h.mem_iff.2 (by simp)
      simp only [List.mem_cons] at h1 h2
      rcases h1 with h1 | h1
      · exact h1
      · rcases h2 with h2 | h2
        · exact h2.symm
        · have h3 := hm.1 s h1
          have h4 := hl.1 t h2
          rw [partsLt_asymm _ _ h3] at h4
          cases h4
    subst hst
    rw [inOrder_unique hl.2 hm.2 ((List.perm_cons s).1 h)]

/-! ### The stream -/

theorem length_bytes8 (n : Nat) : (bytes8 n).length = 8 := rfl

theorem bytes8_small {n : Nat} (h : n < 256) :
    bytes8 n = [0, 0, 0, 0, 0, 0, 0, UInt8.ofNat n] := by
  have h1 : ∀ i, 1 ≤ i → n / 256 ^ i % 256 = 0 := by
    intro i hi
    have : n / 256 ^ i = 0 := Nat.div_eq_of_lt (lt_of_lt_of_le h (by
      calc 256 = 256 ^ 1 := rfl
        _ ≤ 256 ^ i := Nat.pow_le_pow_right (by decide) hi))
    rw [this]
  simp only [bytes8, List.map_cons, List.map_nil]
  rw [h1 7 (by decide), h1 6 (by decide), h1 5 (by decide), h1 4 (by decide), h1 3 (by decide),
    h1 2 (by decide), h1 1 (by decide)]
  have : n / 256 ^ 0 % 256 = n := by
    rw [pow_zero, Nat.div_one]
    exact Nat.mod_eq_of_lt h
  rw [this]
  rfl

theorem ofNat_small_inj {m n : Nat} (hm : m < 256) (hn : n < 256)
    (h : UInt8.ofNat m = UInt8.ofNat n) : m = n := by
  have := congrArg UInt8.toNat h
  simp only [UInt8.toNat_ofNat'] at this
  omega

theorem Source.Ok.pos {s : Source} (h : s.Ok) : 1 ≤ s.pathBytes.length := by
  obtain ⟨c, l, hc⟩ : ∃ c l, s.parts = c :: l := by
    cases hp : s.parts with
    | nil => exact (h.ne hp).elim
    | cons c l => exact ⟨c, l, rfl⟩
  have h1 := (h.plain c (by simp [hc])).ne
  obtain ⟨x, c', rfl⟩ : ∃ x c', c = x :: c' := by
    cases c with
    | nil => exact (h1 rfl).elim
    | cons x c' => exact ⟨x, c', rfl⟩
  have h2 : ∃ r, joinSlash s.parts = x :: r := by
    rw [hc]
    cases l <;> exact ⟨_, rfl⟩
  obtain ⟨r, h2⟩ := h2
  unfold Source.pathBytes
  rw [h2, Cpp.encAll_cons, List.length_append]
  have : 1 ≤ (Cpp.enc x).length := String.length_utf8EncodeChar x ▸ x.utf8Size_pos
  omega

theorem pathBytes_inj {s t : Source} (hs : s.Ok) (ht : t.Ok) (h : s.pathBytes = t.pathBytes) :
    s.parts = t.parts :=
  joinSlash_inj hs.plain ht.plain (Cpp.encAll_injective h)

theorem record_eq (s : Source) : s.record = s.header ++ s.content := rfl

/-- Two headers do not overlap. -/
theorem no_overlap {s t : Source} (hs : s.Ok) (ht : t.Ok) {x y r r' : Bytes} (hx : x ≠ [])
    (hy : y ≠ []) (h : s.header = x ++ y) (h' : y ++ r = t.header ++ r') : False := by
  have e1 := bytes8_small hs.short
  have e2 := bytes8_small ht.short
  have hl : s.header.length = 8 + s.pathBytes.length := by
    simp [Source.header, length_bytes8]
  have hj : 1 ≤ x.length := List.length_pos_iff.2 hx
  have hy1 : 1 ≤ y.length := List.length_pos_iff.2 hy
  have hlen : x.length + y.length = 8 + s.pathBytes.length := by
    rw [← hl, h, List.length_append]
  -- the bytes of the second header
  have hz : ∀ i, i < 7 → i < y.length → y[i]? = some 0 := by
    intro i hi hiy
    have h1 : (y ++ r)[i]? = (t.header ++ r')[i]? := by rw [h']
    rw [List.getElem?_append_left hiy] at h1
    rw [h1, Source.header, e2, List.append_assoc, List.getElem?_append_left (by simp; omega)]
    have : i = 0 ∨ i = 1 ∨ i = 2 ∨ i = 3 ∨ i = 4 ∨ i = 5 ∨ i = 6 := by omega
    rcases this with rfl | rfl | rfl | rfl | rfl | rfl | rfl <;> rfl
  have hpos := hs.pos
  by_cases h8 : x.length ≤ 7
  · have h1 := hz (7 - x.length) (by omega) (by omega)
    have h2 : s.header[7]? = some 0 := by
      rw [h, List.getElem?_append_right h8]
      exact h1
    have h3 : s.header[7]? = some (UInt8.ofNat s.pathBytes.length) := by
      rw [Source.header, e1]
      rfl
    rw [h2] at h3
    have := ofNat_small_inj (m := 0) (by decide) hs.short (Option.some.inj h3)
    omega
  · have h1 := hz 0 (by omega) (by omega)
    have h2 : s.header[x.length]? = some 0 := by
      rw [h, List.getElem?_append_right (le_refl _), Nat.sub_self]
      exact h1
    rw [Source.header, List.getElem?_append_right (by rw [length_bytes8]; omega)] at h2
    exact hs.nul (List.mem_of_getElem? h2)

theorem records_inj : ∀ {l m : List Source}, (∀ s ∈ l, s.Ok) → (∀ s ∈ m, s.Ok) →
    (∀ s ∈ l, ∀ t ∈ m, ¬ t.header <:+: s.content) → (∀ s ∈ m, ∀ t ∈ l, ¬ t.header <:+: s.content) →
    l.flatMap Source.record = m.flatMap Source.record →
    l.map (fun s => (s.parts, s.content)) = m.map (fun s => (s.parts, s.content))
  | [], [], _, _, _, _, _ => rfl
  | [], t :: m, _, _, _, _, h => by
    simp [Source.record, bytes8] at h
  | s :: l, [], _, _, _, _, h => by
    simp [Source.record, bytes8] at h
  | s :: l, t :: m, hl, hm, hlm, hml, h => by
    have hs := hl s (by simp)
    have ht := hm t (by simp)
    simp only [List.flatMap_cons, record_eq, Source.header, List.append_assoc] at h
    obtain ⟨h1, h2⟩ := List.append_inj h (by simp [length_bytes8])
    rw [bytes8_small hs.short, bytes8_small ht.short] at h1
    have h3 : s.pathBytes.length = t.pathBytes.length := by
      simp only [List.cons.injEq, true_and, and_true] at h1
      exact ofNat_small_inj hs.short ht.short h1
    obtain ⟨h4, h5⟩ := List.append_inj h2 h3
    have hp := pathBytes_inj hs ht h4
    -- a longer content would contain the next header
    have longer : ∀ {s t : Source} {l m : List Source}, (∀ u ∈ s :: l, u.Ok) → (∀ u ∈ t :: m, u.Ok) →
        (∀ u ∈ l, ¬ u.header <:+: t.content) → ∀ {x : Bytes}, t.content = s.content ++ x →
        l.flatMap Source.record = x ++ m.flatMap Source.record → x = [] := by
      intro s t l m hl hm hn x hx he
      by_contra hx0
      cases l with
      | nil =>
        simp only [List.flatMap_nil] at he
        exact hx0 (List.append_eq_nil_iff.1 he.symm).1
      | cons u l =>
        have hu := hl u (by simp)
        rw [List.flatMap_cons, record_eq, List.append_assoc] at he
        rcases List.append_eq_append_iff.1 he with ⟨y, h6, h7⟩ | ⟨y, h6, h7⟩
        · refine hn u (by simp) ?_
          rw [hx, h6]
          exact ⟨s.content, y, by simp⟩
        · by_cases hy : y = []
          · subst hy
            refine hn u (by simp) ?_
            rw [hx, h6]
            exact ⟨s.content, [], by simp⟩
          · cases m with
            | nil =>
              simp only [List.flatMap_nil] at h7
              exact hy (List.append_eq_nil_iff.1 h7.symm).1
            | cons v m =>
              rw [List.flatMap_cons, record_eq, List.append_assoc] at h7
              exact no_overlap hu (hm v (by simp)) hx0 hy h6 h7.symm
    have hc : s.content = t.content ∧ l.flatMap Source.record = m.flatMap Source.record := by
      rcases List.append_eq_append_iff.1 h5 with ⟨x, h6, h7⟩ | ⟨x, h6, h7⟩
      · have := longer hl hm (fun u hu => hml t (by simp) u (by simp [hu])) h6 h7
        subst this
        exact ⟨by simpa using h6.symm, by simpa using h7⟩
      · have := longer hm hl (fun u hu => hlm s (by simp) u (by simp [hu])) h6 h7
        subst this
        exact ⟨by simpa using h6, by simpa using h7.symm⟩
    have ih := records_inj (fun u hu => hl u (by simp [hu])) (fun u hu => hm u (by simp [hu]))
      (fun u hu v hv => hlm u (by simp [hu]) v (by simp [hv]))
      (fun u hu v hv => hml u (by simp [hu]) v (by simp [hv])) hc.2
    simp only [List.map_cons, hp, hc.1, ih]

end Verif.Cache
