import Verif.Cache.Props
import Verif.Cache.Key
import Verif.Cache.Fingerprint

/-
The properties C36, C37 and C41 of the cache keys, paths and fingerprints.
-/

namespace Verif.Cache

/-! ### C36: different keys never share a bundle -/

/-- The digest does not collide on what is hashed for the two keys. -/
structure Distinguishes (H : Bytes → Str) (k k' : Ident) : Prop where
  config : H (canonicalJson k.configIdentity) = H (canonicalJson k'.configIdentity) →
    canonicalJson k.configIdentity = canonicalJson k'.configIdentity
  bundle : H (canonicalJson (k.bundleIdentity H)) = H (canonicalJson (k'.bundleIdentity H)) →
    canonicalJson (k.bundleIdentity H) = canonicalJson (k'.bundleIdentity H)

/-- C36: keys that differ in prefix, order type, configuration, sources or builder have different
digests, whatever the prefix, and so different bundle directories. -/
theorem keys_apart {H : Bytes → Str} {k k' : Ident} (hk : k.Ok) (hk' : k'.Ok)
    (hH : Distinguishes H k k') (h : k ≠ k') :
    k.bundleDigest H ≠ k'.bundleDigest H ∧ k.path H ≠ k'.path H := by
  have key : k.bundleDigest H ≠ k'.bundleDigest H := by
    intro hd
    obtain ⟨h1, h2, h3⟩ := builder_of_digest hk hk' hH.bundle hd
    obtain ⟨h4, h5, h6⟩ := config_of_digest hk hk' hH.config h2
    apply h
    cases k
    cases k'
    simp_all
  refine ⟨key, fun hp => key ?_⟩
  simp only [Ident.path, List.cons.injEq, and_true] at hp
  exact hp.2.2

/-- C36: whatever is on disk and whatever fails, a bundle that was written for another key is not
loaded, even if it is found under this key's name. -/
theorem foreign_rejected {T : Tools} {F : Faults} {k k' : Ident} (hk : k.Ok) (hk' : k'.Ok)
    (hH : Distinguishes T.sha k k') (h : k ≠ k') {fs fs' : FS T.G} {tr : Hist T.G}
    {x : Option (T.G × T.G)} {i : Ino} {es : List (Name × Ent)} {b b' : Bytes}
    (hi : fs.entry (k.bundleDigest T.sha) = some i) (hes : fs.node i = .dir es)
    (hm : es.lookup "manifest.json".toList = some (.reg (manifestBytes (manifestOf (k'.world T)
      (metadataOf (k'.world T) b) (metadataOf (k'.world T) b')))))
    (hr : Run (k.world T).key F (loadPath (k.world T) (k.world T).final) fs tr (.ok x) fs') :
    x = none := by
  cases x with
  | none => rfl
  | some g =>
    exfalso
    obtain ⟨-, i', es', h1, h2, -, h3⟩ := load_sound (W := k.world T) hr
    have h1 : fs.entry (k.bundleDigest T.sha) = some i' := h1
    rw [hi] at h1
    cases h1
    rw [hes] at h2
    cases h2
    obtain ⟨c, m, files, h4, -, h5, h6, -⟩ := h3
    rw [hm] at h4
    have h7 := Option.some.inj h4
    injection h7 with h7
    subst h7
    dsimp only at h5
    obtain ⟨h8, -⟩ := digests_of_manifestOk hk' h5 h6
    exact (keys_apart hk hk' hH h).1 h8.symm

/-- C36: the assumption `Lawful.json` of the other cache theorems holds of `json`: every manifest
`publish` writes is read back with the same items. -/
theorem manifest_reads_back {T : Tools} {k : Ident} (hk : k.Ok) (x y : T.G) : ∃ m,
    (k.world T).loads ((k.world T).dumps (manifestOf (k.world T)
      (metadataOf (k.world T) (T.ser x)) (metadataOf (k.world T) (T.ser y)))) = some (.obj m) ∧
    ManifestOk (k.world T) m ∧
    m.lookup "files".toList = some (.obj [("tagger.fst".toList, metadataOf (k.world T) (T.ser x)),
      ("verbalizer.fst".toList, metadataOf (k.world T) (T.ser y))]) := by
  obtain ⟨m, h1, h2⟩ := manifest_read (T := T) hk (T.ser x) (T.ser y)
  refine ⟨m, ?_, ?_, ?_⟩
  · dsimp only
    rw [h1]
  · constructor
    all_goals
      rw [get, h2]
      exact pyEq_refl _
  · rw [h2]
    rfl

namespace Demo

/-- Two configurations of the Chinese normalizer. -/
def zh (erhua : Bool) : Ident where
  namePrefix := "zh_tn".toList
  ordertype := "tn".toList
  config := .obj [("full_to_half".toList, .bool true), ("remove_erhua".toList, .bool erhua)]
  fingerprint := "fp".toList
  builder := .obj [("abi".toList, .int 1), ("python".toList, .str "3.11".toList)]

theorem zh_ok (b : Bool) : (zh b).Ok := by
  constructor
  · simp only [zh, Clean, CleanObj, and_true, Sorted, List.pairwise_cons, List.mem_cons,
      List.not_mem_nil, or_false, List.Pairwise.nil]
    refine ⟨?_, by simp⟩
    rintro p rfl
    dsimp only
    decide
  · simp only [zh, Clean, CleanObj, and_true, Sorted, List.pairwise_cons, List.mem_cons,
      List.not_mem_nil, or_false, List.Pairwise.nil]
    refine ⟨?_, by simp⟩
    rintro p rfl
    dsimp only
    decide

/-- A digest without collisions. -/
def plainDigest (b : Bytes) : Str := b.map fun x => Char.ofNat x.toNat

theorem plainDigest_injective {a b : Bytes} (h : plainDigest a = plainDigest b) : a = b := by
  have : Function.Injective fun x : UInt8 => Char.ofNat x.toNat := by
    intro x y hxy
    have h1 : ∀ z : UInt8, (Char.ofNat z.toNat).toNat = z.toNat := by
      intro z
      have h : ∀ k : Fin 256, (Char.ofNat k.val).toNat = k.val := by decide +kernel
      exact h ⟨z.toNat, z.toNat_lt⟩
    have h2 := congrArg Char.toNat hxy
    simp only [h1] at h2
    exact UInt8.toNat_inj.1 h2
  exact List.map_injective_iff.2 this h

example : (zh true).Ok ∧ (zh false).Ok ∧ Distinguishes plainDigest (zh true) (zh false) ∧
    zh true ≠ zh false := by
  refine ⟨zh_ok _, zh_ok _, ⟨plainDigest_injective, plainDigest_injective⟩, ?_⟩
  simp [zh]

/-- The text that is hashed. -/
example : dumpText compact (zh true).configIdentity =
    "{\"config\":{\"full_to_half\":true,\"remove_erhua\":true},\"ordertype\":\"tn\",\"prefix\":\"zh_tn\"}".toList := by
  decide +kernel

/-- What is read back of a value with several kinds of items. -/
example : (loadText (fun s => (none, s)) " {\"b\": [1, -20, null], \"a\":\"x\\u00e9\\n\"}\n".toList).isSome =
    true := by
  decide +kernel

end Demo

/-! ### C37: cache paths stay inside the root -/

/-- A path strictly inside the root: below it by one or more plain components. -/
def StrictlyInside (root p : List Str) : Prop := ∃ t, t ≠ [] ∧ Resolved t ∧ p = root ++ t

/-- A digest as `hexdigest` returns it. -/
def HexDigest (s : Str) : Prop := s ≠ [] ∧ ∀ c ∈ s, safeChar c = true ∧ c ≠ '.'

theorem HexDigest.plain {s : Str} (h : HexDigest s) : Plain1 s := by
  refine ⟨h.1, ?_, ?_, fun h1 => ?_⟩
  · rintro rfl
    exact (h.2 '.' (by simp)).2 rfl
  · rintro rfl
    exact (h.2 '.' (by simp)).2 rfl
  · have := (h.2 _ h1).1
    simp [safeChar] at this

theorem dotName_plain {d k : Str} (hd : HexDigest d) (hk : '/' ∉ k) : Plain1 ('.' :: d ++ k) := by
  obtain ⟨x, d', rfl⟩ : ∃ x d', d = x :: d' := by
    cases d with
    | nil => exact (hd.1 rfl).elim
    | cons x d' => exact ⟨x, d', rfl⟩
  have hx := hd.2 x (by simp)
  refine ⟨by simp, by simp, ?_, ?_⟩
  · intro h
    simp only [List.cons_append, List.cons.injEq, true_and] at h
    exact hx.2 h.1
  · intro h
    simp only [List.cons_append, List.mem_cons, List.mem_append] at h
    rcases h with h | h | h | h
    · simp at h
    · rw [← h] at hx
      simp [safeChar] at hx
    · have := (hd.2 '/' (by simp [h])).1
      simp [safeChar] at this
    · exact hk h

theorem underRoot_below (cwd : Str) {root t : List Str} (hr : Resolved root) (ht : Resolved t) :
    underRoot cwd (fspath root) (fspath (root ++ t)) = true := by
  have h : Resolved (root ++ t) := by
    intro c hc
    rcases List.mem_append.1 hc with h | h
    · exact hr c h
    · exact ht c h
  exact (underRoot_iff cwd hr rfl).2 ⟨_, walk_fspath h, List.prefix_append _ _⟩

/-- C37: exactly the prefixes that are one safe path component are accepted; then the paths of the
bundle, of its lock and of all residual names are strictly inside the root and the guard passes. -/
theorem paths_inside (cwd : Str) {root : List Str} (hr : Resolved root) {pre cd bd : Str}
    (hcd : HexDigest cd) (hbd : HexDigest bd) :
    if pre ≠ [] ∧ (∀ c ∈ pre, safeChar c = true) ∧ pre ≠ ['.'] ∧ pre ≠ ['.', '.'] then
      ∃ p, bundlePaths cwd root pre cd bd = .ok p ∧ StrictlyInside root p.parent ∧
        StrictlyInside root p.path ∧ StrictlyInside root p.lock ∧
        p.path = root ++ [pre, cd, bd] ∧
        ∀ kind uuid, '/' ∉ kind → '/' ∉ uuid →
          residualPath p.parent bd kind uuid = p.parent ++ ['.' :: bd ++ kind ++ uuid] ∧
          StrictlyInside root (residualPath p.parent bd kind uuid)
    else bundlePaths cwd root pre cd bd = .error .value := by
  split
  · rename_i h
    have hp := prefixOk_iff.2 h
    have h1 := prefixOk_plain hp
    have h2 := hcd.plain
    have h3 := hbd.plain
    have h4 : Plain1 ('.' :: bd ++ ".lock".toList) := dotName_plain hbd (by decide)
    have e1 : child (child root pre) cd = root ++ [pre, cd] := by
      rw [child_plain h1, child_plain h2]
      simp
    have e2 : child (root ++ [pre, cd]) bd = root ++ [pre, cd, bd] := by
      rw [child_plain h3]
      simp
    have e3 : child (root ++ [pre, cd]) ('.' :: bd ++ ".lock".toList) =
        root ++ [pre, cd, '.' :: bd ++ ".lock".toList] := by
      rw [child_plain h4]
      simp
    have r1 : Resolved [pre, cd] := by
      intro c hc
      simp only [List.mem_cons, List.not_mem_nil, or_false] at hc
      rcases hc with rfl | rfl <;> assumption
    have r2 : ∀ x, Plain1 x → Resolved [pre, cd, x] := by
      intro x hx c hc
      simp only [List.mem_cons, List.not_mem_nil, or_false] at hc
      rcases hc with rfl | rfl | rfl <;> assumption
    refine ⟨⟨root ++ [pre, cd], root ++ [pre, cd, bd], root ++ [pre, cd, '.' :: bd ++ ".lock".toList]⟩,
      ?_, ⟨_, by simp, r1, rfl⟩, ⟨_, by simp, r2 _ h3, rfl⟩, ⟨_, by simp, r2 _ h4, rfl⟩, rfl, ?_⟩
    · unfold bundlePaths
      rw [if_pos hp]
      simp only [e1, e2, e3]
      rw [if_pos ⟨underRoot_below cwd hr r1, underRoot_below cwd hr (r2 _ h3),
        underRoot_below cwd hr (r2 _ h4)⟩]
    · intro kind uuid hk hu
      have h5 : Plain1 ('.' :: bd ++ kind ++ uuid) := by
        rw [List.append_assoc]
        exact dotName_plain hbd (by simp [hk, hu])
      have e4 : residualPath (root ++ [pre, cd]) bd kind uuid =
          root ++ [pre, cd] ++ ['.' :: bd ++ kind ++ uuid] := child_plain h5
      refine ⟨e4, [pre, cd, '.' :: bd ++ kind ++ uuid], by simp, r2 _ h5, ?_⟩
      rw [e4]
      simp
  · rename_i h
    have hp : ¬ prefixOk pre = true := fun h' => h (prefixOk_iff.1 h')
    rw [bundlePaths, if_neg hp]

/-- C37: `_assert_under_root` passes for an absolute path, with whatever dots and slashes, exactly when
following it leads into the root. -/
theorem guard_exact (cwd : Str) {root : List Str} (hr : Resolved root) {p : Str}
    (hp : isAbs p = true) :
    underRoot cwd (fspath root) p = true ↔ ∃ dst, Walk [] (splitSlash p) dst ∧ root <+: dst :=
  underRoot_iff cwd hr hp

/-- The two sides of the condition, and paths that the guard lets pass and refuses. -/
example : prefixOk "zh_tn".toList = true ∧ prefixOk "..".toList = false ∧
    prefixOk "a/b".toList = false ∧ prefixOk [] = false ∧ prefixOk "zh\n".toList = false ∧
    underRoot [] "/c/r".toList "/c/r/../r/./x".toList = true ∧
    underRoot [] "/c/r".toList "/c/r/../rx".toList = false ∧
    underRoot [] "/c/r".toList "/c/rx".toList = false := by
  decide +kernel

example : Resolved ["c".toList, "r".toList] ∧ HexDigest "0af".toList := by
  constructor
  · intro c hc
    simp only [List.mem_cons, List.not_mem_nil, or_false] at hc
    rcases hc with rfl | rfl <;> exact ⟨by decide, by decide, by decide, by decide⟩
  · exact ⟨by decide, by decide⟩

/-! ### C41: what the source fingerprint determines -/

/-- The production files of a tree: paths and contents. -/
def production (tree : List Source) : List (List Str × Bytes) :=
  (tree.filter Source.counts).map fun s => (s.parts, s.content)

namespace Demo

def one : List Source :=
  [⟨["tn".toList, "a.py".toList], true, [120] ++ bytes8 7 ++ Cpp.encAll "tn/b.py".toList ++ [121]⟩]

def two : List Source :=
  [⟨["tn".toList, "b.py".toList], true, [121]⟩, ⟨["tn".toList, "a.py".toList], true, [120]⟩]

theorem one_ok : TreeOk one := by
  refine ⟨?_, by decide⟩
  intro s hs
  simp only [one, List.mem_cons, List.not_mem_nil, or_false] at hs
  subst hs
  refine ⟨by simp, ?_, by decide +kernel, by decide +kernel⟩
  intro c hc
  simp only [List.mem_cons, List.not_mem_nil, or_false] at hc
  rcases hc with rfl | rfl <;> exact ⟨by decide, by decide, by decide, by decide⟩

theorem two_ok : TreeOk two := by
  refine ⟨?_, by decide⟩
  intro s hs
  simp only [two, List.mem_cons, List.not_mem_nil, or_false] at hs
  rcases hs with rfl | rfl
  all_goals
    refine ⟨by simp, ?_, by decide +kernel, by decide +kernel⟩
    intro c hc
    simp only [List.mem_cons, List.not_mem_nil, or_false] at hc
    rcases hc with rfl | rfl <;> exact ⟨by decide, by decide, by decide, by decide⟩

end Demo

/-- C41 does not hold of the code: there are two source trees with different production files that
are hashed from the same bytes, so every digest gives them the same fingerprint. The content of a file
is not delimited: one file can contain what another tree has as a further file. -/
theorem fingerprint_ambiguous : ∃ a b : List Source, TreeOk a ∧ TreeOk b ∧
    ¬ (production a).Perm (production b) ∧ ∀ H, fingerprint H a = fingerprint H b := by
  refine ⟨Demo.one, Demo.two, Demo.one_ok, Demo.two_ok, fun h => ?_, fun H => ?_⟩
  · have := h.length_eq
    revert this
    decide +kernel
  · exact congrArg H (by decide +kernel)

/-- C41, partial: different production files are hashed from different bytes unless a file of one tree
contains the header (length and path) of a file of the other. Missing for the full claim: that
exception, which `fingerprint_ambiguous` shows to be real; paths of 256 bytes and more. -/
theorem stream_determines_partial {a b : List Source} (ha : TreeOk a) (hb : TreeOk b)
    (hab : Unmarked a b) (hba : Unmarked b a) (h : sourceStream a = sourceStream b) :
    (production a).Perm (production b) := by
  have pa := sortSources_perm (a.filter Source.counts)
  have pb := sortSources_perm (b.filter Source.counts)
  have ma : ∀ s, s ∈ sortSources (a.filter Source.counts) ↔ s ∈ a ∧ s.counts = true := fun s => by
    rw [pa.mem_iff, List.mem_filter]
  have mb : ∀ s, s ∈ sortSources (b.filter Source.counts) ↔ s ∈ b ∧ s.counts = true := fun s => by
    rw [pb.mem_iff, List.mem_filter]
  have := records_inj (fun s hs => ha.ok s ((ma s).1 hs).1) (fun s hs => hb.ok s ((mb s).1 hs).1)
    (fun s hs t ht => hab s ((ma s).1 hs).1 ((ma s).1 hs).2 t ((mb t).1 ht).1 ((mb t).1 ht).2)
    (fun s hs t ht => hba s ((mb s).1 hs).1 ((mb s).1 hs).2 t ((ma t).1 ht).1 ((ma t).1 ht).2) h
  have e1 := pa.map fun s => (s.parts, s.content)
  have e2 := pb.map fun s => (s.parts, s.content)
  exact e1.symm.trans (this ▸ e2)

/-- C41: with a digest that does not collide on the two streams, such trees have different
fingerprints. -/
theorem fingerprint_determines_partial {H : Bytes → Str} {a b : List Source} (ha : TreeOk a)
    (hb : TreeOk b) (hab : Unmarked a b) (hba : Unmarked b a)
    (hH : H (sourceStream a) = H (sourceStream b) → sourceStream a = sourceStream b)
    (h : ¬ (production a).Perm (production b)) : fingerprint H a ≠ fingerprint H b :=
  fun he => h (stream_determines_partial ha hb hab hba (hH he))

/-- C41, the other direction: the fingerprint depends only on the production files, not on the order
in which the directories are listed. -/
theorem fingerprint_order_free (H : Bytes → Str) {a b : List Source} (ha : TreeOk a)
    (hb : TreeOk b) (h : (production a).Perm (production b)) : fingerprint H a = fingerprint H b := by
  -- production files are files, so the pairs determine the sources
  have back : ∀ l : List Source, (l.filter Source.counts) =
      (production l).map fun p => (⟨p.1, true, p.2⟩ : Source) := by
    intro l
    rw [production, List.map_map]
    conv_lhs => rw [← List.map_id (l.filter Source.counts)]
    refine List.map_congr_left fun s hs => ?_
    have h1 := (List.mem_filter.1 hs).2
    have h2 : s.isFile = true := by
      simp only [Source.counts, Bool.and_eq_true] at h1
      exact h1.1.1.1.1
    show s = ⟨s.parts, true, s.content⟩
    rw [← h2]
  have hperm : (a.filter Source.counts).Perm (b.filter Source.counts) := by
    rw [back a, back b]
    exact h.map _
  have nd : ∀ {l : List Source}, TreeOk l → ((l.filter Source.counts).map Source.parts).Nodup :=
    fun hl => hl.nodup.sublist (List.filter_sublist.map _)
  unfold fingerprint sourceStream
  rw [inOrder_unique (sortSources_inOrder (nd ha)) (sortSources_inOrder (nd hb))
    (((sortSources_perm _).trans hperm).trans (sortSources_perm _).symm)]

/-- C41: what is hashed: a file with a production suffix whose path below the package has no component
`test` or `__pycache__`, other than `_version.py`. -/
theorem counts_iff (pkg : Str) (dirs : List Str) (stem ext : Str) (b : Bytes) (hs : stem ≠ [])
    (he : '.' ∉ ext) :
    (⟨pkg :: dirs ++ [stem ++ '.' :: ext], true, b⟩ : Source).counts = true ↔
      (ext = "py".toList ∨ ext = "tsv".toList ∨ ext = "far".toList) ∧
      (∀ d ∈ dirs, d ≠ "test".toList ∧ d ≠ "__pycache__".toList) ∧
      stem ++ '.' :: ext ≠ "_version.py".toList := by
  have h1 : suffixOf (stem ++ '.' :: ext) = if ext = [] then [] else '.' :: ext := by
    have e1 : (stem ++ '.' :: ext).reverse = ext.reverse ++ '.' :: stem.reverse := by simp
    have e2 : ∀ c ∈ ext.reverse, (decide (c ≠ '.')) = true := by
      intro c hc
      have : c ≠ '.' := by
        rintro rfl
        exact he (by simpa using hc)
      simp [this]
    unfold suffixOf
    simp only [e1, List.takeWhile_append_of_pos e2, List.dropWhile_append_of_pos e2]
    simp [hs]
  have h2 : (pkg :: dirs ++ [stem ++ '.' :: ext]).getLast?.getD [] = stem ++ '.' :: ext := by
    rw [List.getLast?_concat]
    rfl
  have h3 : (pkg :: dirs ++ [stem ++ '.' :: ext]).tail = dirs ++ [stem ++ '.' :: ext] := rfl
  have h4 : ∀ w : Str, '.' ∉ w → stem ++ '.' :: ext ≠ w := by
    rintro w hw rfl
    exact hw (by simp)
  have t1 := h4 "test".toList (by decide)
  have t2 := h4 "__pycache__".toList (by decide)
  have h5 : suffixOf (stem ++ '.' :: ext) ∈ productionSuffixes ↔
      ext = "py".toList ∨ ext = "tsv".toList ∨ ext = "far".toList := by
    have e1 : ".py".toList = '.' :: "py".toList := rfl
    have e2 : ".tsv".toList = '.' :: "tsv".toList := rfl
    have e3 : ".far".toList = '.' :: "far".toList := rfl
    rw [h1, productionSuffixes, e1, e2, e3]
    generalize hp : "py".toList = p
    generalize ht : "tsv".toList = t
    generalize hf : "far".toList = f
    split
    · rename_i h
      subst h
      have n1 : ([] : Str) ≠ p := by subst hp; decide
      have n2 : ([] : Str) ≠ t := by subst ht; decide
      have n3 : ([] : Str) ≠ f := by subst hf; decide
      simp [n1, n2, n3]
    · simp
  unfold Source.counts
  simp only [h2, h3, Bool.and_eq_true, Bool.not_eq_true', decide_eq_true_eq,
    decide_eq_false_iff_not, h5, List.mem_append, List.mem_singleton, not_or, true_and]
  generalize "test".toList = w1 at *
  generalize "__pycache__".toList = w2 at *
  constructor
  · rintro ⟨⟨⟨h6, h7, -⟩, h8, -⟩, h9⟩
    exact ⟨h6, fun d hd => ⟨fun e => h7 (e ▸ hd), fun e => h8 (e ▸ hd)⟩, h9⟩
  · rintro ⟨h6, h7, h9⟩
    exact ⟨⟨⟨h6, fun e => (h7 _ e).1 rfl, fun e => t1 e.symm⟩, fun e => (h7 _ e).2 rfl,
      fun e => t2 e.symm⟩, h9⟩

/-- Files that count and files that do not. -/
example : (⟨["tn".toList, "x".toList, "a.tsv".toList], true, []⟩ : Source).counts = true ∧
    (⟨["tn".toList, "test".toList, "a.py".toList], true, []⟩ : Source).counts = false ∧
    (⟨["test".toList, "a.py".toList], true, []⟩ : Source).counts = true ∧
    (⟨["tn".toList, "_version.py".toList], true, []⟩ : Source).counts = false ∧
    (⟨["tn".toList, ".py".toList], true, []⟩ : Source).counts = false := by
  decide +kernel

/-- The two trees of the counterexample are not unmarked, and two others are. -/
example : TreeOk Demo.two ∧ Unmarked Demo.two Demo.two ∧ (production Demo.two).length = 2 := by
  refine ⟨Demo.two_ok, ?_, by decide +kernel⟩
  unfold Unmarked
  decide +kernel

end Verif.Cache
