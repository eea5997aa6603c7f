import Verif.Cache.DumpLemmas
import Verif.Cache.Trans

/-
What `CacheBundle.__init__` derives from its arguments (tn/cache.py:389-416): the digests and the
path, and the `World` whose `json` functions are those of `Dump.lean`.
-/

namespace Verif.Cache

/-- What a bundle is for: the arguments of `CacheBundle.__init__`, cache.py:389, and
`_builder_identity()`, cache.py:127-135. -/
structure Ident where
  namePrefix : Str
  ordertype : Str
  config : Json
  fingerprint : Str
  builder : Json

/-- `config_identity`, cache.py:401-405. -/
def Ident.configIdentity (k : Ident) : Json :=
  .obj [("config".toList, k.config), ("ordertype".toList, .str k.ordertype),
    ("prefix".toList, .str k.namePrefix)]

/-- `config_digest`, cache.py:406; `H` is `hashlib.sha256(b).hexdigest()`. -/
def Ident.configDigest (H : Bytes → Str) (k : Ident) : Str := H (canonicalJson k.configIdentity)

/-- `bundle_identity`, cache.py:407-411. -/
def Ident.bundleIdentity (H : Bytes → Str) (k : Ident) : Json :=
  .obj [("builder".toList, k.builder), ("config_digest".toList, .str (k.configDigest H)),
    ("source_fingerprint".toList, .str k.fingerprint)]

/-- `bundle_digest`, cache.py:412. -/
def Ident.bundleDigest (H : Bytes → Str) (k : Ident) : Str := H (canonicalJson (k.bundleIdentity H))

/-- The components of `self.path` after the root, cache.py:413-414. -/
def Ident.path (H : Bytes → Str) (k : Ident) : List Str :=
  [k.namePrefix, k.configDigest H, k.bundleDigest H]

/-- The functions of Pynini and `hashlib`, and the value of float literals in `json`. -/
structure Tools where
  G : Type
  ser : G → Bytes
  parse : Bytes → Option G
  opt : G → G
  sha : Bytes → Str
  fl : Str → Option Int × Str

/-- The bundle of a key. -/
@[reducible] def Ident.world (T : Tools) (k : Ident) : World where
  G := T.G
  ser := T.ser
  parse := T.parse
  opt := T.opt
  sha := T.sha
  loads := loadBytes T.fl
  dumps := manifestBytes
  key := ⟨k.bundleDigest T.sha, k.fingerprint⟩
  builder := k.builder
  config := k.config
  configDigest := k.configDigest T.sha
  ordertype := .str k.ordertype
  namePrefix := k.namePrefix

/-- Configuration and builder are values without floats, with dicts in order of their keys (the
model's form of a dict, see `Dump.lean`). -/
structure Ident.Ok (k : Ident) : Prop where
  config : Clean k.config
  builder : Clean k.builder

/-! ### The digests determine the key -/

theorem canon_items {l : List (Str × Json)} (hs : Sorted l) (hc : CleanObj l) :
    canon (.obj l) = .obj l :=
  canon_clean _ (by rw [Clean]; exact ⟨hs, hc⟩)

theorem configIdentity_clean {k : Ident} (h : k.Ok) : Clean k.configIdentity := by
  unfold Ident.configIdentity
  rw [Clean]
  refine ⟨?_, ?_⟩
  · simp only [Sorted, List.pairwise_cons, List.mem_cons, List.not_mem_nil, or_false]
    refine ⟨?_, ?_, by simp, List.Pairwise.nil⟩
    · rintro p (rfl | rfl) <;> dsimp only <;> decide
    · rintro p rfl
      dsimp only
      decide
  · simp only [CleanObj, Clean, and_true]
    exact h.config

theorem bundleIdentity_clean (H : Bytes → Str) {k : Ident} (h : k.Ok) :
    Clean (k.bundleIdentity H) := by
  unfold Ident.bundleIdentity
  rw [Clean]
  refine ⟨?_, ?_⟩
  · simp only [Sorted, List.pairwise_cons, List.mem_cons, List.not_mem_nil, or_false]
    refine ⟨?_, ?_, by simp, List.Pairwise.nil⟩
    · rintro p (rfl | rfl) <;> dsimp only <;> decide
    · rintro p rfl
      dsimp only
      decide
  · simp only [CleanObj, Clean, and_true]
    exact h.builder

theorem canonicalJson_clean {v w : Json} (hv : Clean v) (hw : Clean w)
    (h : canonicalJson v = canonicalJson w) : v = w := by
  have := canonicalJson_injective (Clean.noFloat v hv) (Clean.noFloat w hw) h
  rwa [canon_clean v hv, canon_clean w hw] at this

theorem config_of_digest {H : Bytes → Str} {k k' : Ident} (hk : k.Ok) (hk' : k'.Ok)
    (hH : H (canonicalJson k.configIdentity) = H (canonicalJson k'.configIdentity) →
      canonicalJson k.configIdentity = canonicalJson k'.configIdentity)
    (h : k.configDigest H = k'.configDigest H) :
    k.config = k'.config ∧ k.ordertype = k'.ordertype ∧ k.namePrefix = k'.namePrefix := by
  have := canonicalJson_clean (configIdentity_clean hk) (configIdentity_clean hk') (hH h)
  simp only [Ident.configIdentity, Json.obj.injEq, List.cons.injEq, Prod.mk.injEq, Json.str.injEq,
    true_and, and_true] at this
  exact this

theorem builder_of_digest {H : Bytes → Str} {k k' : Ident} (hk : k.Ok) (hk' : k'.Ok)
    (hH : H (canonicalJson (k.bundleIdentity H)) = H (canonicalJson (k'.bundleIdentity H)) →
      canonicalJson (k.bundleIdentity H) = canonicalJson (k'.bundleIdentity H))
    (h : k.bundleDigest H = k'.bundleDigest H) :
    k.builder = k'.builder ∧ k.configDigest H = k'.configDigest H ∧
      k.fingerprint = k'.fingerprint := by
  have := canonicalJson_clean (bundleIdentity_clean H hk) (bundleIdentity_clean H hk') (hH h)
  simp only [Ident.bundleIdentity, Json.obj.injEq, List.cons.injEq, Prod.mk.injEq, Json.str.injEq,
    true_and, and_true] at this
  exact this

/-! ### A written manifest is read back -/

/-- The items of the manifest in the order of their keys. -/
theorem manifest_keys (W : World) (f : Json) :
    (((("files".toList, f) :: W.identity).map Prod.fst)).Nodup := by
  show (["files".toList, "builder".toList, "bundle_digest".toList, "cache_format".toList,
    "config".toList, "config_digest".toList, "ordertype".toList, "prefix".toList,
    "source_fingerprint".toList] : List Str).Nodup
  decide

theorem metadataOf_clean (W : World) (b : Bytes) : Clean (metadataOf W b) := by
  unfold metadataOf
  rw [Clean]
  refine ⟨?_, by simp [CleanObj, Clean]⟩
  simp only [Sorted, List.pairwise_cons, List.mem_cons, List.not_mem_nil, or_false]
  refine ⟨?_, by simp, List.Pairwise.nil⟩
  rintro p rfl
  show strLt "sha256".toList "size".toList = true
  decide

theorem files_clean (W : World) (b b' : Bytes) :
    Clean (.obj [(taggerName, metadataOf W b), (verbalizerName, metadataOf W b')]) := by
  rw [Clean]
  refine ⟨?_, ?_⟩
  · simp only [Sorted, List.pairwise_cons, List.mem_cons, List.not_mem_nil, or_false]
    refine ⟨?_, by simp, List.Pairwise.nil⟩
    rintro p rfl
    show strLt "tagger.fst".toList "verbalizer.fst".toList = true
    decide
  · simp only [CleanObj, and_true]
    exact ⟨metadataOf_clean W b, metadataOf_clean W b'⟩

theorem manifest_read {T : Tools} {k : Ident} (hk : k.Ok) (b b' : Bytes) : ∃ m,
    loadBytes T.fl (manifestBytes (manifestOf (k.world T) (metadataOf (k.world T) b)
      (metadataOf (k.world T) b'))) = some (.obj m) ∧
    ∀ j, m.lookup j = (("files".toList, Json.obj [(taggerName, metadataOf (k.world T) b),
      (verbalizerName, metadataOf (k.world T) b')]) :: (k.world T).identity).lookup j := by
  have hc : CleanObj (("files".toList, Json.obj [(taggerName, metadataOf (k.world T) b),
      (verbalizerName, metadataOf (k.world T) b')]) :: (k.world T).identity) := by
    simp only [World.identity, CleanObj, Clean, and_true, true_and]
    have := files_clean (k.world T) b b'
    rw [Clean] at this
    exact ⟨⟨this.1, metadataOf_clean _ b, metadataOf_clean _ b'⟩, hk.builder, hk.config⟩
  refine ⟨_, ?_, fun j => lookup_dictOf (manifest_keys (k.world T) _) j⟩
  rw [loadBytes_manifest T.fl]
  · rw [manifestOf, canon, canonObj_clean _ hc]
  · rw [manifestOf, NoFloat]
    exact CleanObj.noFloat _ hc

/-- `Lawful` of a key whose written sizes are within the limits. -/
theorem Ident.lawful {T : Tools} {k : Ident} (hk : k.Ok)
    (hm : ∀ b b', (manifestBytes (manifestOf (k.world T) (metadataOf (k.world T) b)
      (metadataOf (k.world T) b'))).length ≤ manifestMax)
    (hg : ∀ g, (T.ser g).length ≤ fstMax) : Lawful (k.world T) := by
  constructor
  · intro x y
    obtain ⟨m, h1, h2⟩ := manifest_read (T := T) hk (T.ser x) (T.ser y)
    refine ⟨m, ?_, ?_⟩
    · dsimp only
      rw [h1]
    · exact h2
  · intro x y
    exact hm (T.ser x) (T.ser y)
  · exact hg

/-! ### A manifest of another key -/

theorem pyEq_str {a b : Str} (h : pyEq (.str a) (.str b) = true) : a = b := by
  rw [pyEq] at h
  exact beq_iff_eq.1 h

/-- A manifest written for `k'` is accepted for `k` only when the digests agree. -/
theorem digests_of_manifestOk {T : Tools} {k k' : Ident} (hk' : k'.Ok) {b b' : Bytes}
    {m : List (Str × Json)} (hm : loadBytes T.fl (manifestBytes (manifestOf (k'.world T)
      (metadataOf (k'.world T) b) (metadataOf (k'.world T) b'))) = some (.obj m))
    (h : ManifestOk (k.world T) m) :
    k'.bundleDigest T.sha = k.bundleDigest T.sha ∧ k'.configDigest T.sha = k.configDigest T.sha := by
  obtain ⟨m', h1, h2⟩ := manifest_read (T := T) hk' b b'
  rw [h1] at hm
  obtain rfl : m' = m := by
    injection hm with hm
    injection hm
  have e1 : get m' "bundle_digest".toList = .str (k'.bundleDigest T.sha) := by
    rw [get, h2]
    rfl
  have e2 : get m' "config_digest".toList = .str (k'.configDigest T.sha) := by
    rw [get, h2]
    rfl
  have h3 := h.bundleDigest
  have h4 := h.configDigest
  rw [e1] at h3
  rw [e2] at h4
  exact ⟨pyEq_str h3, pyEq_str h4⟩

end Verif.Cache
