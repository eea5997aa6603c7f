import Verif.Cache.Model

/-
What a directory content means, independently of the programs.
-/

namespace Verif.Cache

/-- The first list has no entry that the second one does not have. -/
def Sub (es fs : List (Name × Ent)) : Prop :=
  ∀ n e, es.lookup n = some e → fs.lookup n = some e

/-- Exactly the three files' names are there. -/
def NamesOk (es : List (Name × Ent)) : Prop :=
  ∀ n, n ∈ es.map Prod.fst ↔
    n = "tagger.fst".toList ∨ n = "verbalizer.fst".toList ∨ n = "manifest.json".toList

variable (W : World)

/-- The manifest is of this key: configuration, builder, sources, order type and prefix. -/
structure ManifestOk (m : List (Str × Json)) : Prop where
  builder : pyEq (get m "builder".toList) W.builder = true
  bundleDigest : pyEq (get m "bundle_digest".toList) (.str W.key.digest) = true
  cacheFormat : pyEq (get m "cache_format".toList) (.int 2) = true
  config : pyEq (get m "config".toList) W.config = true
  configDigest : pyEq (get m "config_digest".toList) (.str W.configDigest) = true
  ordertype : pyEq (get m "ordertype".toList) W.ordertype = true
  namePrefix : pyEq (get m "prefix".toList) (.str W.namePrefix) = true
  fingerprint : pyEq (get m "source_fingerprint".toList) (.str W.key.fingerprint) = true

/-- A file has the recorded size and checksum and is the graph `g`. -/
def FileOk (es : List (Name × Ent)) (files : List (Str × Json)) (n : Name) (g : W.G) : Prop :=
  ∃ b md x, es.lookup n = some (.reg b) ∧ files.lookup n = some (.obj md) ∧
    md.lookup "size".toList = some (.int b.length) ∧ b.length ≤ 2147483648 ∧
    md.lookup "sha256".toList = some (.str (W.sha b)) ∧ W.parse b = some x ∧ g = W.opt x

/-- The directory holds the graphs `g`: its manifest is of this key and records both files. -/
def Holds (es : List (Name × Ent)) (g : W.G × W.G) : Prop :=
  ∃ b m files, es.lookup "manifest.json".toList = some (.reg b) ∧ b.length ≤ 1048576 ∧
    W.loads b = some (.obj m) ∧ ManifestOk W m ∧
    m.lookup "files".toList = some (.obj files) ∧
    (∀ k, k ∈ files.map Prod.fst ↔ k = "tagger.fst".toList ∨ k = "verbalizer.fst".toList) ∧
    FileOk W es files "tagger.fst".toList g.1 ∧ FileOk W es files "verbalizer.fst".toList g.2

/-- The directory is a loadable bundle. -/
def Complete (es : List (Name × Ent)) : Prop := NamesOk es ∧ ∃ g, Holds W es g

/-- There is a loadable bundle under this name. -/
def CompleteAt (fs : FS W.G) (n : Name) : Prop :=
  ∃ i es, fs.entry n = some i ∧ fs.node i = .dir es ∧ Complete W es

/-- A loadable bundle is under the final name, or the final name is free and a loadable bundle is
under a `.previous-` name of the key. -/
def Recoverable (fs : FS W.G) : Prop :=
  CompleteAt W fs W.key.digest ∨
    fs.entry W.key.digest = none ∧
      ∃ u, CompleteAt W fs ('.' :: W.key.digest ++ ".previous-".toList ++ u)

/-- The graphs read back from what is written for the built pair `p`. -/
def Reloads (p g : W.G × W.G) : Prop :=
  ∃ x y, W.parse (W.ser (W.opt (W.opt p.1))) = some x ∧
    W.parse (W.ser (W.opt (W.opt p.2))) = some y ∧ g = (W.opt x, W.opt y)

end Verif.Cache
