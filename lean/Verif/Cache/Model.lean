import Verif.Cache.Prog

/-
`CacheBundle`'s methods and `Processor.build_fst` as programs (tn/cache.py:296-379, 533-609, 643-822
and tn/processor.py:226-292), POSIX branches.
-/

namespace Verif.Cache

/-- The values a bundle works with: its key, the items of its identity, and the functions of Pynini,
`hashlib` and `json`. -/
structure World where
  /-- Graphs (`pynini.Fst`). -/
  G : Type
  /-- `graph.write`. -/
  ser : G → Bytes
  /-- `Fst.read_from_string`, `none` when it raises. -/
  parse : Bytes → Option G
  /-- `graph.optimize()`. -/
  opt : G → G
  /-- `hashlib.sha256(b).hexdigest()`. -/
  sha : Bytes → Str
  /-- `json.loads(b.decode("utf-8"))`, `none` when it raises. -/
  loads : Bytes → Option Json
  /-- `json.dump(v, f, ensure_ascii=False, sort_keys=True)` and a newline. -/
  dumps : Json → Bytes
  key : Key
  builder : Json
  config : Json
  configDigest : Str
  ordertype : Json
  namePrefix : Str

def taggerName : Name := "tagger.fst".toList
def verbalizerName : Name := "verbalizer.fst".toList
def manifestName : Name := "manifest.json".toList

/-- `_BUNDLE_FILENAMES`, cache.py:42. -/
def bundleNames : List Name := [taggerName, verbalizerName, manifestName]

/-- `_MANIFEST_MAX_BYTES`, cache.py:43. -/
def manifestMax : Nat := 1024 * 1024
/-- `sys.maxsize` of a 64-bit Python. -/
def maxsize : Nat := 2 ^ 63 - 1
/-- `_FST_MAX_BYTES`, cache.py:44. -/
def fstMax : Nat := min maxsize (2 * 1024 * 1024 * 1024)

section
variable (W : World)

/-- The name of the bundle in its parent directory, cache.py:411. -/
def World.final : Name := W.key.digest

/-- `_expected_manifest_identity`, cache.py:511-521. -/
def World.identity : List (Str × Json) :=
  [("builder".toList, W.builder),
   ("bundle_digest".toList, .str W.key.digest),
   ("cache_format".toList, .int 2),
   ("config".toList, W.config),
   ("config_digest".toList, .str W.configDigest),
   ("ordertype".toList, W.ordertype),
   ("prefix".toList, .str W.namePrefix),
   ("source_fingerprint".toList, .str W.key.fingerprint)]

/-- `_read_open_regular`, cache.py:227-259, for a file that does not change meanwhile. -/
def readOpenRegular (ent : Ent) (expected : Option Int) (max : Option Nat) : Except Err Bytes :=
  match ent with
  | .reg b =>
    if expected.any (fun s => s ≠ (b.length : Int)) then .error .integrity
    else if max.any (fun m => m < b.length) then .error .integrity
    else .ok b
  | _ => .error .path

/-- `_read_regular_at`, cache.py:284-299. -/
def readRegularAt (fd : Ino) (e : Name) (expected : Option Int) (max : Option Nat) :
    Prog W.G Bytes :=
  ((Prog.call (.readFd fd e)).tryExcept fun x =>
    if x = .loop then .raise .path else .raise x).bind fun ent =>
  Prog.ofExcept (readOpenRegular ent expected max)

/-- `_open_directory_chain`, cache.py:472-500, in its last component. -/
def openChain (n : Name) : Prog W.G Ino :=
  (Prog.call (.openDir n)).tryExcept fun x => if x = .loop then .raise .path else .raise x

/-- The first `try` of `_load_path`, cache.py:573-580. -/
def readManifest (fd : Ino) : Prog W.G (Option Json) :=
  ((readRegularAt W fd manifestName none (some manifestMax)).bind fun b =>
    .ret (W.loads b)).tryExcept fun x =>
      if x.isOS || x.isValue then .ret none else .raise x

/-- The checks of the manifest, cache.py:581-588: the `files` dict of a matching manifest. -/
def checkManifest (manifest : Option Json) : Option (List (Str × Json)) :=
  match manifest with
  | some (.obj m) =>
    if W.identity.all fun kv => pyEq (get m kv.1) kv.2 then
      match get m "files".toList with
      | .obj files =>
        if files.map Prod.fst ⊆ [taggerName, verbalizerName] ∧
            [taggerName, verbalizerName] ⊆ files.map Prod.fst then some files
        else none
      | _ => none
    else none
  | _ => none

/-- The size check of the loop in `_load_path`, cache.py:592-599. -/
def expectedSize (metadata : Json) : Option Int :=
  match metadata with
  | .obj m => match get m "size".toList with
    | .int s => if s < 0 ∨ s > maxsize then none else some s
    | _ => none
  | _ => none

/-- The checksum and the graph, cache.py:614-617. -/
def checkGraph (metadata : Json) (b : Bytes) : Option W.G :=
  match metadata with
  | .obj m => match get m "sha256".toList with
    | .str s => if s = W.sha b then (W.parse b).map W.opt else none
    | _ => none
  | _ => none

/-- One round of the loop in `_load_path`, cache.py:591-619. -/
def loadGraph (fd : Ino) (files : List (Str × Json)) (e : Name) : Prog W.G (Option W.G) :=
  match expectedSize (get files e) with
  | none => .ret none
  | some s =>
    ((readRegularAt W fd e (some s) (some fstMax)).bind fun b =>
      .ret (checkGraph W (get files e) b)).tryExcept fun x =>
        if x.isOS || x = .integrity then .ret none else .raise x

/-- `_load_path` after the directory is open, cache.py:565-620. -/
def loadOpen (fd : Ino) : Prog W.G (Option (W.G × W.G)) :=
  (Prog.call (.listFd fd)).bind fun entries =>
  if ¬ (entries ⊆ bundleNames ∧ bundleNames ⊆ entries) then .ret none else
  (readManifest W fd).bind fun manifest =>
  match checkManifest W manifest with
  | none => .ret none
  | some files =>
    (loadGraph W fd files taggerName).bind fun tagger =>
    match tagger with
    | none => .ret none
    | some t =>
      (loadGraph W fd files verbalizerName).bind fun verbalizer =>
      .ret (verbalizer.map fun v => (t, v))

/-- `_load_path`, cache.py:526-625. -/
def loadPath (n : Name) : Prog W.G (Option (W.G × W.G)) :=
  ((openChain W n).bind (loadOpen W)).tryExcept fun x =>
    if x = .notFound then .ret none else .raise x

/-- `os.path.lexists`. -/
def lexists (n : Name) : Prog W.G Bool :=
  ((Prog.call (.lstat n)).bind fun _ => .ret true).tryExcept fun x =>
    if x.isOS then .ret false else .raise x

/-- The check of the entries in `_remove_flat_bundle_impl`, cache.py:338-345: only links and the
known regular files are there. -/
def checkEntries (n : Name) : List Name → Prog W.G Bool
  | [] => .ret true
  | e :: es =>
    (Prog.call (.lstatIn n e)).bind fun kind =>
    match kind with
    | .link => checkEntries n es
    | .reg => if e ∈ bundleNames then checkEntries n es else .ret false
    | _ => .ret false

/-- The loop that unlinks the entries, cache.py:361-368. -/
def unlinkAll (fd : Ino) : List Name → Prog W.G Unit
  | [] => .ret ()
  | e :: es =>
    ((Prog.call (.unlinkFd fd e)).tryExcept fun x =>
      if x = .notFound then .ret () else .raise x).bind fun _ => unlinkAll fd es

/-- `_remove_flat_bundle_impl`, cache.py:320-379. The two inner `try`s do what the caller does with
the same exceptions and are left out. -/
def removeFlatImpl (n : Name) (bestEffort : Bool) : Prog W.G Bool :=
  ((Prog.call (.lstat n)).bind fun st => .ret (some st)).tryExcept (fun x =>
      if x = .notFound then .ret none else .raise x) |>.bind fun st? =>
  match st? with
  | none => .ret true
  | some (kind, ino) =>
    if kind ≠ .dir then
      if bestEffort then .ret false else .raise .path
    else
      (Prog.call (.scandir n)).bind fun entries =>
      (checkEntries W n entries).bind fun fine =>
      if ¬ fine then .ret false else
      (Prog.call (.openDir n)).bind fun fd =>
      if fd ≠ ino then .raise .path else
      (unlinkAll W fd entries).bind fun _ =>
      (Prog.call (.rmdir n)).bind fun _ =>
      .ret true

/-- `_remove_flat_bundle`, cache.py:307-317. -/
def removeFlat (n : Name) (bestEffort : Bool) : Prog W.G Bool :=
  (removeFlatImpl W n bestEffort).tryExcept fun x =>
    if x.isOS || x = .path then
      if bestEffort then .ret false else .raise x
    else .raise x

/-- `_replace_with_retry`, cache.py:735-747. -/
def replaceWithRetry (a b : Name) : Prog W.G Unit :=
  (Prog.call (.rename a b)).tryExcept fun x => if x = .perm then .raise .cache else .raise x

/-- `_check_bundle_directory`, cache.py:523-524 and 452-470, in its last component. -/
def checkBundleDirectory (n : Name) : Prog W.G Unit :=
  (Prog.call (.lstat n)).bind fun st => if st.1 = .dir then .ret () else .raise .path

/-- `remove_invalid`, cache.py:688-697. -/
def removeInvalid : Prog W.G Unit :=
  ((checkBundleDirectory W W.final).bind fun _ => .ret true).tryExcept (fun x =>
      if x = .notFound then .ret false else .raise x) |>.bind fun present =>
  if ¬ present then .ret () else
  (Prog.call .uuid).bind fun u =>
  (replaceWithRetry W W.final (W.key.corrupt ++ u)).bind fun _ =>
  (removeFlat W (W.key.corrupt ++ u) true).bind fun _ => .ret ()

/-- The directories among the residuals, cache.py:708-714. -/
def residualDirs : List Name → Prog W.G (List Name)
  | [] => .ret []
  | n :: ns =>
    if W.key.residual n then
      (Prog.call (.lstat n)).bind fun st =>
      (residualDirs ns).bind fun rest => .ret (if st.1 = .dir then n :: rest else rest)
    else residualDirs ns

/-- The mtimes, cache.py:718. -/
def withMtimes : List Name → Prog W.G (List (Name × Nat))
  | [] => .ret []
  | n :: ns =>
    (Prog.call (.mtime n)).bind fun t =>
    (withMtimes ns).bind fun rest => .ret ((n, t) :: rest)

/-- Insertion before the first smaller key. -/
def insertDesc (x : Name × Nat) : List (Name × Nat) → List (Name × Nat)
  | [] => [x]
  | y :: ys => if y.2 < x.2 then x :: y :: ys else y :: insertDesc x ys

/-- `sort(key=..., reverse=True)`, cache.py:718. -/
def sortDesc : List (Name × Nat) → List (Name × Nat)
  | [] => []
  | x :: xs => insertDesc x (sortDesc xs)

/-- The loop over the previous bundles, cache.py:719-724: the one that was recovered. -/
def recoverFirst : List Name → Prog W.G (Option Name)
  | [] => .ret none
  | n :: ns =>
    (loadPath W n).bind fun graphs =>
    match graphs with
    | some _ => (replaceWithRetry W n W.final).bind fun _ => .ret (some n)
    | none => recoverFirst ns

/-- The cleaning loop, cache.py:726-727. -/
def removeAll : List Name → Prog W.G Unit
  | [] => .ret ()
  | n :: ns => (removeFlat W n true).bind fun _ => removeAll ns

/-- `recover_residuals`, cache.py:699-727. -/
def recoverResiduals : Prog W.G Unit :=
  (Prog.call .iterdir).bind fun children =>
  (residualDirs W children).bind fun residuals =>
  (lexists W W.final).bind fun present =>
  (if present then .ret none else
    (withMtimes W (residuals.filter W.key.previous.isPrefixOf)).bind fun previous =>
    recoverFirst W ((sortDesc previous).map Prod.fst)).bind fun recovered =>
  removeAll W (residuals.filter fun n => some n ≠ recovered)

/-- `_write_fst`, cache.py:808-811. -/
def writeFst (n e : Name) (g : W.G) : Prog W.G Unit := Prog.call (.write n e (W.ser (W.opt g)))

/-- The size and checksum of a written file, cache.py:768-774. -/
def metadataOf (b : Bytes) : Json :=
  .obj [("sha256".toList, .str (W.sha b)), ("size".toList, .int b.length)]

/-- One round of the loop, cache.py:768-774. -/
def verifyFst (n e : Name) : Prog W.G Json :=
  (Prog.call (.readPath n e)).bind fun ent =>
  (Prog.ofExcept (readOpenRegular ent none none)).bind fun b =>
  match W.parse b with
  | none => .raise .runtime
  | some _ => .ret (metadataOf W b)

/-- The manifest, cache.py:776-777. -/
def manifestOf (t v : Json) : Json :=
  .obj (("files".toList, .obj [(taggerName, t), (verbalizerName, v)]) :: W.identity)

/-- `publish` up to the manifest, cache.py:762-779. -/
def stage (tmp : Name) (tagger verbalizer : W.G) : Prog W.G Unit :=
  (writeFst W tmp taggerName tagger).bind fun _ =>
  (writeFst W tmp verbalizerName verbalizer).bind fun _ =>
  (verifyFst W tmp taggerName).bind fun t =>
  (verifyFst W tmp verbalizerName).bind fun v =>
  Prog.call (.write tmp manifestName (W.dumps (manifestOf W t v)))

/-- Moving the current bundle away, cache.py:781-784. -/
def moveCurrent : Prog W.G (Option Name) :=
  (lexists W W.final).bind fun present =>
  if ¬ present then .ret none else
  (checkBundleDirectory W W.final).bind fun _ =>
  (Prog.call .uuid).bind fun u =>
  (replaceWithRetry W W.final (W.key.previous ++ u)).bind fun _ =>
  .ret (some (W.key.previous ++ u))

/-- The `except BaseException` of `publish`, cache.py:789-793. -/
def restore (previous : Option Name) (x : Err) : Prog W.G Unit :=
  match previous with
  | none => .raise x
  | some p =>
    (lexists W p).bind fun there =>
    if ¬ there then .raise x else
    (lexists W W.final).bind fun present =>
    if present then .raise x else
    (replaceWithRetry W p W.final).bind fun _ => .raise x

/-- Putting the new bundle in place, cache.py:785-793. -/
def swapIn (tmp : Name) (previous : Option Name) : Prog W.G Unit :=
  (replaceWithRetry W tmp W.final).tryExcept (restore W previous)

/-- The `finally` of `publish` while `temporary` is set, cache.py:796-798. -/
def cleanTmp (tmp : Name) : Prog W.G Unit :=
  (lexists W tmp).bind fun there =>
  if there then (removeFlat W tmp true).bind fun _ => .ret () else .ret ()

/-- `publish`, cache.py:749-798. After the new bundle is in place `temporary` is `None` and the
`finally` does nothing. -/
def publish (tagger verbalizer : W.G) : Prog W.G Unit :=
  (Prog.call .mkdtemp).bind fun tmp =>
  (((stage W tmp tagger verbalizer).bind fun _ =>
    (moveCurrent W).bind fun previous =>
    (swapIn W tmp previous).bind fun _ => .ret previous).tryExcept fun x =>
      (cleanTmp W tmp).bind fun _ => .raise x).bind fun previous =>
  match previous with
  | none => .ret ()
  | some p => (removeFlat W p true).bind fun _ => .ret ()

/-- The body of `with bundle.lock()`, processor.py:267-292. -/
def critical (overwrite : Bool) : Prog W.G (W.G × W.G) :=
  (recoverResiduals W).bind fun _ =>
  (if overwrite then .ret none else
    (loadPath W W.final).bind fun graphs =>
    match graphs with
    | some g => .ret (some g)
    | none => (removeInvalid W).bind fun _ => .ret none).bind fun found =>
  match found with
  | some g => .ret g
  | none =>
    (Prog.call .build).bind fun built =>
    (Prog.call .fingerprint).bind fun fp =>
    if fp ≠ W.key.fingerprint then .raise .runtime else
    (publish W (W.opt built.1) (W.opt built.2)).bind fun _ =>
    (loadPath W W.final).bind fun graphs =>
    match graphs with
    | none => .raise .runtime
    | some g => .ret g

/-- `lock`, cache.py:651-686; waiting is one operation (`Lock.lean` models the loop). -/
def withLock {α : Type} (body : Prog W.G α) : Prog W.G α :=
  (Prog.call .openAnchor).bind fun _ =>
  (Prog.call .acquire).bind fun _ =>
  ((Prog.call .writeOwner).bind fun _ => body).tryFinally (Prog.call .release)

/-- `build_fst` with a cache directory, processor.py:248-292. -/
def buildCached (overwrite : Bool) : Prog W.G (W.G × W.G) :=
  (if overwrite then .ret none else loadPath W W.final).bind fun graphs =>
  match graphs with
  | some g => .ret g
  | none => withLock W (critical W overwrite)

/-- `build_fst`, processor.py:226-292; `inMemory` is `cache_dir is False`. -/
def buildFst (inMemory overwrite : Bool) : Prog W.G (W.G × W.G) :=
  if inMemory then
    (Prog.call .build).bind fun p => .ret (W.opt p.1, W.opt p.2)
  else buildCached W overwrite

end

end Verif.Cache
