import Verif.Cache.Json

/-
The parent directory of a key's bundles, the operations tn/cache.py performs on it, and programs
over these operations.

The parent directory (`CacheBundle.parent`) maps names to inodes and each inode is a node. A bundle
directory is the list of its entries; an entry that is a regular file is its bytes. Simplifications:
* opening and reading one file is one step (`Reader.lean` models the reading loop itself; no program
  here writes a file that another one can open, see `Props.lean`, C31);
* the ancestors of the parent are normal directories that exist (`_ensure_parent`, cache.py:501-509,
  succeeds; a missing parent is an empty one; `Path.lean` models the walk through the ancestors);
* `fsync` has no effect, so crashes are process deaths and not power failures;
* the lock file is only its lock;
* POSIX only (`os.name != "nt"`): the Windows branches are not modelled.
-/

namespace Verif.Cache

abbrev Bytes := List UInt8
abbrev Name := List Char
/-- Inode numbers. -/
notation "Ino" => Nat

/-- Kinds of directory entries told apart by `stat`. -/
inductive Kind where
  | reg | link | dir | special
  deriving DecidableEq

/-- An entry of a bundle directory. -/
inductive Ent where
  | reg (bytes : Bytes)
  | link
  | dir
  | special
  deriving DecidableEq

def Ent.kind : Ent → Kind
  | .reg _ => .reg
  | .link => .link
  | .dir => .dir
  | .special => .special

/-- An entry of the parent directory. -/
inductive Node where
  | dir (entries : List (Name × Ent))
  | file
  | link
  | special
  deriving DecidableEq

def Node.kind : Node → Kind
  | .dir _ => .dir
  | .file => .reg
  | .link => .link
  | .special => .special

/-- Exceptions: the classes the code tells apart. -/
inductive Err where
  | notFound     -- FileNotFoundError
  | loop         -- OSError with ELOOP or ENOTDIR
  | perm         -- PermissionError
  | os           -- any other OSError
  | path         -- CachePathError
  | integrity    -- CacheIntegrityError
  | cache        -- CacheError, CacheLockTimeout
  | value        -- ValueError
  | runtime      -- RuntimeError and the like
  | interrupt    -- KeyboardInterrupt and the like
  deriving DecidableEq

/-- `isinstance(error, OSError)`. -/
def Err.isOS : Err → Bool
  | .notFound | .loop | .perm | .os => true
  | _ => false

/-- `isinstance(error, ValueError)`. -/
def Err.isValue : Err → Bool
  | .integrity | .value => true
  | _ => false

inductive Op where
  /-- Open a directory of the parent without following links. -/
  | openDir (n : Name)
  | listFd (fd : Ino)
  /-- Open an entry of an open directory without following links and read it. -/
  | readFd (fd : Ino) (e : Name)
  | lstat (n : Name)
  | mtime (n : Name)
  | iterdir
  | scandir (n : Name)
  | lstatIn (n e : Name)
  | unlinkFd (fd : Ino) (e : Name)
  | rmdir (n : Name)
  | rename (a b : Name)
  | mkdtemp
  | write (n e : Name) (b : Bytes)
  | readPath (n e : Name)
  | uuid
  | openAnchor
  | acquire
  | writeOwner
  | release
  | build
  | fingerprint
  deriving DecidableEq

/-- Result types. -/
@[reducible] def Res (G : Type) : Op → Type
  | .openDir _ => Ino
  | .listFd _ => List Name
  | .readFd _ _ => Ent
  | .lstat _ => Kind × Ino
  | .mtime _ => Nat
  | .iterdir => List Name
  | .scandir _ => List Name
  | .lstatIn _ _ => Kind
  | .unlinkFd _ _ => Unit
  | .rmdir _ => Unit
  | .rename _ _ => Unit
  | .mkdtemp => Name
  | .write _ _ _ => Unit
  | .readPath _ _ => Ent
  | .uuid => Name
  | .openAnchor => Unit
  | .acquire => Unit
  | .writeOwner => Unit
  | .release => Unit
  | .build => G × G
  | .fingerprint => Str

/-- A program: operations with what is done with their results. -/
inductive Prog (G : Type) (α : Type) where
  | ret (a : α)
  | raise (e : Err)
  | op (o : Op) (k : Except Err (Res G o) → Prog G α)

namespace Prog
variable {G α β : Type}

def bind : Prog G α → (α → Prog G β) → Prog G β
  | ret a, f => f a
  | raise e, _ => raise e
  | op o k, f => op o fun r => (k r).bind f

instance : Monad (Prog G) where
  pure := ret
  bind := bind

/-- One operation. -/
def call (o : Op) : Prog G (Res G o) := op o fun r =>
  match r with
  | .ok v => ret v
  | .error e => raise e

/-- `try: p except ...: h`; `h` raises again what it does not catch. -/
def tryExcept : Prog G α → (Err → Prog G α) → Prog G α
  | ret a, _ => ret a
  | raise e, h => h e
  | op o k, h => op o fun r => (k r).tryExcept h

/-- `try: p finally: f`. -/
def tryFinally : Prog G α → Prog G Unit → Prog G α
  | ret a, f => f.bind fun _ => ret a
  | raise e, f => f.bind fun _ => raise e
  | op o k, f => op o fun r => (k r).tryFinally f

/-- Raises the error of an `Except`. -/
def ofExcept : Except Err α → Prog G α
  | .ok a => ret a
  | .error e => raise e

end Prog

/-- A rename: the names, and which node with which content was renamed. -/
structure Move where
  src : Name
  dst : Name
  ino : Ino
  node : Node

/-- The state: the parent directory, the next unused inode and, as a history no program looks at,
all pairs of graphs that were built and all renames, newest first. -/
structure FS (G : Type) where
  entry : Name → Option Ino
  node : Ino → Node
  next : Ino
  built : List (G × G)
  moves : List Move

namespace FS
variable {G : Type}

/-- `os.open(n, O_DIRECTORY | O_NOFOLLOW)`. -/
def openDir (fs : FS G) (n : Name) : Except Err Ino :=
  match fs.entry n with
  | none => .error .notFound
  | some i => match fs.node i with
    | .dir _ => .ok i
    | _ => .error .loop

/-- The entries of an inode that is a directory. -/
def ents (fs : FS G) (i : Ino) : List (Name × Ent) :=
  match fs.node i with
  | .dir es => es
  | _ => []

/-- Opening and reading an entry with `O_NOFOLLOW`. -/
def readEnt (es : List (Name × Ent)) (e : Name) : Except Err Ent :=
  match es.lookup e with
  | none => .error .notFound
  | some .link => .error .loop
  | some ent => .ok ent

def lstat (fs : FS G) (n : Name) : Except Err (Kind × Ino) :=
  match fs.entry n with
  | none => .error .notFound
  | some i => .ok ((fs.node i).kind, i)

/-- The entries of the directory with this name. -/
def inDir (fs : FS G) (n : Name) : Except Err (List (Name × Ent)) :=
  match fs.entry n with
  | none => .error .notFound
  | some i => match fs.node i with
    | .dir es => .ok es
    | _ => .error .loop

def lstatIn (fs : FS G) (n e : Name) : Except Err Kind := do
  let es ← fs.inDir n
  match es.lookup e with
  | none => .error .notFound
  | some ent => .ok ent.kind

def setNode (fs : FS G) (i : Ino) (x : Node) : FS G :=
  { fs with node := fun j => if j = i then x else fs.node j }

def setEntry (fs : FS G) (n : Name) (x : Option Ino) : FS G :=
  { fs with entry := fun m => if m = n then x else fs.entry m }

/-- Removing an entry; directories cannot be unlinked. -/
def unlinkFd (fs : FS G) (fd : Ino) (e : Name) : Except Err Unit × FS G :=
  match (fs.ents fd).lookup e with
  | none => (.error .notFound, fs)
  | some .dir => (.error .os, fs)
  | some _ => (.ok (), fs.setNode fd (.dir ((fs.ents fd).filter fun p => p.1 ≠ e)))

/-- Removing an empty directory. -/
def rmdir (fs : FS G) (n : Name) : Except Err Unit × FS G :=
  match fs.entry n with
  | none => (.error .notFound, fs)
  | some i => match fs.node i with
    | .dir [] => (.ok (), fs.setEntry n none)
    | .dir _ => (.error .os, fs)
    | _ => (.error .loop, fs)

/-- May `rename` replace the destination? A directory replaces only an empty directory, anything
else replaces only what is not a directory. -/
def mayReplace (src dst : Node) : Bool :=
  match src, dst with
  | .dir _, .dir [] => true
  | .dir _, _ => false
  | _, .dir _ => false
  | _, _ => true

/-- The name `b` instead of `a` for the inode `i`. -/
def move (fs : FS G) (a b : Name) (i : Ino) : FS G :=
  { fs with
    entry := fun m => if m = a then none else if m = b then some i else fs.entry m
    moves := ⟨a, b, i, fs.node i⟩ :: fs.moves }

/-- `os.replace` of two different names. -/
def rename (fs : FS G) (a b : Name) : Except Err Unit × FS G :=
  match fs.entry a with
  | none => (.error .notFound, fs)
  | some i =>
    match fs.entry b with
    | none => (.ok (), fs.move a b i)
    | some j =>
      if mayReplace (fs.node i) (fs.node j) then
        (.ok (), fs.move a b i)
      else (.error .os, fs)

/-- A new empty directory called `n`. -/
def mkdir (fs : FS G) (n : Name) : FS G :=
  { fs with
    entry := fun m => if m = n then some fs.next else fs.entry m
    node := fun j => if j = fs.next then .dir [] else fs.node j
    next := fs.next + 1 }

/-- Writing an entry of the directory with this name. Used only for directories the writer has made
itself, so an existing entry is simply replaced. -/
def write (fs : FS G) (n e : Name) (b : Bytes) : Except Err Unit × FS G :=
  match fs.entry n with
  | none => (.error .notFound, fs)
  | some i => match fs.node i with
    | .dir es => (.ok (), fs.setNode i (.dir ((e, .reg b) :: es.filter fun p => p.1 ≠ e)))
    | _ => (.error .loop, fs)

end FS

/-- What the parent directory of one key is used with: the key's digest, the names of the residuals
(cache.py:703-707) and the fingerprint of the sources. -/
structure Key where
  digest : Name
  fingerprint : Str

namespace Key

def tmp (k : Key) : Name := '.' :: k.digest ++ ".tmp-".toList
def previous (k : Key) : Name := '.' :: k.digest ++ ".previous-".toList
def corrupt (k : Key) : Name := '.' :: k.digest ++ ".corrupt-".toList

/-- `any(child.name.startswith(prefix) for prefix in prefixes)`, cache.py:710. -/
def residual (k : Key) (n : Name) : Bool :=
  k.tmp.isPrefixOf n || k.previous.isPrefixOf n || k.corrupt.isPrefixOf n

end Key

/-- Normal outcomes of the operations. What another key does in the same parent directory is seen
only by `iterdir`, whose answer is arbitrary for names that are not residuals of this key. Which
`uuid`, mtime or name of a new directory comes up is arbitrary. -/
def Norm {G : Type} (key : Key) : (o : Op) → FS G → Except Err (Res G o) → FS G → Prop
  | .openDir n, fs, r, fs' => r = fs.openDir n ∧ fs' = fs
  | .listFd fd, fs, r, fs' => r = .ok ((fs.ents fd).map Prod.fst) ∧ fs' = fs
  | .readFd fd e, fs, r, fs' => r = FS.readEnt (fs.ents fd) e ∧ fs' = fs
  | .lstat n, fs, r, fs' => r = fs.lstat n ∧ fs' = fs
  | .mtime n, fs, r, fs' =>
    fs' = fs ∧ match fs.entry n with
      | none => r = .error .notFound
      | some _ => ∃ t, r = .ok t
  | .iterdir, fs, r, fs' =>
    fs' = fs ∧ ∃ l : List Name, r = .ok l ∧ l.Nodup ∧
      ∀ n, key.residual n = true → (n ∈ l ↔ fs.entry n ≠ none)
  | .scandir n, fs, r, fs' => r = (fs.inDir n).map (·.map Prod.fst) ∧ fs' = fs
  | .lstatIn n e, fs, r, fs' => r = fs.lstatIn n e ∧ fs' = fs
  | .unlinkFd fd e, fs, r, fs' => r = (fs.unlinkFd fd e).1 ∧ fs' = (fs.unlinkFd fd e).2
  | .rmdir n, fs, r, fs' => r = (fs.rmdir n).1 ∧ fs' = (fs.rmdir n).2
  | .rename a b, fs, r, fs' => r = (fs.rename a b).1 ∧ fs' = (fs.rename a b).2
  | .mkdtemp, fs, r, fs' =>
    ∃ u : Name, fs.entry (key.tmp ++ u) = none ∧ r = .ok (key.tmp ++ u) ∧
      fs' = fs.mkdir (key.tmp ++ u)
  | .write n e b, fs, r, fs' => r = (fs.write n e b).1 ∧ fs' = (fs.write n e b).2
  | .readPath n e, fs, r, fs' => r = (fs.inDir n).bind (FS.readEnt · e) ∧ fs' = fs
  | .uuid, fs, r, fs' => fs' = fs ∧ ∃ u, r = .ok u
  | .openAnchor, fs, r, fs' => fs' = fs ∧ r = .ok ()
  | .acquire, fs, r, fs' => fs' = fs ∧ r = .ok ()
  | .writeOwner, fs, r, fs' => fs' = fs ∧ r = .ok ()
  | .release, fs, r, fs' => fs' = fs ∧ r = .ok ()
  | .build, fs, r, fs' => ∃ p, r = .ok p ∧ fs' = { fs with built := p :: fs.built }
  | .fingerprint, fs, r, fs' => fs' = fs ∧ r = .ok key.fingerprint

/-- Failures: any exception and no effect, except that a failed write may have written a part, and
that the sources may have another fingerprint than the key's. Releasing the lock cannot fail, since
closing the descriptor releases it as well (cache.py:679-686). -/
def Fault {G : Type} (key : Key) : (o : Op) → FS G → Except Err (Res G o) → FS G → Prop
  | .write n e b, fs, r, fs' =>
    (∃ x, r = .error x) ∧ (fs' = fs ∨ ∃ c, c <+: b ∧ fs' = (fs.write n e c).2)
  | .fingerprint, fs, r, fs' => fs' = fs ∧ ((∃ x, r = .error x) ∨ ∃ s, r = .ok s)
  | .release, _, _, _ => False
  | _, fs, r, fs' => fs' = fs ∧ ∃ x, r = .error x

/-- Which operations may fail, and which may be followed by an interrupt (`KeyboardInterrupt` or
another asynchronous exception) after they have taken effect. -/
structure Faults where
  fail : Op → Prop
  late : Op → Prop

/-- One operation. -/
def Sem {G : Type} (key : Key) (F : Faults) (o : Op) (fs : FS G) (r : Except Err (Res G o))
    (fs' : FS G) : Prop :=
  Norm key o fs r fs' ∨ F.fail o ∧ Fault key o fs r fs' ∨
    F.late o ∧ r = .error .interrupt ∧ ∃ r', Norm key o fs r' fs'

end Verif.Cache
