import Verif.Cache.Json
import Mathlib.Data.List.Basic

/-
The paths of a bundle (tn/cache.py:389-433), on POSIX: the check of the prefix, the parts of `pathlib`
and `posixpath` that `CacheBundle.__init__` and `_assert_under_root` use, and the names derived in
`publish` and `remove_invalid`.

An absolute `Path` is the list of its components. The root is the result of
`Path(cache_root).expanduser().resolve(strict=False)`, so an absolute path without `.` and `..`
(`Resolved`). `os.path.normcase` is the identity on POSIX.
-/

namespace Verif.Cache

/-- `s.split("/")`. -/
def splitSlash : Str → List Str
  | [] => [[]]
  | c :: r =>
    if c = '/' then [] :: splitSlash r
    else match splitSlash r with
      | [] => [[c]]
      | h :: t => (c :: h) :: t

/-- `"/".join(l)`. -/
def joinSlash : List Str → Str
  | [] => []
  | [a] => a
  | a :: b :: rest => a ++ '/' :: joinSlash (b :: rest)

def dot : Str := ['.']
def dotdot : Str := ['.', '.']

/-- A component that `pathlib` and `commonpath` keep. -/
def keeps (c : Str) : Bool := c ≠ [] && c ≠ dot

/-! ### posixpath -/

/-- `initial_slashes` of `posixpath.normpath`. -/
def slashes : Str → Nat
  | '/' :: '/' :: '/' :: _ => 1
  | '/' :: '/' :: _ => 2
  | '/' :: _ => 1
  | _ => 0

/-- The loop of `posixpath.normpath`; the second list is `new_comps` reversed. -/
def normComps (abs : Bool) : List Str → List Str → List Str
  | [], acc => acc.reverse
  | c :: cs, acc =>
    if c = [] ∨ c = dot then normComps abs cs acc
    else if c ≠ dotdot ∨ (abs = false ∧ acc = []) ∨ acc.head? = some dotdot then
      normComps abs cs (c :: acc)
    else normComps abs cs acc.tail

/-- `posixpath.normpath`. -/
def normpath (p : Str) : Str :=
  if p = [] then dot
  else
    let t := List.replicate (slashes p) '/' ++ joinSlash (normComps (slashes p ≠ 0) (splitSlash p) [])
    if t = [] then dot else t

def isAbs (p : Str) : Bool := p.head? = some '/'

/-- `posixpath.abspath`. -/
def abspath (cwd p : Str) : Str := normpath (if isAbs p then p else cwd ++ '/' :: p)

/-- The longest common prefix. -/
def common : List Str → List Str → List Str
  | a :: as, b :: bs => if a = b then a :: common as bs else []
  | _, _ => []

/-- `posixpath.commonpath((a, b))`, `none` for `ValueError`. It compares the smallest and the largest
of the two lists, in one order or the other. -/
def commonpath (a b : Str) : Option Str :=
  if isAbs a ≠ isAbs b then none
  else some ((if isAbs a then ['/'] else []) ++
    joinSlash (common ((splitSlash a).filter keeps) ((splitSlash b).filter keeps)))

/-- `_assert_under_root`, cache.py:425-433: whether it passes. -/
def underRoot (cwd root path : Str) : Bool :=
  commonpath (abspath cwd root) (abspath cwd path) = some (abspath cwd root)

/-! ### pathlib -/

/-- `path / name` for an absolute path. -/
def child (p : List Str) (name : Str) : List Str :=
  if isAbs name then (splitSlash name).filter keeps else p ++ (splitSlash name).filter keeps

/-- `os.fspath` of an absolute path. -/
def fspath (p : List Str) : Str := '/' :: joinSlash p

/-- `Path(s).name`. -/
def pathName (s : Str) : Str := (((splitSlash s).filter keeps).getLast?).getD []

/-! ### CacheBundle.__init__ -/

/-- `[A-Za-z0-9_.-]`, cache.py:41. -/
def safeChar (c : Char) : Bool :=
  (65 ≤ c.toNat && c.toNat ≤ 90) || (97 ≤ c.toNat && c.toNat ≤ 122) ||
    (48 ≤ c.toNat && c.toNat ≤ 57) || c = '_' || c = '.' || c = '-'

/-- The check of the prefix, cache.py:390-392. -/
def prefixOk (s : Str) : Bool :=
  s ≠ dot && s ≠ dotdot && (s ≠ [] && s.all safeChar) && pathName s = s

inductive InitErr where
  | value
  | path
  deriving DecidableEq

/-- The paths of a bundle. -/
structure Paths where
  parent : List Str
  path : List Str
  lock : List Str

/-- `CacheBundle.__init__`, cache.py:390-392, 413-417. -/
def bundlePaths (cwd : Str) (root : List Str) (pre cd bd : Str) : Except InitErr Paths :=
  if prefixOk pre then
    let parent := child (child root pre) cd
    let path := child parent bd
    let lock := child parent ('.' :: bd ++ ".lock".toList)
    if underRoot cwd (fspath root) (fspath parent) ∧ underRoot cwd (fspath root) (fspath path) ∧
        underRoot cwd (fspath root) (fspath lock) then .ok ⟨parent, path, lock⟩
    else .error .path
  else .error .value

/-- The paths `publish` and `remove_invalid` derive: `self.parent / ".{}.tmp-{}".format(…)` and the
like, cache.py:707, 766-769, 793. -/
def residualPath (parent : List Str) (bd kind uuid : Str) : List Str :=
  child parent ('.' :: bd ++ kind ++ uuid)

end Verif.Cache
