import Verif.Utils.Labels

/-
Model of `get_abs_path`, itn/utils.py:22-30, on POSIX paths. A path is the list of its parts below `/`. Paths with exactly
two slashes in front and characters that no path may have (NUL) are left out.
-/

namespace Verif.Utils

/-- The text between the slashes. -/
def splitSlash : Str → List Str
  | [] => [[]]
  | c :: s =>
    if c = '/' then [] :: splitSlash s
    else match splitSlash s with
      | [] => [[c]]
      | l :: ls => (c :: l) :: ls

/-- `PurePosixPath(s).parts` below the root: empty parts and `.` are dropped. -/
def partsOf (s : Str) : List Str := (splitSlash s).filter fun a => a != [] && a != ['.']

/-- `_PACKAGE_ROOT / rel_path`, itn/utils.py:25: an absolute path replaces what is before it. -/
def joinPath (root : List Str) (rel : Str) : List Str :=
  if rel.head? = some '/' then partsOf rel else root ++ partsOf rel

/-- One part of a path without symbolic links: `..` of `/` is `/`. -/
def walk (at_ : List Str) (a : Str) : List Str := if a = ['.', '.'] then at_.dropLast else at_ ++ [a]

/-- `Path.resolve` if nothing on the way is a symbolic link. -/
def lexical (p : List Str) : List Str := p.foldl walk []

/-- `str(path)`. -/
def showPath (p : List Str) : Str := '/' :: List.intercalate ['/'] p

/-- `get_abs_path`, itn/utils.py:22-30, for any `Path.resolve`; `none` is `ValueError`. `root` is `_PACKAGE_ROOT`,
itn/utils.py:19. -/
def getAbsPath (resolve : List Str → List Str) (root : List Str) (rel : Str) : Option Str :=
  if root.isPrefixOf (resolve (joinPath root rel)) then some (showPath (resolve (joinPath root rel))) else none

end Verif.Utils
