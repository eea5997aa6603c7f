import Verif.Cache.Exec
import Verif.Cache.Once

/-
A small world that satisfies the assumptions, for the examples in `Props.lean`. A graph is a truth
value, written as one byte.
-/

namespace Verif.Cache.Demo

def ser (g : Bool) : Bytes := [if g then 1 else 0]

def parse : Bytes → Option Bool
  | [0] => some false
  | [1] => some true
  | _ => none

def sha (b : Bytes) : Str := b.map fun x => Char.ofNat (x.toNat + 97)

def metadata (g : Bool) : Json :=
  .obj [("sha256".toList, .str (sha (ser g))), ("size".toList, .int 1)]

def items : List (Str × Json) :=
  [("builder".toList, .str "b".toList),
   ("bundle_digest".toList, .str "ab".toList),
   ("cache_format".toList, .int 2),
   ("config".toList, .obj []),
   ("config_digest".toList, .str "cd".toList),
   ("ordertype".toList, .str "tn".toList),
   ("prefix".toList, .str "zh".toList),
   ("source_fingerprint".toList, .str "fp".toList)]

def manifest (t v : Bool) : Json :=
  .obj (("files".toList, .obj [(taggerName, metadata t), (verbalizerName, metadata v)]) :: items)

/-- The first characters of the two checksums of a manifest. -/
def dumps : Json → Bytes
  | .obj ((_, .obj [(_, .obj ((_, .str (a :: _)) :: _)), (_, .obj ((_, .str (b :: _)) :: _))]) :: _) =>
    [UInt8.ofNat a.toNat, UInt8.ofNat b.toNat]
  | _ => []

def loads : Bytes → Option Json
  | [a, b] => some (manifest (a == 98) (b == 98))
  | _ => none

@[reducible] def world : World where
  G := Bool
  ser := ser
  parse := parse
  opt := id
  sha := sha
  loads := loads
  dumps := dumps
  key := ⟨"ab".toList, "fp".toList⟩
  builder := .str "b".toList
  config := .obj []
  configDigest := "cd".toList
  ordertype := .str "tn".toList
  namePrefix := "zh".toList

theorem valid : world.key.Valid := by
  show "ab".toList.head? ≠ some '.'
  decide

theorem lawful : Lawful world where
  json := by
    intro x y
    refine ⟨_, ?_, fun k => rfl⟩
    cases x <;> cases y <;> rfl
  manifestSmall := by
    intro x y
    cases x <;> cases y <;> decide
  graphSmall := by
    intro x
    cases x <;> decide

theorem parses : ∀ g, world.parse (world.ser g) ≠ none := by
  intro g
  cases g <;> decide

/-- No failures. -/
def calm : Faults := ⟨fun _ => False, fun _ => False⟩

/-- Every failure. -/
def wild : Faults := ⟨fun _ => True, fun _ => True⟩

theorem reads : ReadsWork calm := by simp [ReadsWork, calm]

theorem isCalm : Calm world calm := by
  constructor <;> simp [calm, ReadsWork]

theorem undo : Undo world calm := by
  constructor <;> simp [calm]

/-- The names in the examples. -/
def names : List Name := ["ab".toList, ".ab.tmp-0".toList, ".ab.previous-0".toList,
  ".ab.corrupt-0".toList, "cd".toList]

def chance (p : Bool × Bool) : Chance Bool where
  names := names
  uuid := "0".toList
  pair := p

theorem nodup (p : Bool × Bool) : (chance p).names.Nodup := by
  show names.Nodup
  decide

/-- A parent directory with these directories. -/
def disk (l : List (Name × List (Name × Ent))) : FS Bool where
  entry := fun n => l.findIdx? fun p => p.1 == n
  node := fun i => match l[i]? with
    | some p => .dir p.2
    | none => .file
  next := l.length
  built := []
  moves := []

def empty : FS Bool := disk []

/-- A published bundle. -/
def full : FS Bool := disk [("ab".toList, bundleOf world true false)]

/-- A bundle of which a crash has left only the previous name. -/
def moved : FS Bool := disk [(".ab.previous-0".toList, bundleOf world true false)]

/-- A directory with a file of somebody else. -/
def junk : FS Bool :=
  disk [("ab".toList, bundleOf world true false), (".ab.corrupt-0".toList,
    [("tagger.fst".toList, .reg []), ("notes.txt".toList, .reg [])])]

theorem known (l : List (Name × List (Name × Ent))) (h : ∀ p ∈ l, p.1 ∈ names) (p : Bool × Bool) :
    Known (chance p) (disk l) := by
  intro n hn
  simp only [disk, ne_eq, List.findIdx?_eq_none_iff, not_forall] at hn
  obtain ⟨q, hq, h1⟩ := hn
  simp only [Bool.not_eq_false, beq_iff_eq] at h1
  exact h1 ▸ h q hq

theorem wf (l : List (Name × List (Name × Ent))) : Wf (disk l) := by
  refine ⟨?_, fun n i h => (List.findIdx?_eq_some_iff_findIdx_eq.1 h).1⟩
  · intro n m i h1 h2
    obtain ⟨h3, h4, -⟩ := List.findIdx?_eq_some_iff_getElem.1 h1
    obtain ⟨h5, h6, -⟩ := List.findIdx?_eq_some_iff_getElem.1 h2
    simp only [beq_iff_eq] at h4 h6
    rw [← h4, ← h6]

/-- Running the program from `fs` leads to an outcome that satisfies `P`. -/
def ends {α : Type} (c : Chance Bool) (p : Prog Bool α) (fs : FS Bool)
    (P : List (Σ o : Op, Except Err (Res Bool o)) → Except Err α → FS Bool → Bool) : Bool :=
  match exec world.key c p fs with
  | some (tr, x, fs') => P tr x fs'
  | none => false

theorem ends_run {α : Type} {F : Faults} {c : Chance Bool} (hc : c.names = names)
    (ha : Allowed c F) {l : List (Name × List (Name × Ent))} (hl : ∀ p ∈ l, p.1 ∈ names)
    {p : Prog Bool α}
    {P : List (Σ o : Op, Except Err (Res Bool o)) → Except Err α → FS Bool → Bool}
    (h : ends c p (disk l) P = true) :
    ∃ tr x fs', Run world.key F p (disk l) tr x fs' ∧ P tr x fs' = true := by
  unfold ends at h
  split at h
  · rename_i tr x fs' he
    have hk : Known c (disk l) := by
      intro n hn
      rw [hc]
      exact known l hl (true, true) n hn
    exact ⟨tr, x, fs', exec_run (by rw [hc]; decide) ha hk he, h⟩
  · cases h

/-- The first `n` operations of the program lead from `fs` to something that satisfies `P`, and
acquire the lock at most once before they release it. -/
def goes {α : Type} (c : Chance Bool) (n : Nat) (p : Prog Bool α) (fs : FS Bool)
    (P : Bool → Prog Bool α → FS Bool → Bool) : Bool :=
  match execN world.key c n p fs with
  | some (tr, q, fs') => lockOk false tr && P (heldEnd false tr) q fs'
  | none => false

theorem goes_reach {α : Type} {F : Faults} {crashes : Bool} {c : Chance Bool}
    (hc : c.names = names) (ha : Allowed c F) {n : Nat} {s : Sys Bool α} {i : Nat}
    {p : Prog Bool α} {P : Bool → Prog Bool α → FS Bool → Bool} (hk : Known c s.fs)
    (hp : s.proc i = .run p) (ho : ∀ j, s.held j = false) (h : goes c n p s.fs P = true) :
    ∃ s' q, Reach world.key F crashes s s' ∧ Known c s'.fs ∧ s'.proc i = .run q ∧
      P (s'.held i) q s'.fs = true ∧ ∀ j, j ≠ i → s'.held j = false ∧ s'.proc j = s.proc j := by
  unfold goes at h
  split at h
  · rename_i tr q fs' he
    simp only [Bool.and_eq_true] at h
    obtain ⟨s', h1, h2, h3, h4, h5, h6⟩ := Reach.execN (F := F) (crashes := crashes)
      (by rw [hc]; decide) ha he hk hp (fun j _ => ho j) (by rw [ho i]; exact h.1)
    subst h2
    rw [ho i] at h5
    exact ⟨s', q, h1, h3, h4, by rw [h5]; exact h.2, h6⟩
  · cases h

theorem allowed (F : Faults) (p : Bool × Bool) : Allowed (chance p) F :=
  ⟨fun _ _ h => (by cases h), fun h => (h rfl).elim⟩

theorem allowed_wild (c : Chance Bool) (h : c.fails .release = none) : Allowed c wild := by
  refine ⟨?_, fun _ => trivial⟩
  rintro o e he
  refine ⟨trivial, ?_⟩
  rintro rfl
  rw [h] at he
  cases he

/-- The program has ended with `a`. -/
def retIs {α : Type} [DecidableEq α] (a : α) (q : Prog Bool α) : Bool :=
  match q with
  | .ret b => b == a
  | _ => false

theorem retIs_eq {α : Type} [DecidableEq α] {a : α} {q : Prog Bool α} (h : retIs a q = true) :
    q = .ret a := by
  cases q with
  | ret b => rw [beq_iff_eq.1 h]
  | raise e => cases h
  | op o k => cases h

/-- The directory `n` has this content. -/
def hasDir (fs : FS Bool) (n : Name) (es : List (Name × Ent)) : Bool :=
  match fs.entry n with
  | some i => fs.node i == .dir es
  | none => false

theorem hasDir_eq {fs : FS Bool} {n : Name} {es : List (Name × Ent)} (h : hasDir fs n es = true) :
    ∃ i, fs.entry n = some i ∧ fs.node i = .dir es := by
  unfold hasDir at h
  split at h
  · rename_i i hi
    exact ⟨i, hi, by simpa using h⟩
  · cases h

theorem holds (t v : Bool) : Holds world (bundleOf world t v) (t, v) :=
  bundleOf_holds lawful (p := (t, v)) ⟨t, v, by cases t <;> rfl, by cases v <;> rfl, rfl⟩

theorem complete (t v : Bool) : Complete world (bundleOf world t v) :=
  ⟨bundleOf_names (W := world) t v, _, holds t v⟩

end Verif.Cache.Demo
