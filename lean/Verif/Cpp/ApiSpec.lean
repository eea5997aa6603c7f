import Verif.Cpp.Api

/-
What a client of the C interface may do and what it gets. A client knows the pointers that were returned to it and not
yet given back, and what they stand for; nothing here speaks of the memory behind them.
-/

namespace Verif.Cpp.Api.Spec

open Verif.Cpp Verif.Cpp.Api

/-- What a pointer stands for: a processor made from two files, or a text. -/
inductive Thing where
  | processor (taggerPath verbalizerPath : Bytes)
  | text (t : Bytes)

/-- The pointers that the client has. -/
abbrev Owned := List (Nat × Thing)

/-- The text before the first NUL. -/
def cut : Bytes → Bytes
  | [] => []
  | b :: s => if b = 0 then [] else b :: cut s

/-- An argument that gives a text: a buffer with a NUL in it, or a string that the client got. -/
inductive Gives (o : Owned) : Arg → Bytes → Prop
  | buffer {t rest : Bytes} : 0 ∉ t → Gives o (.buffer (t ++ 0 :: rest)) t
  | own {a : Nat} {t : Bytes} : (a, .text t) ∈ o → Gives o (.heap a) t

/-- What the C++ runtime returns for a text when its files can be read. -/
inductive Answers (files : Files) (tp vp : Bytes) : Op → Bytes → Bytes → Prop
  | tagNone : Answers files tp vp .tag [] []
  | tag {f : Bytes → Bytes} {x : Bytes} : x ≠ [] → files tp = some f → Answers files tp vp .tag x (Cpp.tag f x)
  | verbalizeNone : Answers files tp vp .verbalize [] []
  | verbalize {ty : ParseType} {f : Bytes → Bytes} {x y : Bytes} : x ≠ [] → parseTypeOf tp = some ty → files vp = some f →
      Cpp.verbalize ty f x = .ok y → Answers files tp vp .verbalize x y
  | normalize {x t y : Bytes} : Answers files tp vp .tag x t → Answers files tp vp .verbalize t y →
      Answers files tp vp .normalize x y

/-- A call that the client may make, with the pointer it gets and the pointers it has afterwards. -/
inductive Does (files : Files) (o : Owned) : Call → Option Nat → Owned → Prop
  | createNull {t v : Arg} : t = .null ∨ v = .null → Does files o (.create t v) none o
  | create {t v : Arg} {tp vp : Bytes} {a : Nat} : Gives o t tp → Gives o v vp → (∃ ty, parseTypeOf tp = some ty) →
      (∀ th, (a, th) ∉ o) → Does files o (.create t v) (some a) ((a, .processor tp vp) :: o)
  | destroyNull : Does files o (.destroy none) none o
  | destroy {a : Nat} {tp vp : Bytes} : (a, .processor tp vp) ∈ o →
      Does files o (.destroy (some a)) none (o.filter fun e => e.1 ≠ a)
  | processNull {op : Op} {hd : Option Nat} {i : Arg} : hd = none ∨ i = .null → Does files o (.process op hd i) none o
  | process {op : Op} {hd a : Nat} {i : Arg} {tp vp x y : Bytes} : (hd, .processor tp vp) ∈ o → Gives o i x →
      Answers files tp vp op x y → (∀ th, (a, th) ∉ o) → Does files o (.process op (some hd) i) (some a) ((a, .text (cut y)) :: o)
  | freeNull : Does files o (.free none) none o
  | free {a : Nat} {t : Bytes} : (a, .text t) ∈ o → Does files o (.free (some a)) none (o.filter fun e => e.1 ≠ a)

/-- A program that uses the C interface: the next call, depending on the pointers returned so far; it may stop. -/
abbrev Client := List (Option Nat) → Option Call

/-- What can happen to a client: its calls, the pointers it got, and the pointers it has. -/
inductive History (files : Files) (k : Client) : List Call → List (Option Nat) → Owned → Prop
  | start : History files k [] [] []
  | call {cs : List Call} {rs : List (Option Nat)} {o o' : Owned} {c : Call} {r : Option Nat} : History files k cs rs o →
      k rs = some c → Does files o c r o' → History files k (cs ++ [c]) (rs ++ [r]) o'

/-- A client that keeps to the rules: whatever it has been given, its next call is one it may make. -/
def Disciplined (files : Files) (k : Client) : Prop :=
  ∀ cs rs o, History files k cs rs o → ∀ c, k rs = some c → ∃ r o', Does files o c r o'

/-- The lines of a file for the C++ program. -/
inductive Lines : Bytes → List Bytes → Prop
  | nil : Lines [] []
  | last {t : Bytes} : t ≠ [] → 10 ∉ t → Lines t [t]
  | more {t c : Bytes} {ts : List Bytes} : 10 ∉ t → Lines c ts → Lines (t ++ 10 :: c) (t :: ts)

end Verif.Cpp.Api.Spec
