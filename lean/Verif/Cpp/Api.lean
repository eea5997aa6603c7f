import Verif.Cpp.Model

/-
Model of the C interface runtime/processor/wetext_processor_c_api.cc and of the program
runtime/bin/processor_main.cc.

Memory is a list of addressed objects. `new` takes any address not in use (`Allocator`); running out of memory is not
modelled. A null pointer is `none`. Whatever C++ leaves undefined (reading behind a buffer, using an address that holds no
such object, dereferencing null) is the outcome `undefined`.
-/

namespace Verif.Cpp.Api

open Verif.Cpp

/-- How a call can end other than by returning. -/
inductive Stop where
  /-- undefined behaviour -/
  | undefined
  /-- `LOG(FATAL)` or a failed `CHECK`: the process ends -/
  | abort
  /-- an exception leaves the function -/
  | thrown
  deriving Repr, DecidableEq

/-- The errors of the token parser as seen by its caller. -/
def Stop.of : CErr → Stop
  | .invalidArgument => .thrown
  | .fatal => .abort

/-- `wetext::Processor`, wetext_processor.h: the parse type and the two machines. A machine is the function from a
text to the string of its shortest path; `none` is the null pointer that `StdVectorFst::Read` returns for a file it
cannot read (wetext_processor.cc:22-23). -/
structure Proc where
  type : ParseType
  tagger : Option (Bytes → Bytes)
  verbalizer : Option (Bytes → Bytes)

/-- What can be read from the file system: the machine in a file. -/
abbrev Files := Bytes → Option (Bytes → Bytes)

/-- `Processor::Processor`, wetext_processor.cc:20-43. -/
def Proc.new (files : Files) (taggerPath verbalizerPath : Bytes) : Except Stop Proc :=
  match parseTypeOf taggerPath with
  | some t => .ok ⟨t, files taggerPath, files verbalizerPath⟩
  | none => .error .abort

/-- `Processor::Tag`, wetext_processor.cc:64-69; a null machine is dereferenced. -/
def Proc.tag (p : Proc) (x : Bytes) : Except Stop Bytes :=
  if x = [] then .ok []
  else match p.tagger with
    | none => .error .undefined
    | some f => .ok (Cpp.tag f x)

/-- `Processor::Verbalize`, wetext_processor.cc:71-82; the text is reordered before the machine is used. -/
def Proc.verbalize (p : Proc) (x : Bytes) : Except Stop Bytes :=
  if x = [] then .ok []
  else match p.verbalizer with
    | none =>
      match reorder (ordersOf (schemaOf p.type)) x with
      | .error e => .error (.of e)
      | .ok _ => .error .undefined
    | some f =>
      match Cpp.verbalize p.type f x with
      | .error e => .error (.of e)
      | .ok y => .ok y

/-- `Processor::Normalize`, wetext_processor.cc:84-86. -/
def Proc.normalize (p : Proc) (x : Bytes) : Except Stop Bytes :=
  match p.tag x with
  | .error e => .error e
  | .ok y => p.verbalize y

/-! ### Memory -/

/-- An object on the heap: a processor or an array of characters. -/
inductive Obj where
  | proc (p : Proc)
  | chars (b : Bytes)

abbrev Heap := List (Nat × Obj)

/-- `operator new`: any address that is not in use. -/
structure Allocator where
  pick : Heap → Nat
  fresh : ∀ h o, (pick h, o) ∉ h

/-- A `const char*` argument: null, a buffer of the caller (with the bytes from the pointer to the end of the buffer),
or an address on the heap. -/
inductive Arg where
  | null
  | buffer (b : Bytes)
  | heap (a : Nat)
  deriving DecidableEq

/-- The bytes before the first NUL; without one the end of the buffer is passed. -/
def cString (b : Bytes) : Except Stop Bytes :=
  if (0 : UInt8) ∈ b then .ok (b.takeWhile (· ≠ 0)) else .error .undefined

/-- The conversion of a `const char*` that is not null to `std::string`. -/
def Arg.read (h : Heap) : Arg → Except Stop Bytes
  | .null => .error .undefined
  | .buffer b => cString b
  | .heap a =>
    match h.lookup a with
    | some (.chars b) => cString b
    | _ => .error .undefined

/-- `CopyToCString`, wetext_processor_c_api.cc:14-20: a new array of `size() + 1` bytes with the text and the NUL that
`c_str()` puts behind it. -/
def copyToCString (al : Allocator) (h : Heap) (s : Bytes) : Nat × Heap :=
  (al.pick h, (al.pick h, .chars (s ++ [0])) :: h)

/-- The processing functions. -/
inductive Op where
  | tag
  | verbalize
  | normalize
  deriving DecidableEq

def Op.run : Op → Proc → Bytes → Except Stop Bytes
  | .tag => Proc.tag
  | .verbalize => Proc.verbalize
  | .normalize => Proc.normalize

/-- A call of the C interface. -/
inductive Call where
  | create (taggerPath verbalizerPath : Arg)
  | destroy (handle : Option Nat)
  | process (op : Op) (handle : Option Nat) (input : Arg)
  | free (str : Option Nat)
  deriving DecidableEq

/-- `delete`/`delete[]`. -/
def release (h : Heap) (a : Nat) : Heap := h.filter fun o => o.1 ≠ a

/-- One call: the returned pointer (null for `void`) and the heap after it. -/
def step (files : Files) (al : Allocator) (h : Heap) : Call → Except Stop (Option Nat × Heap)
  -- wetext_create_processor, wetext_processor_c_api.cc:25-36; `LOG(FATAL)` is no exception, so nothing is caught
  | .create t v =>
    if t = .null ∨ v = .null then .ok (none, h)
    else match t.read h, v.read h with
      | .error e, _ => .error e
      | _, .error e => .error e
      | .ok tp, .ok vp =>
        match Proc.new files tp vp with
        | .error .thrown => .ok (none, h)
        | .error e => .error e
        | .ok p => .ok (some (al.pick h), (al.pick h, .proc p) :: h)
  -- wetext_destroy_processor, wetext_processor_c_api.cc:38-42
  | .destroy none => .ok (none, h)
  | .destroy (some a) =>
    match h.lookup a with
    | some (.proc _) => .ok (none, release h a)
    | _ => .error .undefined
  -- WETEXT_RETURN_STRING, wetext_processor_c_api.cc:44-60
  | .process op hd i =>
    match hd with
    | none => .ok (none, h)
    | some a =>
      if i = .null then .ok (none, h)
      else match h.lookup a with
        | some (.proc p) =>
          match i.read h with
          | .error e => .error e
          | .ok x =>
            match op.run p x with
            | .error e => .error e
            | .ok y => let r := copyToCString al h y; .ok (some r.1, r.2)
        | _ => .error .undefined
  -- wetext_free_string, wetext_processor_c_api.cc:62-64
  | .free none => .ok (none, h)
  | .free (some a) =>
    match h.lookup a with
    | some (.chars _) => .ok (none, release h a)
    | _ => .error .undefined

/-- Calls one after the other, with the pointers they return. -/
def steps (files : Files) (al : Allocator) (h : Heap) : List Call → Except Stop (List (Option Nat) × Heap)
  | [] => .ok ([], h)
  | c :: cs =>
    match step files al h c with
    | .error e => .error e
    | .ok (r, h') =>
      match steps files al h' cs with
      | .error e => .error e
      | .ok (rs, h'') => .ok (r :: rs, h'')

/-! ### processor_main.cc -/

/-- `while (getline(file, line))`, processor_main.cc:48: a line ends before a line feed or at the end of the file;
reading fails when nothing is left. -/
def getlines (s : Bytes) : List Bytes :=
  if _h : s = [] then []
  else s.takeWhile (· ≠ 10) :: getlines ((s.dropWhile (· ≠ 10)).drop 1)
termination_by s.length
decreasing_by
  have h1 := (List.dropWhile_suffix (l := s) (fun x => decide (x ≠ 10))).length_le
  have h2 : 0 < s.length := List.length_pos_iff.2 _h
  rw [List.length_drop]
  omega

/-- One text, processor_main.cc:39-42 and 49-52: the tagged text is printed, then its verbalization. -/
def printText (p : Proc) (x : Bytes) : List Bytes × Option Stop :=
  match p.tag x with
  | .error e => ([], some e)
  | .ok t =>
    match p.verbalize t with
    | .error e => ([t], some e)
    | .ok y => ([t, y], none)

def printTexts (p : Proc) : List Bytes → List Bytes × Option Stop
  | [] => ([], none)
  | x :: xs =>
    match printText p x with
    | (out, some e) => (out, some e)
    | (out, none) =>
      let r := printTexts p xs
      (out ++ r.1, r.2)

/-- The flags, processor_main.cc:24-27. -/
structure Flags where
  text : Bytes
  file : Bytes
  tagger : Bytes
  verbalizer : Bytes

/-- `main`, processor_main.cc:29-57: the printed lines and how it ends. A file that cannot be opened is read as an
empty one. The parsing of the flags is gflags'. -/
def mainProgram (files : Files) (content : Bytes → Bytes) (f : Flags) : List Bytes × Option Stop :=
  if f.tagger = [] ∨ f.verbalizer = [] then ([], some .abort)
  else match Proc.new files f.tagger f.verbalizer with
    | .error e => ([], some e)
    | .ok p => printTexts p ((if f.text = [] then [] else [f.text]) ++ if f.file = [] then [] else getlines (content f.file))

end Verif.Cpp.Api
