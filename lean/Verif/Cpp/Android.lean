import Verif.Cpp.Api

/-
Model of the Android binding runtime/bindings/android/wetextprocessing.cc. The Kotlin side
(runtime/android/.../WeTextProcessing.kt:9-16) declares the three functions with strings that are not null, so null
strings are not modelled. `JNI_OnLoad` (lines 54-80) only registers the functions and is not modelled. The functions of
the Java Native Interface are modelled after its specification, chapters 3 ("Modified UTF-8") and 4. The results of
`GetStringUTFChars` are not checked for null, which means out of memory; that is not modelled.
-/

namespace Verif.Cpp.Android

open Verif.Cpp
open Verif.Cpp.Api (Stop Proc Files cString)

/-- A Java string: its UTF-16 code units. -/
abbrev JString := List UInt16

/-- Modified UTF-8 of a code unit (JNI specification, chapter 3): NUL takes two bytes, and each half of a surrogate
pair takes three. -/
def unitBytes (u : UInt16) : Bytes :=
  let n := u.toNat
  if n ≠ 0 ∧ n ≤ 0x7f then [UInt8.ofNat n]
  else if n ≤ 0x7ff then [UInt8.ofNat (n / 64 + 0xc0), UInt8.ofNat (n % 64 + 0x80)]
  else [UInt8.ofNat (n / 4096 + 0xe0), UInt8.ofNat (n / 64 % 64 + 0x80), UInt8.ofNat (n % 64 + 0x80)]

/-- `GetStringUTFChars`: a new array with the string in modified UTF-8 and a NUL behind it. -/
def getStringUTFChars (s : JString) : Bytes := s.flatMap unitBytes ++ [0]

/-- Reading modified UTF-8; `none` if it is not that. -/
def decode : Bytes → Option JString
  | [] => some []
  | a :: s =>
    if a.toNat < 0x80 then (decode s).map (UInt16.ofNat a.toNat :: ·)
    else if a.toNat / 32 = 6 then
      match s with
      | b :: s => if b.toNat / 64 = 2 then (decode s).map (UInt16.ofNat (a.toNat % 32 * 64 + b.toNat % 64) :: ·) else none
      | [] => none
    else if a.toNat / 16 = 14 then
      match s with
      | b :: c :: s =>
        if b.toNat / 64 = 2 ∧ c.toNat / 64 = 2 then
          (decode s).map (UInt16.ofNat (a.toNat % 16 * 4096 + b.toNat % 64 * 64 + c.toNat % 64) :: ·)
        else none
      | _ => none
    else none
  termination_by s => s.length

/-- `NewStringUTF` of `c_str()`: the string up to the NUL; undefined if it is not modified UTF-8. -/
def newStringUTF (s : Bytes) : Except Stop JString :=
  match cString (s ++ [0]) with
  | .error e => .error e
  | .ok t =>
    match decode t with
    | some j => .ok j
    | none => .error .undefined

/-- The global variables (lines 22-23) and the arrays got from `GetStringUTFChars` that are not yet released; the code
has no `ReleaseStringUTFChars`. -/
structure State where
  tn : Option Proc
  itn : Option Proc
  arrays : List Bytes

/-- The state when the library is loaded. -/
def start : State := ⟨none, none, []⟩

/-- A call from Kotlin. -/
inductive Call where
  | init (modelDir : JString)
  | normalize (input : JString)
  | inverseNormalize (input : JString)

/-- `init`, lines 25-35. -/
def init (files : Files) (st : State) (modelDir : JString) : Except Stop State :=
  let array := getStringUTFChars modelDir
  match cString array with
  | .error e => .error e
  | .ok dir =>
    match Proc.new files (dir ++ lit "/zh_tn_tagger.fst") (dir ++ lit "/zh_tn_verbalizer.fst") with
    | .error e => .error e
    | .ok tn =>
      match Proc.new files (dir ++ lit "/zh_itn_tagger.fst") (dir ++ lit "/zh_itn_verbalizer.fst") with
      | .error e => .error e
      | .ok itn => .ok ⟨some tn, some itn, array :: st.arrays⟩

/-- `normalize` and `inverse_normalize`, lines 37-51, with `processorTN` or `processorITN`; a null pointer is
dereferenced. -/
def process (proc : Option Proc) (st : State) (input : JString) : Except Stop (JString × State) :=
  let array := getStringUTFChars input
  match cString array with
  | .error e => .error e
  | .ok text =>
    match proc with
    | none => .error .undefined
    | some p =>
      match p.tag text with
      | .error e => .error e
      | .ok tagged =>
        match p.verbalize tagged with
        | .error e => .error e
        | .ok normalized =>
          match newStringUTF normalized with
          | .error e => .error e
          | .ok result => .ok (result, { st with arrays := array :: st.arrays })

/-- One call: what it returns (nothing for `init`) and the state after it. -/
def step (files : Files) (st : State) : Call → Except Stop (Option JString × State)
  | .init d =>
    match init files st d with
    | .error e => .error e
    | .ok st' => .ok (none, st')
  | .normalize s =>
    match process st.tn st s with
    | .error e => .error e
    | .ok (r, st') => .ok (some r, st')
  | .inverseNormalize s =>
    match process st.itn st s with
    | .error e => .error e
    | .ok (r, st') => .ok (some r, st')

/-- Calls one after another. -/
def run (files : Files) (st : State) : List Call → Except Stop (List (Option JString) × State)
  | [] => .ok ([], st)
  | c :: cs =>
    match step files st c with
    | .error e => .error e
    | .ok (r, st') =>
      match run files st' cs with
      | .error e => .error e
      | .ok (rs, st'') => .ok (r :: rs, st'')

end Verif.Cpp.Android
