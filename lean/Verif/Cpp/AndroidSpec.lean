import Verif.Cpp.Android
import Verif.Cpp.Lemmas

/-
What an Android app gets from the binding. Modified UTF-8 is not spoken of here: texts go in and come out as UTF-16, and
the processors work on UTF-8.
-/

namespace Verif.Cpp.Android.Spec

open Verif.Cpp Verif.Cpp.Android
open Verif.Cpp.Api (Files)

/-- UTF-16 of a character. -/
def units (c : Char) : JString :=
  if c.toNat < 0x10000 then [UInt16.ofNat c.toNat]
  else [UInt16.ofNat (0xd800 + (c.toNat - 0x10000) / 0x400), UInt16.ofNat (0xdc00 + (c.toNat - 0x10000) % 0x400)]

/-- UTF-16 of a text. -/
def utf16 (x : List Char) : JString := x.flatMap units

/-- Characters that need one code unit, without NUL. -/
def Plain (x : List Char) : Prop := ∀ c ∈ x, 0 < c.toNat ∧ c.toNat < 0x10000

/-- What the C++ runtime writes for a text with the machines in two files and the field orders of a language. -/
def Writes (files : Files) (ty : ParseType) (tagger verbalizer : Bytes) (x y : List Char) : Prop :=
  ∃ f g, files tagger = some f ∧ files verbalizer = some g ∧ Cpp.normalize ty f g (encAll x) = .ok (encAll y)

/-- A session: the calls, the directory of the last `init`, and what the calls return. The processors are those of the
files in that directory; its name must not have "zh_tn_" in it. -/
inductive Session (files : Files) : List Call → Option (List Char) → List (Option JString) → Prop
  | start : Session files [] none []
  | init {cs : List Call} {rs : List (Option JString)} {d : Option (List Char)} {dir : List Char} : Session files cs d rs →
      Plain dir → ¬ lit "zh_tn_" <:+: encAll dir → Session files (cs ++ [.init (utf16 dir)]) (some dir) (rs ++ [none])
  | normalize {cs : List Call} {rs : List (Option JString)} {dir x y : List Char} : Session files cs (some dir) rs →
      Plain x → Plain y →
      Writes files .zhTn (encAll dir ++ lit "/zh_tn_tagger.fst") (encAll dir ++ lit "/zh_tn_verbalizer.fst") x y →
      Session files (cs ++ [.normalize (utf16 x)]) (some dir) (rs ++ [some (utf16 y)])
  | inverseNormalize {cs : List Call} {rs : List (Option JString)} {dir x y : List Char} : Session files cs (some dir) rs →
      Plain x → Plain y →
      Writes files .zhItn (encAll dir ++ lit "/zh_itn_tagger.fst") (encAll dir ++ lit "/zh_itn_verbalizer.fst") x y →
      Session files (cs ++ [.inverseNormalize (utf16 x)]) (some dir) (rs ++ [some (utf16 y)])

end Verif.Cpp.Android.Spec
