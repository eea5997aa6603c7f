/-
What property C94 is about: the characters a normalizer may add to a text.
-/

namespace Verif.Wfst

/-- A character of the basic plane that is no control character. -/
def Printed (c : Char) : Prop := 0x20 ≤ c.toNat ∧ c.toNat < 0x10000 ∧ ¬ (0x7f ≤ c.toNat ∧ c.toNat < 0xa0)

instance (c : Char) : Decidable (Printed c) := by unfold Printed; infer_instance

end Verif.Wfst
