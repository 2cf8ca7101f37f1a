import Mathlib.Data.List.Forall2
import Verif.Model.Bytes
/-!
# Specification: texts that differ only in letter case

Said of the character codes. Independent of the model's conversion to upper case.
-/

namespace Gpt

/-- The same letter up to case, or the same character. -/
def Spec.SameLetter (c d : UInt8) : Prop := c = d ∨ (65 ≤ c.toNat ∧ c.toNat ≤ 90 ∧ d.toNat = c.toNat + 32) ∨
  (65 ≤ d.toNat ∧ d.toNat ≤ 90 ∧ c.toNat = d.toNat + 32)

/-- The same text up to the case of the letters A to Z. -/
def Spec.SameText (s t : Bytes) : Prop := List.Forall₂ Spec.SameLetter s t

end Gpt
