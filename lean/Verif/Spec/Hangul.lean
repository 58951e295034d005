import Verif.Spec.Replace
/-!
# Specification: Hangul syllables and their parts

The arithmetic of section 3.12 of the Unicode Standard, "Conjoining Jamo Behavior".
-/
namespace Uax29.Spec

/-- The precomposed Hangul syllables. -/
def IsSyllable (c : Char) : Prop := 0xAC00 ≤ c.toNat ∧ c.toNat ≤ 0xD7A3

instance (c : Char) : Decidable (IsSyllable c) := inferInstanceAs (Decidable (_ ∧ _))

/-- The full canonical decomposition of a precomposed Hangul syllable: a leading consonant, a vowel
and, but for every 28th syllable, a trailing consonant. Other characters are left as they are. -/
def decomposed (c : Char) : List Char :=
  if IsSyllable c then
    let s := c.toNat - 0xAC00
    Char.ofNat (0x1100 + s / 588) :: Char.ofNat (0x1161 + s % 588 / 28)
      :: if s % 28 = 0 then [] else [Char.ofNat (0x11A7 + s % 28)]
  else [c]

/-- A text with its Hangul syllables in parts. -/
def decompose (s : List Char) : List Char := expand decomposed s

end Uax29.Spec
