import Verif.Model.Basic
/-!
The character classes the other specifications mention, written down in full.
-/
namespace Verif.Spec

/-- The code points with the Unicode property `White_Space` (Unicode 15, PropList.txt). -/
def whiteSpaceCodePoints : List Nat := [
  9, 10, 11, 12, 13, 32, 133, 160, 5760, 8192, 8193, 8194, 8195, 8196, 8197, 8198, 8199, 8200, 8201, 8202,
  8232, 8233, 8239, 8287, 12288]

/-- The decimal digits. -/
def decimalDigits : Str := "0123456789".toList

/-- The letters of the English alphabet. -/
def englishLetters : Str := "ABCDEFGHIJKLMNOPQRSTUVWXYZabcdefghijklmnopqrstuvwxyz".toList

end Verif.Spec
