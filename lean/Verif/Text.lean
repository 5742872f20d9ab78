import Verif.Base

/-!
# String literals of the C code

`txt!"abc"` is the list of bytes of a C string literal (without its terminator).  It expands to
the length and the bytes as one number, which keeps elaboration and kernel evaluation cheap.
-/

set_option autoImplicit false

namespace Verif

/-- `k` bytes of a number, least significant first. -/
def bytesOfNum : Nat → Nat → List Byte
  | 0, _ => []
  | k + 1, n => UInt8.ofNat (n % 256) :: bytesOfNum k (n / 256)

open Lean in
/-- The bytes of a string literal. -/
macro:max "txt!" s:str : term => do
  let bs := s.getString.toUTF8.toList
  let num := bs.foldr (fun b n => b.toNat + 256 * n) 0
  `(bytesOfNum $(Syntax.mkNumLit (toString bs.length)) $(Syntax.mkNumLit (toString num)))

/-- The notation means what it says. -/
example : txt!"Abc %1" = [0x41, 0x62, 0x63, 0x20, 0x25, 0x31] := by decide

theorem bytesOfNum_length (k n : Nat) : (bytesOfNum k n).length = k := by
  induction k generalizing n with
  | zero => rfl
  | succ k ih => simp [bytesOfNum, ih]

end Verif
