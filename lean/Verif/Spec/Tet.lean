/-!
# Towers of powers of natural numbers
-/

namespace BB

/-- `b ^ (b ^ (... ^ b))` with `h` times `b`; 1 if there is none. -/
def tetr (b : Nat) : Nat → Nat
  | 0 => 1
  | h + 1 => b ^ tetr b h

end BB
