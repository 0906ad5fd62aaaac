import Mathlib.Data.List.Basic

/-!
# SHA-1 (specification for C69)

The Secure Hash Algorithm SHA-1 as FIPS 180-4 defines it, on words of 32 bits: the message schedule
and the working variables are sequences with the indices of the standard.
-/

namespace Stix.Spec.Fips

/-- A word (FIPS 180-4, 2.1). -/
abbrev Word := BitVec 32

/-- The functions `Ch`, `Parity` and `Maj` (4.1.1). -/
def f (t : Nat) (x y z : Word) : Word :=
  if t < 20 then (x &&& y) ^^^ (~~~x &&& z)
  else if t < 40 then x ^^^ y ^^^ z
  else if t < 60 then (x &&& y) ^^^ (x &&& z) ^^^ (y &&& z)
  else x ^^^ y ^^^ z

/-- The constants (4.2.1). -/
def K (t : Nat) : Word :=
  if t < 20 then 0x5a827999#32
  else if t < 40 then 0x6ed9eba1#32
  else if t < 60 then 0x8f1bbcdc#32
  else 0xca62c1d6#32

/-- The bytes of a number, the most significant first. -/
def bigEndian {w : Nat} (n : Nat) (x : BitVec w) : List UInt8 :=
  (List.range n).map fun i => UInt8.ofNat (x.toNat / 256 ^ (n - 1 - i))

/-- The padded message (5.1.1): a one bit, as few zeros as make whole blocks, and the length in bits. -/
def padded (m : List UInt8) : List UInt8 :=
  m ++ [0x80] ++ List.replicate ((64 - (m.length + 1 + 8) % 64) % 64) 0 ++
    bigEndian 8 (BitVec.ofNat 64 (8 * m.length))

/-- The word that starts at a byte (5.2.1, 3.1). -/
def wordAt (p : List UInt8) (i : Nat) : Word :=
  BitVec.ofNat 32 ((p.getD i 0).toNat * 256 ^ 3 + (p.getD (i + 1) 0).toNat * 256 ^ 2 +
    (p.getD (i + 2) 0).toNat * 256 + (p.getD (i + 3) 0).toNat)

/-- The message schedule of the block with the words `M` (6.1.2, step 1). -/
def W (M : Nat → Word) (t : Nat) : Word :=
  if t < 16 then M t
  else (W M (t - 3) ^^^ W M (t - 8) ^^^ W M (t - 14) ^^^ W M (t - 16)).rotateLeft 1

/-- The five words of a hash value or the five working variables. -/
structure Five where
  a : Word
  b : Word
  c : Word
  d : Word
  e : Word

/-- The working variables after `t` steps (6.1.2, steps 2 and 3). -/
def vars (M : Nat → Word) (H : Five) : Nat → Five
  | 0 => H
  | t + 1 =>
    let v := vars M H t
    ⟨v.a.rotateLeft 5 + f t v.b v.c v.d + v.e + K t + W M t, v.a, v.b.rotateLeft 30, v.c, v.d⟩

/-- The hash value after `i` blocks of a padded message (5.3.1; 6.1.2, step 4). -/
def hash (p : List UInt8) : Nat → Five
  | 0 => ⟨0x67452301#32, 0xefcdab89#32, 0x98badcfe#32, 0x10325476#32, 0xc3d2e1f0#32⟩
  | i + 1 =>
    let H := hash p i
    let v := vars (fun t => wordAt p (64 * i + 4 * t)) H 80
    ⟨v.a + H.a, v.b + H.b, v.c + H.c, v.d + H.d, v.e + H.e⟩

/-- The message digest (6.1.2). -/
def sha1 (m : List UInt8) : List UInt8 :=
  let p := padded m
  let H := hash p (p.length / 64)
  bigEndian 4 H.a ++ bigEndian 4 H.b ++ bigEndian 4 H.c ++ bigEndian 4 H.d ++ bigEndian 4 H.e

end Stix.Spec.Fips
