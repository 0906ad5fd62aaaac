import Verif.Model.Basic

/-!
# SHA-1

`crypto/sha1` of the Go standard library, which `uuid.NewSHA1` (called at data-types.go:212) hashes
with. It is not part of /repo: this is the algorithm of FIPS 180-4, sections 5.1.1, 5.2.1, 5.3.1 and
6.1.2, on natural numbers below 2^32.
-/

namespace Stix.Sha1
open Stix

/-- Force a number before it is used (of no consequence for the value). -/
def force {α : Type} (n : Nat) (f : Nat → α) : α :=
  match n with
  | 0 => f 0
  | n + 1 => f (n + 1)

/-- Addition modulo 2^32. -/
def add (x y : Nat) : Nat := (x + y) % 0x100000000

/-- Rotation to the left (2.2.2). -/
def rotl (n x : Nat) : Nat := ((x <<< n) ||| (x >>> (32 - n))) % 0x100000000

/-- Complement. -/
def compl (x : Nat) : Nat := 0xffffffff - x

/-- The functions `Ch`, `Parity`, `Maj`, `Parity` and the constants of the four rounds (4.1.1, 4.2.1). -/
def round (t b c d : Nat) : Nat :=
  if t < 20 then add ((b &&& c) ^^^ (compl b &&& d)) 0x5a827999
  else if t < 40 then add (b ^^^ c ^^^ d) 0x6ed9eba1
  else if t < 60 then add ((b &&& c) ^^^ (b &&& d) ^^^ (c &&& d)) 0x8f1bbcdc
  else add (b ^^^ c ^^^ d) 0xca62c1d6

/-- The five words of a state. -/
structure State where
  a : Nat
  b : Nat
  c : Nat
  d : Nat
  e : Nat

/-- The initial hash value (5.3.1). -/
def init : State := ⟨0x67452301, 0xefcdab89, 0x98badcfe, 0x10325476, 0xc3d2e1f0⟩

/-- A word of four bytes, the most significant first. -/
def word (a b c d : UInt8) : Nat :=
  ((a.toNat * 256 + b.toNat) * 256 + c.toNat) * 256 + d.toNat

/-- The words of a list of bytes. -/
def words : List UInt8 → List Nat
  | a :: b :: c :: d :: l => word a b c d :: words l
  | _ => []

/-- The four bytes of a word. -/
def bytes (w : Nat) : List UInt8 :=
  [UInt8.ofNat (w >>> 24), UInt8.ofNat (w >>> 16), UInt8.ofNat (w >>> 8), UInt8.ofNat w]

/-- The steps from `t` on (6.1.2, step 3), `n` of them. `w` holds the sixteen next words of the message
schedule (step 1). -/
def steps : Nat → Nat → List Nat → State → State
  | n + 1, t, w0 :: w, s =>
    force (add (add (add (rotl 5 s.a) (round t s.b s.c s.d)) s.e) w0) fun a =>
    force (rotl 30 s.b) fun c =>
    force (rotl 1 (w.getD 12 0 ^^^ w.getD 7 0 ^^^ w.getD 1 0 ^^^ w0)) fun w' =>
    steps n (t + 1) (w ++ [w']) ⟨a, s.a, c, s.c, s.d⟩
  | _, _, _, s => s

/-- One block (6.1.2). -/
def block (s : State) (w : List Nat) : State :=
  let r := steps 80 0 w s
  ⟨add s.a r.a, add s.b r.b, add s.c r.c, add s.d r.d, add s.e r.e⟩

/-- All blocks of sixteen words, at most `n` of them. -/
def blocks : Nat → State → List Nat → State
  | 0, s, _ => s
  | n + 1, s, w => if w = [] then s else blocks n (block s (w.take 16)) (w.drop 16)

/-- The padded message (5.1.1): a one bit, zeros, and the length in bits as 64 bits. -/
def pad (m : List UInt8) : List UInt8 :=
  m ++ 0x80 :: (List.replicate ((119 - m.length % 64) % 64) 0 ++
    bytes (m.length * 8 / 0x100000000 % 0x100000000) ++ bytes (m.length * 8 % 0x100000000))

/-- The digest of a message. -/
def sha1 (m : List UInt8) : List UInt8 :=
  let s := blocks (m.length / 64 + 2) init (words (pad m))
  bytes s.a ++ bytes s.b ++ bytes s.c ++ bytes s.d ++ bytes s.e

theorem length_sha1 (m : List UInt8) : (sha1 m).length = 20 := rfl

end Stix.Sha1
