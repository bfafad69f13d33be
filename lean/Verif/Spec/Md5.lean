import Verif.Model.Md5
/-
Specification of the digest: RFC 1321, written from the RFC (sections 3.1 to 3.5) and independent of
the code. `Md5.State` (four words) is the only definition shared with the model.
-/
namespace AS
namespace Md5

/-- The mixing functions of RFC 1321, section 3.4. -/
def rfcF (x y z : UInt32) : UInt32 := (x &&& y) ||| (~~~x &&& z)
def rfcG (x y z : UInt32) : UInt32 := (x &&& z) ||| (y &&& ~~~z)
def rfcH (x y z : UInt32) : UInt32 := x ^^^ y ^^^ z
def rfcI (x y z : UInt32) : UInt32 := y ^^^ (x ||| ~~~z)

/-- The sine table `T` of RFC 1321. -/
def rfcT : List UInt32 := [
  0xd76aa478, 0xe8c7b756, 0x242070db, 0xc1bdceee, 0xf57c0faf, 0x4787c62a, 0xa8304613, 0xfd469501,
  0x698098d8, 0x8b44f7af, 0xffff5bb1, 0x895cd7be, 0x6b901122, 0xfd987193, 0xa679438e, 0x49b40821,
  0xf61e2562, 0xc040b340, 0x265e5a51, 0xe9b6c7aa, 0xd62f105d, 0x02441453, 0xd8a1e681, 0xe7d3fbc8,
  0x21e1cde6, 0xc33707d6, 0xf4d50d87, 0x455a14ed, 0xa9e3e905, 0xfcefa3f8, 0x676f02d9, 0x8d2a4c8a,
  0xfffa3942, 0x8771f681, 0x6d9d6122, 0xfde5380c, 0xa4beea44, 0x4bdecfa9, 0xf6bb4b60, 0xbebfbc70,
  0x289b7ec6, 0xeaa127fa, 0xd4ef3085, 0x04881d05, 0xd9d4d039, 0xe6db99e5, 0x1fa27cf8, 0xc4ac5665,
  0xf4292244, 0x432aff97, 0xab9423a7, 0xfc93a039, 0x655b59c3, 0x8f0ccc92, 0xffeff47d, 0x85845dd1,
  0x6fa87e4f, 0xfe2ce6e0, 0xa3014314, 0x4e0811a1, 0xf7537e82, 0xbd3af235, 0x2ad7d2bb, 0xeb86d391]

/-- The rotation amounts. -/
def rfcS (i : Nat) : UInt32 :=
  match i / 16 with
  | 0 => [7, 12, 17, 22].getD (i % 4) 0
  | 1 => [5, 9, 14, 20].getD (i % 4) 0
  | 2 => [4, 11, 16, 23].getD (i % 4) 0
  | _ => [6, 10, 15, 21].getD (i % 4) 0

/-- The word used in step `i`. -/
def rfcK (i : Nat) : Nat :=
  match i / 16 with
  | 0 => i % 16
  | 1 => (5 * i + 1) % 16
  | 2 => (3 * i + 5) % 16
  | _ => 7 * i % 16

/-- The round function of step `i`. -/
def rfcFn (f g : UInt32 → UInt32 → UInt32 → UInt32) (i : Nat) : UInt32 → UInt32 → UInt32 → UInt32 :=
  match i / 16 with
  | 0 => f
  | 1 => g
  | 2 => rfcH
  | _ => rfcI

/-- `x <<< s` of RFC 1321: circular shift to the left. -/
def rotl (x s : UInt32) : UInt32 := (x <<< s) ||| (x >>> (32 - s))

/-- Step `i`: `[abcd k s i]` computes `b + ((a + F(b,c,d) + X[k] + T[i]) <<< s)`; then the roles of
the registers are rotated. The functions of the first two rounds are parameters. -/
def rfcStep (f g : UInt32 → UInt32 → UInt32 → UInt32) (x : List UInt32) (s : State) (i : Nat) :
    State :=
  ⟨s.d, s.b + rotl (s.a + rfcFn f g i s.b s.c s.d + x.getD (rfcK i) 0 + rfcT.getD i 0) (rfcS i),
   s.b, s.c⟩

/-- The words of a block, low-order byte first (section 2). -/
def rfcWord (block : List UInt8) (k : Nat) : UInt32 :=
  UInt32.ofNat ((block.getD (4 * k) 0).toNat + 256 * (block.getD (4 * k + 1) 0).toNat +
    65536 * (block.getD (4 * k + 2) 0).toNat + 16777216 * (block.getD (4 * k + 3) 0).toNat)

/-- Section 3.4: processing of a block. -/
def rfcBlock (f g : UInt32 → UInt32 → UInt32 → UInt32) (s : State) (block : List UInt8) : State :=
  let r := (List.range 64).foldl (rfcStep f g ((List.range 16).map (rfcWord block))) s
  ⟨s.a + r.a, s.b + r.b, s.c + r.c, s.d + r.d⟩

/-- Section 3.3: the initial buffer, bytes 01 23 45 67 89 ab cd ef fe dc ba 98 76 54 32 10. -/
def rfcInit : State := ⟨0x67452301, 0xefcdab89, 0x98badcfe, 0x10325476⟩

/-- The number of zero bytes of section 3.1: the least that makes the length 56 modulo 64. -/
def rfcZeros (n : Nat) : Nat := (119 - n % 64) % 64

/-- A number in 8 bytes, low-order byte first. -/
def le64 (n : Nat) : List UInt8 := (List.range 8).map (fun k => UInt8.ofNat (n / 256 ^ k))

/-- Sections 3.1 and 3.2: the padded message. -/
def rfcPad (text : List UInt8) : List UInt8 :=
  text ++ 0x80 :: List.replicate (rfcZeros text.length) 0 ++ le64 (8 * text.length)

/-- Section 3.5: the words, low-order byte first. -/
def rfcOut (s : State) : List UInt8 :=
  [s.a, s.b, s.c, s.d].flatMap (fun w => (List.range 4).map (fun k => UInt8.ofNat (w.toNat / 256 ^ k)))

/-- `d` is the digest of `text`, with the given functions in rounds 1 and 2. -/
def IsDigest (f g : UInt32 → UInt32 → UInt32 → UInt32) (text d : List UInt8) : Prop :=
  ∃ blocks : List (List UInt8), (∀ b ∈ blocks, b.length = 64) ∧ blocks.flatten = rfcPad text ∧
    d = rfcOut (blocks.foldl (rfcBlock f g) rfcInit)

/-- A byte in two lower case hexadecimal digits. -/
def hexByte (b : UInt8) : Str :=
  [(c!"0123456789abcdef").getD (b.toNat / 16) '0', (c!"0123456789abcdef").getD (b.toNat % 16) '0']

end Md5
end AS
