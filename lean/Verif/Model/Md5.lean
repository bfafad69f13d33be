import Verif.Model.Str
/-
Model of the digest class (src/md5.h, src/md5.cpp). Bytes are `UInt8`, `uint4` and `size_type` are
`UInt32` (32 bit `unsigned int`, as the source demands).
-/
namespace AS
namespace Md5

/-- `MD5::F` (src/md5.cpp:62-64). -/
def F (x y z : UInt32) : UInt32 := ((x &&& y) ||| ~~~x) &&& z

/-- `MD5::G` (src/md5.cpp:66-68). -/
def G (x y z : UInt32) : UInt32 := ((x &&& z) ||| y) &&& ~~~z

/-- `MD5::H` (src/md5.cpp:70-72). -/
def H (x y z : UInt32) : UInt32 := x ^^^ y ^^^ z

/-- `MD5::I` (src/md5.cpp:74-76). -/
def I (x y z : UInt32) : UInt32 := y ^^^ (x ||| ~~~z)

/-- `MD5::rotate_left` (src/md5.cpp:79-81); the rotations used are between 4 and 23. -/
def rotateLeft (x : UInt32) (n : UInt32) : UInt32 := (x <<< n) ||| (x >>> (32 - n))

/-- The four functions `FF`, `GG`, `HH`, `II` (src/md5.cpp:85-103). -/
inductive Fn where
  | FF | GG | HH | II
deriving DecidableEq, Repr

/-- The mixing functions the four use. -/
structure Mix where
  f : UInt32 → UInt32 → UInt32 → UInt32
  g : UInt32 → UInt32 → UInt32 → UInt32
  h : UInt32 → UInt32 → UInt32 → UInt32
  i : UInt32 → UInt32 → UInt32 → UInt32

/-- The mixing functions of the source. -/
def codeMix : Mix := ⟨F, G, H, I⟩

/-- The mixing function used by `FF`, ... -/
def Mix.get (m : Mix) : Fn → UInt32 → UInt32 → UInt32 → UInt32
  | .FF => m.f
  | .GG => m.g
  | .HH => m.h
  | .II => m.i

/-- The value assigned to the first argument of `FF`, ... (src/md5.cpp:85-103). -/
def mixed (m : Mix) (fn : Fn) (a b c d x s ac : UInt32) : UInt32 :=
  rotateLeft (a + m.get fn b c d + x + ac) s + b

/-- The local variables of `transform`. -/
inductive Reg where
  | a | b | c | d
deriving DecidableEq, Repr

/-- Their values, or the members `state[0..3]`. -/
structure State where
  a : UInt32
  b : UInt32
  c : UInt32
  d : UInt32
deriving DecidableEq, Repr

/-- A line of `transform`: the function, its first argument (the following three are the next ones
in the cyclic order a, b, c, d), the index into `x`, the rotation and the constant. -/
structure Line where
  fn : Fn
  reg : Reg
  x : Nat
  s : UInt32
  ac : UInt32
deriving DecidableEq, Repr

/-- The 64 lines (src/md5.cpp:166-235), with the values of the macros S11 to S44
(src/md5.cpp:42-57). -/
def lines : List Line := [
    .mk .FF .a 0 7 0xd76aa478, .mk .FF .d 1 12 0xe8c7b756, .mk .FF .c 2 17 0x242070db, .mk .FF .b 3 22 0xc1bdceee,
    .mk .FF .a 4 7 0xf57c0faf, .mk .FF .d 5 12 0x4787c62a, .mk .FF .c 6 17 0xa8304613, .mk .FF .b 7 22 0xfd469501,
    .mk .FF .a 8 7 0x698098d8, .mk .FF .d 9 12 0x8b44f7af, .mk .FF .c 10 17 0xffff5bb1, .mk .FF .b 11 22 0x895cd7be,
    .mk .FF .a 12 7 0x6b901122, .mk .FF .d 13 12 0xfd987193, .mk .FF .c 14 17 0xa679438e, .mk .FF .b 15 22 0x49b40821,
    .mk .GG .a 1 5 0xf61e2562, .mk .GG .d 6 9 0xc040b340, .mk .GG .c 11 14 0x265e5a51, .mk .GG .b 0 20 0xe9b6c7aa,
    .mk .GG .a 5 5 0xd62f105d, .mk .GG .d 10 9 0x2441453, .mk .GG .c 15 14 0xd8a1e681, .mk .GG .b 4 20 0xe7d3fbc8,
    .mk .GG .a 9 5 0x21e1cde6, .mk .GG .d 14 9 0xc33707d6, .mk .GG .c 3 14 0xf4d50d87, .mk .GG .b 8 20 0x455a14ed,
    .mk .GG .a 13 5 0xa9e3e905, .mk .GG .d 2 9 0xfcefa3f8, .mk .GG .c 7 14 0x676f02d9, .mk .GG .b 12 20 0x8d2a4c8a,
    .mk .HH .a 5 4 0xfffa3942, .mk .HH .d 8 11 0x8771f681, .mk .HH .c 11 16 0x6d9d6122, .mk .HH .b 14 23 0xfde5380c,
    .mk .HH .a 1 4 0xa4beea44, .mk .HH .d 4 11 0x4bdecfa9, .mk .HH .c 7 16 0xf6bb4b60, .mk .HH .b 10 23 0xbebfbc70,
    .mk .HH .a 13 4 0x289b7ec6, .mk .HH .d 0 11 0xeaa127fa, .mk .HH .c 3 16 0xd4ef3085, .mk .HH .b 6 23 0x4881d05,
    .mk .HH .a 9 4 0xd9d4d039, .mk .HH .d 12 11 0xe6db99e5, .mk .HH .c 15 16 0x1fa27cf8, .mk .HH .b 2 23 0xc4ac5665,
    .mk .II .a 0 6 0xf4292244, .mk .II .d 7 10 0x432aff97, .mk .II .c 14 15 0xab9423a7, .mk .II .b 5 21 0xfc93a039,
    .mk .II .a 12 6 0x655b59c3, .mk .II .d 3 10 0x8f0ccc92, .mk .II .c 10 15 0xffeff47d, .mk .II .b 1 21 0x85845dd1,
    .mk .II .a 8 6 0x6fa87e4f, .mk .II .d 15 10 0xfe2ce6e0, .mk .II .c 6 15 0xa3014314, .mk .II .b 13 21 0x4e0811a1,
    .mk .II .a 4 6 0xf7537e82, .mk .II .d 11 10 0xbd3af235, .mk .II .c 2 15 0x2ad7d2bb, .mk .II .b 9 21 0xeb86d391]

/-- Execution of a line. -/
def exec (m : Mix) (x : List UInt32) (s : State) (l : Line) : State :=
  match l.reg with
  | .a => { s with a := mixed m l.fn s.a s.b s.c s.d (x.getD l.x 0) l.s l.ac }
  | .d => { s with d := mixed m l.fn s.d s.a s.b s.c (x.getD l.x 0) l.s l.ac }
  | .c => { s with c := mixed m l.fn s.c s.d s.a s.b (x.getD l.x 0) l.s l.ac }
  | .b => { s with b := mixed m l.fn s.b s.c s.d s.a (x.getD l.x 0) l.s l.ac }

/-- `MD5::decode` (src/md5.cpp:139-143). -/
def decode : List UInt8 → List UInt32
  | b0 :: b1 :: b2 :: b3 :: bs =>
    (b0.toUInt32 ||| (b1.toUInt32 <<< 8) ||| (b2.toUInt32 <<< 16) ||| (b3.toUInt32 <<< 24)) :: decode bs
  | _ => []

/-- `MD5::encode` (src/md5.cpp:149-156). -/
def encode : List UInt32 → List UInt8
  | [] => []
  | w :: ws =>
    (w &&& 0xff).toUInt8 :: ((w >>> 8) &&& 0xff).toUInt8 :: ((w >>> 16) &&& 0xff).toUInt8 ::
      ((w >>> 24) &&& 0xff).toUInt8 :: encode ws

/-- `MD5::transform` (src/md5.cpp:161-244) with the given mixing functions. -/
def transformWith (m : Mix) (s : State) (block : List UInt8) : State :=
  let r := lines.foldl (exec m (decode block)) s
  ⟨s.a + r.a, s.b + r.b, s.c + r.c, s.d + r.d⟩

/-- `MD5::transform` (src/md5.cpp:161-244). -/
def transform (s : State) (block : List UInt8) : State := transformWith codeMix s block

end Md5

/-- `MD5` (src/md5.h:53-95). -/
structure Md5 where
  finalized : Bool
  buffer : List UInt8
  count0 : UInt32
  count1 : UInt32
  state : Md5.State
  digest : List UInt8
deriving DecidableEq, Repr

namespace Md5

/-- The constants of `init` (src/md5.cpp:130-133). -/
def magic : State := ⟨0x67452301, 0xefcdab89, 0x98badcfe, 0x10325476⟩

/-- `MD5::MD5()` (src/md5.cpp:108-110, 123-134). `buffer` and `digest` are not initialised. -/
def init (buffer digest : List UInt8) : Md5 :=
  { finalized := false, buffer, count0 := 0, count1 := 0, state := magic, digest }

/-- `memcpy( &buffer[index], &input[i], n )` into the 64 byte buffer; `none`: out of bounds. -/
def copyTo (buffer : List UInt8) (index : Nat) (input : List UInt8) (i n : Nat) : Option (List UInt8) :=
  if index + n ≤ 64 ∧ i + n ≤ input.length then
    some (buffer.take index ++ (input.drop i).take n ++ buffer.drop (index + n))
  else none

/-- The loop over whole blocks (src/md5.cpp:271-272), with the last `i`. `none`: reads beyond the
input, or does not end. -/
def blockLoop : Nat → List UInt8 → UInt32 → UInt32 → State → Option (UInt32 × State)
  | 0, _, _, _, _ => none
  | fuel + 1, input, length, i, s =>
    if i + 64 ≤ length then
      if i.toNat + 64 ≤ input.length then
        blockLoop fuel input length (i + 64) (transform s ((input.drop i.toNat).take 64))
      else none
    else some (i, s)

/-- `MD5::update` (src/md5.cpp:250-282). `none`: undefined behaviour. The fuel suffices for every
loop that ends: `i` takes at most `2^32 / 64` values. -/
def update (m : Md5) (input : List UInt8) (length : UInt32) : Option Md5 :=
  let index := m.count0 / 8 % 64
  let count0 := m.count0 + (length <<< 3)
  let count1 := if count0 < (length <<< 3) then m.count1 + 1 else m.count1
  let count1 := count1 + (length >>> 29)
  let m := { m with count0, count1 }
  let firstpart := 64 - index
  if firstpart ≤ length then
    match copyTo m.buffer index.toNat input 0 firstpart.toNat with
    | none => none
    | some buffer =>
      match blockLoop (2 ^ 26 + 1) input length firstpart (transform m.state buffer) with
      | none => none
      | some (i, state) =>
        match copyTo buffer 0 input i.toNat (length - i).toNat with
        | none => none
        | some buffer => some { m with buffer, state }
  else
    match copyTo m.buffer index.toNat input 0 length.toNat with
    | none => none
    | some buffer => some { m with buffer }

/-- `padding` (src/md5.cpp:296-300). -/
def padding : List UInt8 := 0x80 :: List.replicate 63 0

/-- `MD5::finalize` (src/md5.cpp:295-326). -/
def finalize (m : Md5) : Option Md5 :=
  if m.finalized then some m
  else
    let bits := encode [m.count0, m.count1]
    let index := m.count0 / 8 % 64
    let padLen := if index < 56 then 56 - index else 120 - index
    match m.update padding padLen with
    | none => none
    | some m =>
      match m.update bits 8 with
      | none => none
      | some m =>
        some { m with
          digest := encode [m.state.a, m.state.b, m.state.c, m.state.d]
          buffer := List.replicate 64 0
          count0 := 0
          count1 := 0
          finalized := true }

/-- A digit of `%02x`. -/
def hexDigit (n : Nat) : Char := (c!"0123456789abcdef").getD n '?'

/-- `MD5::hexdigest` (src/md5.cpp:331-343). -/
def hexdigest (m : Md5) : Str :=
  if !m.finalized then []
  else (m.digest.take 16).flatMap (fun b => [hexDigit (b.toNat / 16), hexDigit (b.toNat % 16)])

/-- `MD5::MD5( text )` (src/md5.cpp:115-119) and `md5( str )` (src/md5.cpp:353-357). The length is
cast to 32 bits. -/
def md5 (buffer digest : List UInt8) (text : List UInt8) : Option Str :=
  match (init buffer digest).update text (UInt32.ofNat text.length) with
  | none => none
  | some m =>
    match m.finalize with
    | none => none
    | some m => some m.hexdigest

end Md5
end AS
