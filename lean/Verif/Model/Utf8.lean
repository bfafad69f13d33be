import Verif.Model.Str
/-
Model of src/utf8iterator.cpp. A string is a list of bytes, an iterator a position in it. Reading a
byte outside the string and moving outside it are undefined behaviour (`none`).
-/
namespace AS
namespace Utf8

/-- `CodePointToUtf8` (src/utf8iterator.cpp:237-296); `none`: the exception. The bit operations on
`int` values converted to `char` are done on the low 8 bits. -/
def ofCodePoint (cp : UInt32) : Option (List UInt8) :=
  if 0x110000 ≤ cp then none
  else if cp < 0x80 then some [cp.toUInt8]
  else if cp < 0x800 then
    some [((0xc0 : UInt32) ||| (cp >>> 6)).toUInt8, (cp ||| 0x80).toUInt8 &&& ~~~0x40]
  else if cp < 0x10000 then
    some [((0xe0 : UInt32) ||| (cp >>> 12)).toUInt8, ((cp >>> 6) ||| 0x80).toUInt8 &&& ~~~0x40,
      (cp ||| 0x80).toUInt8 &&& ~~~0x40]
  else
    some [((0xf0 : UInt32) ||| (cp >>> 18)).toUInt8, ((cp >>> 12) ||| 0x80).toUInt8 &&& ~~~0x40,
      ((cp >>> 6) ||| 0x80).toUInt8 &&& ~~~0x40, (cp ||| 0x80).toUInt8 &&& ~~~0x40]

/-- `Utf8Iterator` (src/utf8iterator.h:15-48). -/
structure Iter where
  pos : Nat
  cur : UInt32
  dirty : Bool
deriving DecidableEq, Repr

/-- `Utf8Iterator::Utf8Iterator` (src/utf8iterator.cpp:15-20). -/
def Iter.at (pos : Nat) : Iter := ⟨pos, 0, true⟩

/-- The test of a bit of a byte. -/
def bit (b mask : UInt8) : Bool := (b &&& mask) != 0

/-- `Utf8Iterator::operator++` (src/utf8iterator.cpp:56-86). -/
def Iter.inc (s : List UInt8) (it : Iter) : Option Iter :=
  match s[it.pos]? with
  | none => none
  | some firstByte =>
    let offset :=
      if bit firstByte 128 then
        if bit firstByte 32 then
          if bit firstByte 16 then 4 else 3
        else 2
      else 1
    if it.pos + offset ≤ s.length then some { it with pos := it.pos + offset } else none

/-- The byte before a position, `--mStringIterator` followed by `*mStringIterator`. -/
def before (s : List UInt8) (pos : Nat) : Option (Nat × UInt8) :=
  match pos with
  | 0 => none
  | p + 1 =>
    match s[p]? with
    | none => none
    | some b => some (p, b)

/-- `Utf8Iterator::operator--` (src/utf8iterator.cpp:100-119). -/
def Iter.dec (s : List UInt8) (it : Iter) : Option Iter :=
  match before s it.pos with
  | none => none
  | some (p, b) =>
    if bit b 128 then
      match before s p with
      | none => none
      | some (p, b) =>
        if bit b 64 then some { it with pos := p, dirty := true }
        else
          match before s p with
          | none => none
          | some (p, b) =>
            if bit b 64 then some { it with pos := p, dirty := true }
            else if p = 0 then none
            else some { it with pos := p - 1, dirty := true }
    else some { it with pos := p, dirty := true }

/-- The code point computed by `CalculateCurrentCodePoint` (src/utf8iterator.cpp:136-173). -/
def decodeAt (s : List UInt8) (pos : Nat) : Option UInt32 :=
  match s[pos]? with
  | none => none
  | some b0 =>
    if bit b0 128 then
      if bit b0 32 then
        if bit b0 16 then
          match s[pos + 1]?, s[pos + 2]?, s[pos + 3]? with
          | some b1, some b2, some b3 =>
            some (((b0 &&& 0x07).toUInt32 <<< 18) + ((b1 &&& 0x3f).toUInt32 <<< 12) +
              ((b2 &&& 0x3f).toUInt32 <<< 6) + (b3 &&& 0x3f).toUInt32)
          | _, _, _ => none
        else
          match s[pos + 1]?, s[pos + 2]? with
          | some b1, some b2 =>
            some (((b0 &&& 0x0f).toUInt32 <<< 12) + ((b1 &&& 0x3f).toUInt32 <<< 6) +
              (b2 &&& 0x3f).toUInt32)
          | _, _ => none
      else
        match s[pos + 1]? with
        | some b1 => some (((b0 &&& 0x1f).toUInt32 <<< 6) + (b1 &&& 0x3f).toUInt32)
        | none => none
    else some b0.toUInt32

/-- `Utf8Iterator::operator*` with `CalculateCurrentCodePoint` (src/utf8iterator.cpp:132-185). The
flag `mDirty` is never reset. -/
def Iter.deref (s : List UInt8) (it : Iter) : Option (UInt32 × Iter) :=
  if it.dirty then
    match decodeAt s it.pos with
    | none => none
    | some c => some (c, { it with cur := c })
  else some (it.cur, it)

end Utf8
end AS
