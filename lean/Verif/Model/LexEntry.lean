import Verif.Model.InClass
/-
Model of `LexEntry` (src/lexentry.h, src/lexentry.cpp).
-/
namespace AS

/-- `LexEntry` (src/lexentry.h:25-93); `operator==` compares the four members
(src/lexentry.h:74-77). The sets are in-order sequences. -/
structure LexEntry where
  word     : Str := []
  stdword  : Str := []
  type     : List InType := []
  attached : List Attach := []
deriving DecidableEq, Repr

namespace LexEntry

/-- `LexEntry::isPrefixAttached` (src/lexentry.cpp:22-25). -/
def isPrefixAttached (e : LexEntry) : Bool := e.attached.contains .ATT_PRE

/-- `LexEntry::isSuffixAttached` (src/lexentry.cpp:28-31). -/
def isSuffixAttached (e : LexEntry) : Bool := e.attached.contains .ATT_SUF

/-- `LexEntry::isPrefix` (src/lexentry.cpp:34-42). -/
def isPrefix (e : LexEntry) : Bool :=
  if !e.attached.contains .DET_PRE then e.attached.contains .ATT_PRE else true

/-- `LexEntry::isSuffix` (src/lexentry.cpp:45-53). -/
def isSuffix (e : LexEntry) : Bool :=
  if !e.attached.contains .DET_SUF then e.attached.contains .ATT_SUF else true

/-- `LexEntry::isAttached` (src/lexentry.cpp:56-69). -/
def isAttached (e : LexEntry) : Bool :=
  if e.attached.length = 0 then false
  else if !e.attached.contains .ATT_SUF then e.attached.contains .ATT_PRE
  else true

/-- `LexEntry::isDetached` (src/lexentry.cpp:72-85). -/
def isDetached (e : LexEntry) : Bool :=
  if e.attached.length = 0 then true
  else if !e.attached.contains .DET_SUF then e.attached.contains .DET_PRE
  else true

/-- `LexEntry::isInClass` (src/lexentry.cpp:88-91). -/
def isInClass (e : LexEntry) (t : InType) : Bool := e.type.contains t

/-- `LexEntry::LexEntry(word, stdword, type, attached)` (src/lexentry.cpp:108-113). -/
def make (word stdword type attached : Str) : LexEntry :=
  { word, stdword, type := InType.asType type, attached := Attach.asAttach attached }

/-- `LexEntry::LexEntry(line)` (src/lexentry.cpp:116-137). -/
def ofLine (line : Str) : LexEntry :=
  let buf := IStream.ofStr line
  let (buf, w) := buf.getline '\t' []
  let (buf, w) := if w = c!"LEXENTRY:" then buf.getline '\t' w else (buf, w)
  let (buf, sw) := buf.getline '\t' []
  let (buf, ty) := buf.getline '\t' []
  let (_, at_) := buf.getline '\t' []
  { word := w, stdword := sw, type := InType.asType ty, attached := Attach.asAttach at_ }

/-- `operator<<(ostream, LexEntry)` (src/lexentry.cpp:139-151). -/
def print (e : LexEntry) : Str :=
  c!"LEXENTRY:" ++ c!"\t" ++ e.word ++ c!"\t" ++ e.stdword ++ c!"\t" ++ InType.setAsString e.type ++ c!"\t"
    ++ Attach.setAsString e.attached

end LexEntry
end AS
