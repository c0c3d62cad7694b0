import Verif.Apps.HasherModel
/-
Model of parsing a line of a check file in the hash programs, lines 350-438 of `hasher_checkfile`,
`/repo/apps/src/hasher_app.c:321-462`.

A line is what `fgets` returns: not empty, without NUL bytes; `isprint` and `isblank` are those of the C
locale.  Opening the files, the messages and the counting of the results are not modelled.
-/
namespace LC.Apps.Hasher

/-- `isblank`. -/
def isBlank (c : Byte) : Bool := c == 32 || c == 9

/-- `isprint`. -/
def isPrint (c : Byte) : Bool := 32 ≤ c && c ≤ 126

/-- Lines 362-368: characters at the end which cannot be printed are removed, but not the first character. -/
def strip : List Byte → List Byte
  | [] => []
  | a :: t => a :: (t.reverse.dropWhile (fun c => !isPrint c)).reverse

/-- Lines 370-382 from position `i` on: the position of the first separator of a BSD-style line. -/
def findSep : List Byte → Nat → Option Nat
  | a :: b :: c :: t, i =>
    if isBlank a && b == 61 && isBlank c then some i else findSep (b :: c :: t) (i + 1)
  | _, _ => none

/-- Lines 396-400 from position `i` on: the position of the file name of a BSD-style line. -/
def findName : List Byte → Nat → Option Nat
  | a :: b :: t, i => if isBlank a && b == 40 then some (i + 2) else findName (b :: t) (i + 1)
  | _, _ => none

/-- What is done with a line: the check ends with an error, the line is ignored, or a file is compared
with a text (`hexhash` and `hexhashlen`, as many characters as `hasher` is told). -/
inductive Line where
  | invalid
  | ignored
  | item (text name : List Byte)
deriving DecidableEq, Repr

/-- A string in C ends at the first NUL. -/
def cstr (l : List Byte) : List Byte := l.takeWhile (fun c => c != 0)

/-- Lines 358-438 for one line.  The text of a BSD-style line has `linelen - bsd_style + 1` characters
(line 409), the last one being the NUL behind the line. -/
def parse (line : List Byte) : Line :=
  let l := strip line
  match findSep (l.drop 1) 1 with
  | some i =>
    let text := l.drop (i + 3) ++ [0]
    match findName l 0 with
    | none => .ignored
    | some n =>
      let l := if l.getD (i - 1) 0 = 41 then l.set (i - 1) 0 else l
      .item text (cstr (l.drop n))
  | none =>
    let text := l.takeWhile (fun c => !isBlank c)
    if text = [] then .invalid
    else match l.dropWhile (fun c => !isBlank c) with
      | [] => .ignored
      | [_] => .invalid
      | _ :: b :: name => if isBlank b || b == 42 then .item text name else .invalid

end LC.Apps.Hasher
