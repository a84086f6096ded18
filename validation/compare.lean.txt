import Verif
open MshIO
def unhex (s : String) : Bytes := if s = "-" then [] else
  let cs := s.toList
  let d (c : Char) : UInt8 := if c.isDigit then (c.toNat - 48).toUInt8 else (c.toNat - 87).toUInt8
  let rec go : List Char → Bytes | a :: b :: r => (d a * 16 + d b) :: go r | _ => []
  go cs
def flag (s : String) : Bool := s == "1"
def chk {α} [DecidableEq α] (r : Outcome (α × Stream)) (v : α) (e f : String) (rest : String) : Bool :=
  match r with | .ok (x, s) => decide (x = v) && (s.eof == flag e) && (s.fail == flag f) && (s.rem == unhex rest) | _ => false
def main : IO Unit := do
  let ls ← IO.FS.lines "/tmp/scratch/vec.txt"
  let mut bad := 0
  for l in ls do
    let ok := match l.splitOn " " with
      | ["F", b, p, t] => fmtDouble (.general p.toNat!) ⟨UInt64.ofNat b.toNat!⟩ = unhex t
      | ["f", b, p, t] => fmtDouble (.fixed p.toNat!) ⟨UInt64.ofNat b.toNat!⟩ = unhex t
      | ["e", b, p, t] => fmtDouble (.scientific p.toNat!) ⟨UInt64.ofNat b.toNat!⟩ = unhex t
      | ["D", s, b, e, f, r] => natOfDigits (scanFloat ((unhex s).dropWhile isSpace)).ed > 2000 || chk (inDouble ⟨0x401c000000000000⟩ (Stream.ofBytes (unhex s))) ⟨UInt64.ofNat b.toNat!⟩ e f r
      | ["U", s, b, e, f, r] => chk (inSize 7 (Stream.ofBytes (unhex s))) (UInt64.ofNat b.toNat!) e f r
      | ["I", s, b, e, f, r] => chk (inInt 7 (Stream.ofBytes (unhex s))) (UInt32.ofNat b.toNat!).toInt32 e f r
      | ["S", s, b, e, f, r] => chk (inString (b! "old") (Stream.ofBytes (unhex s))) (unhex b) e f r
      | ["Q", s, b, e, f, r] => chk (inQuoted (b! "old") (Stream.ofBytes (unhex s))) (unhex b) e f r
      | ["q", s, t] => quoteText (unhex s) = unhex t
      | _ => false
    if !ok then
      bad := bad + 1
      if bad < 15 then IO.println s!"BAD {l}"
  IO.println s!"bad={bad} of {ls.size}"
