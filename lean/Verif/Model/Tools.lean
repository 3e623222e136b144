import Verif.Model.Basic
/-
tools/prettify_bin.py: the hexadecimal dump of a binary file. Text is a list of characters; the file names, the command line and the messages for files that cannot be read are not modelled.
-/
namespace QuicSea.Tools
open QuicSea

/-- One hexadecimal digit as `bytes.hex` (tools/prettify_bin.py:6) writes it. -/
def hexDigit (n : Nat) : Char :=
  match n with
  | 0 => '0' | 1 => '1' | 2 => '2' | 3 => '3' | 4 => '4' | 5 => '5' | 6 => '6' | 7 => '7'
  | 8 => '8' | 9 => '9' | 10 => 'a' | 11 => 'b' | 12 => 'c' | 13 => 'd' | 14 => 'e' | _ => 'f'
/-- `bytes.hex` (tools/prettify_bin.py:6), two digits for a byte. -/
def hex (bs : Bytes) : List Char := bs.flatMap fun b => [hexDigit (b.toNat / 16), hexDigit (b.toNat % 16)]

/-- tools/prettify_bin.py:6 `[data[i:(i+16)].hex() for i in range(0, len(data), 16)]`: `range(0, n, 16)` has `(n + 15) / 16` elements. -/
def lines (data : Bytes) : List (List Char) :=
  (List.range ((data.length + 15) / 16)).map fun i => hex ((data.drop (16 * i)).take 16)

/-- A slice with step two, `l[::2]` (tools/prettify_bin.py:7). -/
def everyOther {α : Type} : List α → List α
  | [] => []
  | [x] => [x]
  | x :: _ :: l => x :: everyOther l

/-- tools/prettify_bin.py:7-9; `lines[1::2]` starts at the second element. -/
def formattedLines (ls : List (List Char)) : List (List Char) :=
  let pairs := ((everyOther ls).zip (everyOther ls.tail)).map fun (x, y) => x ++ ' ' :: y
  if ls.length % 2 = 1 then pairs ++ ls.getLast?.toList else pairs

/-- `'\n'.join(ls)` (tools/prettify_bin.py:11). -/
def join : List (List Char) → List Char
  | [] => []
  | [x] => x
  | x :: y :: l => x ++ '\n' :: join (y :: l)

/-- tools/prettify_bin.py:4-11 `reformat_bin`: the text written; `print` adds a newline. -/
def reformat (data : Bytes) : List Char := join (formattedLines (lines data)) ++ ['\n']

example : String.ofList (reformat [0xc0, 0x01, 0xff]) = "c001ff\n" := by decide +kernel
example : String.ofList (reformat []) = "\n" := by decide +kernel
example : String.ofList (reformat (List.replicate 17 0xab ++ [0x0f])) = "abababababababababababababababab ab0f\n" := by decide +kernel
example : String.ofList (reformat (List.replicate 33 0x10)) = "10101010101010101010101010101010 10101010101010101010101010101010\n10\n" := by decide +kernel

end QuicSea.Tools
