import Verif.Json.Numbers
import Verif.Json.Core
/-!
# The text of JSON

`serde_json::to_string_pretty` and `serde_json::from_str`, used in /repo/ssbh_lib_json/src/main.rs:43,60-78 and
/repo/ssbh_data_json/src/main.rs:27,44. The crate is not part of /repo: printer and parser are modelled from its published source
(`ser.rs`, `de.rs`, `read.rs`) and that of the crate `ryu` (`pretty/mod.rs`), function by function. A text is its list of characters.
The parser of the crate calls the implementations of `Deserialize` while it reads; here it makes a value, which they get afterwards.
-/

namespace Verif.Json
open Verif.Ieee

/-! ## Printing -/

/-- `itoa` -/
def natText (n : Nat) : List Char := Nat.toDigits 10 n

def intText (n : Int) : List Char := if n < 0 then '-' :: natText n.natAbs else natText n.natAbs

/-- `ryu::pretty::format32` for the digits `m` and the exponent `k`: the layout of `m * 10 ^ k`. -/
def decimalText (m : Nat) (k : Int) : List Char :=
  let ds := natText m
  let kk : Int := ds.length + k
  if 0 ≤ k ∧ kk ≤ 13 then ds ++ List.replicate k.toNat '0' ++ ['.', '0']
  else if 0 < kk ∧ kk ≤ 13 then ds.take kk.toNat ++ '.' :: ds.drop kk.toNat
  else if -6 < kk ∧ kk ≤ 0 then '0' :: '.' :: (List.replicate (-kk).toNat '0' ++ ds)
  else if ds.length = 1 then ds ++ 'e' :: intText (kk - 1)
  else ds.take 1 ++ '.' :: (ds.drop 1 ++ 'e' :: intText (kk - 1))

/-- `format_f32`: the sign, and zero. The digits and the exponent for a magnitude are chosen by `P`. -/
def floatText (P : Nat → Nat × Int) (x : F32) : List Char :=
  let f := ofBits x
  let body := if f.mag = 0 then ['0', '.', '0'] else decimalText (P f.mag).1 (P f.mag).2
  if f.neg then '-' :: body else body

/-- `CharEscape`, the table `ESCAPE` and `write_char_escape` -/
def escape (c : Char) : List Char :=
  if c = '"' then ['\\', '"']
  else if c = '\\' then ['\\', '\\']
  else if c.toNat = 8 then ['\\', 'b']
  else if c.toNat = 9 then ['\\', 't']
  else if c.toNat = 10 then ['\\', 'n']
  else if c.toNat = 12 then ['\\', 'f']
  else if c.toNat = 13 then ['\\', 'r']
  else if c.toNat < 32 then ['\\', 'u', '0', '0', JCodec.hexDigit (c.toNat / 16), JCodec.hexDigit (c.toNat % 16)]
  else [c]

/-- `format_escaped_str` -/
def strText (s : String) : List Char := '"' :: (s.toList.flatMap escape ++ ['"'])

/-- A new line with the indentation of `PrettyFormatter`. -/
def newLine (ind : Nat) : List Char := '\n' :: List.replicate (2 * ind) ' '

mutual
/-- `to_string_pretty` of a value inside of `ind` arrays and objects. -/
def pretty (P : Nat → Nat × Int) (ind : Nat) : J → List Char
  | .null => ['n', 'u', 'l', 'l']
  | .bool true => ['t', 'r', 'u', 'e']
  | .bool false => ['f', 'a', 'l', 's', 'e']
  | .num n => intText n
  | .flt x => floatText P x
  | .str s => strText s
  | .arr [] => ['[', ']']
  | .arr (j :: l) => '[' :: (newLine (ind + 1) ++ (pretty P (ind + 1) j ++ (prettyList P (ind + 1) l ++ (newLine ind ++ [']']))))
  | .obj [] => ['{', '}']
  | .obj ((n, j) :: l) =>
    '{' :: (newLine (ind + 1) ++ (strText n ++ (':' :: ' ' :: (pretty P (ind + 1) j ++ (prettyEntries P (ind + 1) l ++
      (newLine ind ++ ['}']))))))

/-- The elements after the first one. -/
def prettyList (P : Nat → Nat × Int) (ind : Nat) : List J → List Char
  | [] => []
  | j :: l => ',' :: (newLine ind ++ (pretty P ind j ++ prettyList P ind l))

def prettyEntries (P : Nat → Nat × Int) (ind : Nat) : List (String × J) → List Char
  | [] => []
  | (n, j) :: l => ',' :: (newLine ind ++ (strText n ++ (':' :: ' ' :: (pretty P ind j ++ prettyEntries P ind l))))
end

/-- `serde_json::to_string_pretty` -/
def toText (P : Nat → Nat × Int) (j : J) : String := String.ofList (pretty P 0 j)

/-! ## Parsing -/

/-- `parse_whitespace` -/
def skip : List Char → List Char
  | [] => []
  | c :: cs => if c = ' ' ∨ c = '\n' ∨ c = '\t' ∨ c = '\r' then skip cs else c :: cs

def digitValue (c : Char) : Nat := c.toNat - 48

def dropDigits : List Char → Nat × List Char
  | [] => (0, [])
  | c :: cs => if c.isDigit then ((dropDigits cs).1 + 1, (dropDigits cs).2) else (0, c :: cs)

/-- The loops of `parse_integer` and `parse_long_integer`: the significand, the number of digits left out because it has 64 bits, and
the rest. -/
def scanInt : Nat → List Char → Nat × Nat × List Char
  | s, [] => (s, 0, [])
  | s, c :: cs =>
    if c.isDigit then
      if s * 10 + digitValue c < 2 ^ 64 then scanInt (s * 10 + digitValue c) cs
      else (s, dropDigits (c :: cs))
    else (s, 0, c :: cs)

/-- The loops of `parse_decimal` and `parse_decimal_overflow`. -/
def scanDec : Nat → Int → List Char → Nat × Int × List Char
  | s, e, [] => (s, e, [])
  | s, e, c :: cs =>
    if c.isDigit then
      if s * 10 + digitValue c < 2 ^ 64 then scanDec (s * 10 + digitValue c) (e - 1) cs
      else (s, e, (dropDigits (c :: cs)).2)
    else (s, e, c :: cs)

/-- The digits of an exponent. Exponents with more than 32 bits are not saturated, with the same results. -/
def scanExp : Nat → List Char → Nat × List Char
  | s, [] => (s, [])
  | s, c :: cs => if c.isDigit then scanExp (s * 10 + digitValue c) cs else (s, c :: cs)

/-- The value for a float. -/
def floatValue (neg : Bool) (s : Nat) (e : Int) (r : List Char) : Option (J × List Char) :=
  (readFloat neg s e).map fun f => (.flt (toBits f), r)

/-- `parse_exponent` after the sign. -/
def exponentDigits (neg : Bool) (s : Nat) (e : Int) (minus : Bool) : List Char → Option (J × List Char)
  | [] => none
  | c :: cs =>
    if c.isDigit then
      let x := scanExp (digitValue c) cs
      floatValue neg s (if minus then e - x.1 else e + x.1) x.2
    else none

/-- `parse_exponent`, if there is an exponent. -/
def exponentPart (neg : Bool) (s : Nat) (e : Int) : List Char → Option (J × List Char)
  | [] => floatValue neg s e []
  | c :: cs =>
    if c = 'e' ∨ c = 'E' then
      match cs with
      | [] => none
      | d :: ds =>
        if d = '+' then exponentDigits neg s e false ds
        else if d = '-' then exponentDigits neg s e true ds
        else exponentDigits neg s e false (d :: ds)
    else floatValue neg s e (c :: cs)

/-- An integer, `parse_number`: too small ones and `-0` are floats. -/
def intValue (neg : Bool) (s : Nat) : J :=
  if neg then
    if s = 0 ∨ 2 ^ 63 < s then .flt (toBits ((Fl.ofNat s : Fl double).neg'.convert single)) else .num (-s)
  else .num s

/-- `parse_number` and `parse_long_integer` after the digits before the point. -/
def numberTail (neg : Bool) (s n : Nat) : List Char → Option (J × List Char)
  | [] => if n = 0 then some (intValue neg s, []) else floatValue neg s n []
  | c :: cs =>
    if c = '.' then
      match cs with
      | [] => none
      | d :: ds =>
        if d.isDigit then
          let x := scanDec s n (d :: ds)
          exponentPart neg x.1 x.2.1 x.2.2
        else none
    else if c = 'e' ∨ c = 'E' then exponentPart neg s n (c :: cs)
    else if n = 0 then some (intValue neg s, c :: cs)
    else floatValue neg s n (c :: cs)

/-- `parse_integer` -/
def parseNumber (neg : Bool) : List Char → Option (J × List Char)
  | [] => none
  | c :: cs =>
    if c = '0' then
      match cs with
      | [] => numberTail neg 0 0 []
      | d :: ds => if d.isDigit then none else numberTail neg 0 0 (d :: ds)
    else if c.isDigit then
      let x := scanInt (digitValue c) cs
      numberTail neg x.1 x.2.1 x.2.2
    else none

/-- `decode_hex_escape` -/
def hex4 : List Char → Option (Nat × List Char)
  | a :: b :: c :: d :: r =>
    match JCodec.hexValue a, JCodec.hexValue b, JCodec.hexValue c, JCodec.hexValue d with
    | some a, some b, some c, some d => some (((a * 16 + b) * 16 + c) * 16 + d, r)
    | _, _, _, _ => none
  | _ => none

/-- `parse_unicode_escape`: a lone surrogate is an error. -/
def parseUnicode (r : List Char) : Option (Char × List Char) :=
  match hex4 r with
  | none => none
  | some (n, r) =>
    if 0xDC00 ≤ n ∧ n ≤ 0xDFFF then none
    else if 0xD800 ≤ n ∧ n ≤ 0xDBFF then
      match r with
      | '\\' :: 'u' :: r =>
        match hex4 r with
        | none => none
        | some (n', r) =>
          if 0xDC00 ≤ n' ∧ n' ≤ 0xDFFF then some (Char.ofNat ((n - 0xD800) * 2 ^ 10 + (n' - 0xDC00) + 0x10000), r) else none
      | _ => none
    else some (Char.ofNat n, r)

/-- `parse_escape` -/
def unescape : List Char → Option (Char × List Char)
  | [] => none
  | c :: r =>
    if c = '"' then some ('"', r)
    else if c = '\\' then some ('\\', r)
    else if c = '/' then some ('/', r)
    else if c = 'b' then some (Char.ofNat 8, r)
    else if c = 'f' then some (Char.ofNat 12, r)
    else if c = 'n' then some (Char.ofNat 10, r)
    else if c = 'r' then some (Char.ofNat 13, r)
    else if c = 't' then some (Char.ofNat 9, r)
    else if c = 'u' then parseUnicode r
    else none

/-- `parse_str` after the opening quote. The first argument bounds the number of characters. -/
def parseStr : Nat → List Char → Option (List Char × List Char)
  | 0, _ => none
  | _ + 1, [] => none
  | fuel + 1, c :: r =>
    if c = '"' then some ([], r)
    else if c = '\\' then
      match unescape r with
      | none => none
      | some (x, r) => (parseStr fuel r).map fun p => (x :: p.1, p.2)
    else if c.toNat < 32 then none
    else (parseStr fuel r).map fun p => (c :: p.1, p.2)

/-- `parse_ident` and the value. -/
def parseIdent (word : List Char) (j : J) (cs : List Char) : Option (J × List Char) :=
  if word.isPrefixOf cs then some (j, cs.drop word.length) else none

/-- `SeqAccess`: the elements from one on, with the closing bracket. -/
def parseElements (value : List Char → Option (J × List Char)) : Nat → List Char → Option (List J × List Char)
  | 0, _ => none
  | fuel + 1, cs =>
    match value cs with
    | none => none
    | some (j, r) =>
      match skip r with
      | [] => none
      | c :: r =>
        if c = ',' then (parseElements value fuel r).map fun p => (j :: p.1, p.2)
        else if c = ']' then some ([j], r)
        else none

/-- `MapAccess` -/
def parseEntries (value : List Char → Option (J × List Char)) : Nat → List Char → Option (List (String × J) × List Char)
  | 0, _ => none
  | fuel + 1, cs =>
    match skip cs with
    | [] => none
    | q :: r =>
      if q = '"' then
        match parseStr (r.length + 1) r with
        | none => none
        | some (n, r) =>
          match skip r with
          | [] => none
          | k :: r =>
            if k = ':' then
              match value r with
              | none => none
              | some (j, r) =>
                match skip r with
                | [] => none
                | c :: r =>
                  if c = ',' then (parseEntries value fuel r).map fun p => ((String.ofList n, j) :: p.1, p.2)
                  else if c = '}' then some ([(String.ofList n, j)], r)
                  else none
            else none
      else none

/-- `parse_value`. The first argument is `remaining_depth`. -/
def parseValue : Nat → List Char → Option (J × List Char)
  | 0, _ => none
  | depth + 1, cs =>
    match skip cs with
    | [] => none
    | c :: r =>
      if c = 'n' then parseIdent ['u', 'l', 'l'] .null r
      else if c = 't' then parseIdent ['r', 'u', 'e'] (.bool true) r
      else if c = 'f' then parseIdent ['a', 'l', 's', 'e'] (.bool false) r
      else if c = '-' then parseNumber true r
      else if c.isDigit then parseNumber false (c :: r)
      else if c = '"' then (parseStr (r.length + 1) r).map fun p => (.str (String.ofList p.1), p.2)
      else if c = '[' then
        if depth = 0 then none
        else
          match skip r with
          | [] => none
          | d :: ds =>
            if d = ']' then some (.arr [], ds)
            else (parseElements (parseValue depth) (d :: ds).length (d :: ds)).map fun p => (.arr p.1, p.2)
      else if c = '{' then
        if depth = 0 then none
        else
          match skip r with
          | [] => none
          | d :: ds =>
            if d = '}' then some (.obj [], ds)
            else (parseEntries (parseValue depth) (d :: ds).length (d :: ds)).map fun p => (.obj p.1, p.2)
      else none

/-- `serde_json::from_str` for a value. -/
def fromText (s : String) : Option J :=
  match parseValue 128 s.toList with
  | none => none
  | some (j, r) => if skip r = [] then some j else none

end Verif.Json
