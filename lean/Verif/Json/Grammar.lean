import Verif.Json.Core
/-!
# The grammar of JSON

Specification: what texts RFC 8259 allows for a value. Nothing here refers to the parser. The value of a number is left to a relation.
-/

namespace Verif.Json

/-- White space (RFC 8259, section 2). -/
def Space (w : List Char) : Prop := ∀ c ∈ w, c = ' ' ∨ c = '\n' ∨ c = '\t' ∨ c = '\r'

/-- At least one digit. -/
def Digits (l : List Char) : Prop := l ≠ [] ∧ ∀ c ∈ l, c.isDigit = true

/-- Digits without a zero in front. -/
def IntPart (l : List Char) : Prop := l = ['0'] ∨ Digits l ∧ l.head? ≠ some '0'

def FracPart (l : List Char) : Prop := l = [] ∨ ∃ ds, Digits ds ∧ l = '.' :: ds

def ExpPart (l : List Char) : Prop :=
  l = [] ∨ ∃ x sign ds, (x = 'e' ∨ x = 'E') ∧ (sign = [] ∨ sign = ['+'] ∨ sign = ['-']) ∧ Digits ds ∧ l = x :: (sign ++ ds)

/-- The text of a number without its sign. -/
def Unsigned (l : List Char) : Prop := ∃ i f e, IntPart i ∧ FracPart f ∧ ExpPart e ∧ l = i ++ (f ++ e)

/-- The text of a number (section 6). -/
def NumberText (l : List Char) : Prop := ∃ u, Unsigned u ∧ (l = u ∨ l = '-' :: u)

/-- A hexadecimal digit of either case. -/
def HexDigit (c : Char) (v : Nat) : Prop := (v, c) ∈ [(0, '0'), (1, '1'), (2, '2'), (3, '3'), (4, '4'), (5, '5'), (6, '6'), (7, '7'),
  (8, '8'), (9, '9'), (10, 'a'), (11, 'b'), (12, 'c'), (13, 'd'), (14, 'e'), (15, 'f'), (10, 'A'), (11, 'B'), (12, 'C'), (13, 'D'),
  (14, 'E'), (15, 'F')]

/-- Four hexadecimal digits. -/
def Hex4 (n : Nat) (l : List Char) : Prop := ∃ a b c d va vb vc vd, l = [a, b, c, d] ∧ HexDigit a va ∧ HexDigit b vb ∧ HexDigit c vc ∧
  HexDigit d vd ∧ n = va * 4096 + vb * 256 + vc * 16 + vd

/-- The short escapes. -/
def shortEscapes : List (Char × Char) := [('"', '"'), ('\\', '\\'), ('/', '/'), ('b', Char.ofNat 8), ('f', Char.ofNat 12), ('n', Char.ofNat 10),
  ('r', Char.ofNat 13), ('t', Char.ofNat 9)]

/-- A character inside of a string (section 7): itself, a short escape, its code point in hexadecimal, or a pair of surrogates. -/
def CharText (c : Char) (l : List Char) : Prop :=
  (32 ≤ c.toNat ∧ c ≠ '"' ∧ c ≠ '\\' ∧ l = [c]) ∨
  (∃ e, (e, c) ∈ shortEscapes ∧ l = ['\\', e]) ∨
  (∃ h, Hex4 c.toNat h ∧ l = '\\' :: 'u' :: h) ∨
  (∃ h1 h2 n1 n2, Hex4 n1 h1 ∧ Hex4 n2 h2 ∧ 0xD800 ≤ n1 ∧ n1 ≤ 0xDBFF ∧ 0xDC00 ≤ n2 ∧ n2 ≤ 0xDFFF ∧
    c.toNat = (n1 - 0xD800) * 1024 + (n2 - 0xDC00) + 0x10000 ∧ l = '\\' :: 'u' :: (h1 ++ '\\' :: 'u' :: h2))

/-- The characters of a string. -/
def CharsText : List Char → List Char → Prop
  | [], l => l = []
  | c :: cs, l => ∃ a b, l = a ++ b ∧ CharText c a ∧ CharsText cs b

def StringText (s : String) (l : List Char) : Prop := ∃ b, CharsText s.toList b ∧ l = '"' :: (b ++ ['"'])

mutual
/-- The texts of a value (sections 3 to 5), where `N t j` means that the number `t` has the value `j`. -/
def Spells (N : List Char → J → Prop) : J → List Char → Prop
  | .null, t => t = ['n', 'u', 'l', 'l']
  | .bool true, t => t = ['t', 'r', 'u', 'e']
  | .bool false, t => t = ['f', 'a', 'l', 's', 'e']
  | .num n, t => NumberText t ∧ N t (.num n)
  | .flt x, t => NumberText t ∧ N t (.flt x)
  | .str s, t => StringText s t
  | .arr l, t => ∃ b, t = '[' :: (b ++ [']']) ∧ (l = [] ∧ Space b ∨ SpellsList N l b)
  | .obj l, t => ∃ b, t = '{' :: (b ++ ['}']) ∧ (l = [] ∧ Space b ∨ SpellsEntries N l b)

/-- Elements with commas between them. -/
def SpellsList (N : List Char → J → Prop) : List J → List Char → Prop
  | [], _ => False
  | j :: l, t => ∃ a v b r, t = a ++ (v ++ (b ++ r)) ∧ Space a ∧ Spells N j v ∧ Space b ∧
      (l = [] ∧ r = [] ∨ ∃ r', r = ',' :: r' ∧ SpellsList N l r')

/-- Entries with commas between them. -/
def SpellsEntries (N : List Char → J → Prop) : List (String × J) → List Char → Prop
  | [], _ => False
  | (n, j) :: l, t => ∃ a k a' a'' v b r, t = a ++ (k ++ (a' ++ (':' :: (a'' ++ (v ++ (b ++ r)))))) ∧ Space a ∧ StringText n k ∧ Space a' ∧
      Space a'' ∧ Spells N j v ∧ Space b ∧ (l = [] ∧ r = [] ∨ ∃ r', r = ',' :: r' ∧ SpellsEntries N l r')
end

/-- A whole text. -/
def SpellsText (N : List Char → J → Prop) (j : J) (t : List Char) : Prop := ∃ a v b, t = a ++ (v ++ b) ∧ Space a ∧ Spells N j v ∧ Space b

end Verif.Json
