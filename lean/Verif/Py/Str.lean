/-!
# The Python built-ins used by `utg`: strings, exceptions

Python `str` is modelled as a list of Unicode scalar values (lone surrogates are not modelled).
-/

namespace Py

/-- A Python string. -/
abbrev Str := List Char

/-- `str! "abc"` is the literal list of characters `['a', 'b', 'c']`. -/
syntax "str!" str : term

macro_rules
  | `(str! $s:str) => do
    let cs := s.getString.toList.map fun c => Lean.Syntax.mkCharLit c
    `(([$(cs.toArray),*] : List Char))

/-- Python exceptions as values. The first group are built-ins, the second the classes of utg/exceptions.py:3-55 with the
keyword arguments the code passes to them. -/
inductive PyErr where
  | IndexError
  | KeyError
  | TypeError
  | ValueError
  | AttributeError
  /-- `rels` lookup of an unknown value: `relation(value)` -/
  | RelsLookupError (value : Int)
  /-- utg/exceptions.py:16-17; raised at utg/words.py:84-87 -/
  | WrongFormsNumberError (wrong expected : Nat) (forms : List Str)
  /-- utg/exceptions.py:22-23; raised at utg/templates.py:70 -/
  | UnknownVerboseIdError (verboseId : Str)
  /-- utg/exceptions.py:26-27; raised at utg/templates.py:91 -/
  | ExternalDependecyNotFoundError (dependency : Str)
  /-- utg/exceptions.py:30-31; raised at utg/templates.py:39 -/
  | WrongDependencyFormatError (dependency : Str)
  /-- utg/exceptions.py:34-35; raised at utg/dictionary.py:60 -/
  | NoWordsFoundError (text : Str)
  /-- utg/exceptions.py:45-46; raised at utg/lexicon.py:31,60 (the key is not kept) -/
  | UnknownLexiconKeyError
  /-- utg/exceptions.py:48-49; raised at utg/lexicon.py:36,65 (key and restrictions are not kept) -/
  | NoTemplatesWithSpecifiedRestrictions
  /-- utg/exceptions.py:54-55; raised at utg/transformators.py:150,223 -/
  | UnknownIntegerFormError
  deriving DecidableEq, Repr

instance {ε α : Type} [DecidableEq ε] [DecidableEq α] : DecidableEq (Except ε α)
  | .ok a, .ok b => if h : a = b then .isTrue (by rw [h]) else .isFalse (by intro h'; cases h'; exact h rfl)
  | .error a, .error b => if h : a = b then .isTrue (by rw [h]) else .isFalse (by intro h'; cases h'; exact h rfl)
  | .ok _, .error _ => .isFalse (by intro h; cases h)
  | .error _, .ok _ => .isFalse (by intro h; cases h)

/-- The Unicode-dependent methods of Python's `str`, as a parameter: `s.lower()`, `c.upper()` for a single character (it may
give several characters), `c.isupper()` for a single character, whether `str.strip()` removes the character, and `c.isprintable()`. -/
structure PyUni where
  lower : Str → Str
  upperC : Char → Str
  isUpper : Char → Bool
  isSpace : Char → Bool
  isPrintable : Char → Bool

/-- `s.lstrip()`. -/
def lstrip (U : PyUni) (s : Str) : Str := s.dropWhile U.isSpace

/-- `s.strip()`: removes white space at both ends. -/
def strip (U : PyUni) (s : Str) : Str := (lstrip U (lstrip U s).reverse).reverse

/-- `s.split(sep)` for a one-character separator; never empty. -/
def split (sep : Char) : Str → List Str
  | [] => [[]]
  | c :: cs =>
    if c = sep then [] :: split sep cs
    else match split sep cs with
      | [] => [[c]]            -- unreachable: `split` is never empty
      | p :: ps => (c :: p) :: ps

/-- `sep.join(parts)` for a one-character separator. -/
def join (sep : Char) : List Str → Str
  | [] => []
  | [p] => p
  | p :: q :: ps => p ++ sep :: join sep (q :: ps)

/-- `s[1:-1]`. -/
def slice1m1 (s : Str) : Str := (s.drop 1).dropLast

/-- `s.replace(c, new)` for a one-character pattern. -/
def replaceChar (c : Char) (new : Str) (s : Str) : Str := s.flatMap fun x => if x = c then new else [x]

/-- `s.replace(old, new, 1)` for non-empty `old`: replaces the leftmost occurrence. -/
def replaceFirst (old new : Str) : Str → Str
  | [] => []
  | c :: cs => if old.isPrefixOf (c :: cs) then new ++ (c :: cs).drop old.length else c :: replaceFirst old new cs

/-- `re.compile('\[[^\]]+\]').findall(s)` (utg/templates.py:12): leftmost non-overlapping matches, left to right. At a `[`
the greedy run of non-`]` characters must be non-empty and be followed by `]`; a shorter run cannot be followed by `]`, so
backtracking never helps. The fuel is the length of the text, one step consumes at least one character. -/
def findallAux : Nat → Str → List Str
  | 0, _ => []
  | _ + 1, [] => []
  | n + 1, c :: cs =>
    if c = '[' then
      match cs.takeWhile (· ≠ ']'), cs.dropWhile (· ≠ ']') with
      | b :: bs, r :: rest => ('[' :: (b :: bs) ++ [r]) :: findallAux n rest
      | _, _ => findallAux n cs
    else findallAux n cs

/-- See `findallAux`. -/
def findall (s : Str) : List Str := findallAux s.length s

/-- Lower-case hexadecimal digits of `n`, the last `width` of them. -/
def hexDigits : Nat → Nat → Str
  | 0, _ => []
  | width + 1, n => hexDigits width (n / 16) ++ [(['0', '1', '2', '3', '4', '5', '6', '7', '8', '9', 'a', 'b', 'c', 'd', 'e', 'f'][n % 16]?).getD '0']

/-- The escape `\xhh`, `\uhhhh` or `\Uhhhhhhhh` of a character, by its code point. -/
def escaped (c : Char) : Str :=
  if c.toNat < 256 then '\\' :: 'x' :: hexDigits 2 c.toNat
  else if c.toNat < 65536 then '\\' :: 'u' :: hexDigits 4 c.toNat
  else '\\' :: 'U' :: hexDigits 8 c.toNat

/-- A character inside the quotes `quote` of `repr(s)`. -/
def reprChar (U : PyUni) (quote c : Char) : Str :=
  if c = quote ∨ c = '\\' then ['\\', c]
  else if c = '\t' then ['\\', 't']
  else if c = '\n' then ['\\', 'n']
  else if c = '\r' then ['\\', 'r']
  else if c.toNat < 32 ∨ c.toNat = 127 then escaped c
  else if c.toNat < 127 ∨ U.isPrintable c then [c]
  else escaped c

/-- `repr(s)`: in double quotes if there are single but no double quotes in it, else in single quotes. -/
def pyRepr (U : PyUni) (s : Str) : Str :=
  let quote := if '\'' ∈ s ∧ '"' ∉ s then '"' else '\''
  quote :: (s.flatMap (reprChar U quote) ++ [quote])

/-- `ascii(s)`: `repr(s)` with all characters beyond ASCII escaped. -/
def pyAscii (U : PyUni) (s : Str) : Str := (pyRepr U s).flatMap fun c => if c.toNat < 128 then [c] else escaped c

/-- What a conversion of `%`-formatting asks for besides its letter: `-` among the flags, the minimal width, the precision. The other flags
(`+`, blank, `#`, `0`) and the size (`h`, `l`, `L`) change nothing for strings. -/
structure Conversion where
  left : Bool
  width : Nat
  precision : Option Nat
  deriving DecidableEq

/-- Where `template % args` is in the template. -/
inductive FormatPos where
  /-- in the text -/
  | text
  /-- after `%` -/
  | percent
  /-- among the flags -/
  | flags (v : Conversion)
  /-- in the width -/
  | width (v : Conversion)
  /-- after the dot -/
  | dot (v : Conversion)
  /-- in the precision -/
  | precision (v : Conversion)
  /-- after the size -/
  | size (v : Conversion)
  deriving DecidableEq

/-- What follows the precision: the size, or the letter of the conversion (`none`). -/
def sizeStep (v : Conversion) (c : Char) : Except PyErr (Option FormatPos × Conversion) :=
  if c = 'h' ∨ c = 'l' ∨ c = 'L' then .ok (some (.size v), v) else .ok (none, v)

/-- What follows the width. -/
def dotStep (v : Conversion) (c : Char) : Except PyErr (Option FormatPos × Conversion) :=
  if c = '.' then .ok (some (.dot { v with precision := some 0 }), v) else sizeStep v c

/-- The value of a decimal digit. -/
def digitVal (c : Char) : Nat := c.toNat - '0'.toNat

/-- The next character of a conversion: the position after it, or `none` if it is the letter of the conversion. `*` takes the next
argument, which is a string and not a number (or missing): `TypeError`. `%(` wants a dictionary: `TypeError`. A width that does not fit
into 63 bits, or a precision that does not fit into 31, is a `ValueError`. -/
def formatStep : FormatPos → Char → Except PyErr (Option FormatPos × Conversion)
  | .text, _ => .ok (none, ⟨false, 0, none⟩)
  | .percent, c =>
    if c = '(' then .error .TypeError
    else formatFlags ⟨false, 0, none⟩ c
  | .flags v, c => formatFlags v c
  | .width v, c =>
    if c.isDigit then
      if v.width * 10 + digitVal c ≤ 9223372036854775807 then .ok (some (.width { v with width := v.width * 10 + digitVal c }), v)
      else .error .ValueError
    else dotStep v c
  | .dot v, c => if c = '*' then .error .TypeError else formatPrecision v c
  | .precision v, c => formatPrecision v c
  | .size v, _ => .ok (none, v)
where
  /-- A flag, or what follows the flags. -/
  formatFlags (v : Conversion) (c : Char) : Except PyErr (Option FormatPos × Conversion) :=
    if c = '-' then .ok (some (.flags { v with left := true }), v)
    else if c = '+' ∨ c = ' ' ∨ c = '#' ∨ c = '0' then .ok (some (.flags v), v)
    else if c = '*' then .error .TypeError
    else if c.isDigit then .ok (some (.width { v with width := digitVal c }), v)
    else dotStep v c
  /-- A digit of the precision, or what follows the precision. -/
  formatPrecision (v : Conversion) (c : Char) : Except PyErr (Option FormatPos × Conversion) :=
    if c.isDigit then
      if v.precision.getD 0 * 10 + digitVal c ≤ 2147483647 then
        .ok (some (.precision { v with precision := some (v.precision.getD 0 * 10 + digitVal c) }), v)
      else .error .ValueError
    else sizeStep v c

/-- The text a conversion with the letter `c` makes of a string, before it is padded. Numbers are asked for by `d`, `i`, `u`, `o`, `x`, `X`,
`e`, `E`, `f`, `F`, `g`, `G`: `TypeError` for a string; other letters are a `ValueError`. -/
def convertText (U : PyUni) (v : Conversion) (c : Char) (a : Str) : Except PyErr Str :=
  let cut (s : Str) : Str := match v.precision with | none => s | some n => s.take n
  if c = 's' then .ok (cut a)
  else if c = 'r' then .ok (cut (pyRepr U a))
  else if c = 'a' then .ok (cut (pyAscii U a))
  else if c = 'c' then if a.length = 1 then .ok a else .error .TypeError
  else if c ∈ ['d', 'i', 'u', 'o', 'x', 'X', 'e', 'E', 'f', 'F', 'g', 'G'] then .error .TypeError
  else .error .ValueError

/-- Padding to the width with blanks, on the left unless the flag `-` is given. -/
def padText (v : Conversion) (s : Str) : Str :=
  if v.left then s ++ List.replicate (v.width - s.length) ' ' else List.replicate (v.width - s.length) ' ' ++ s

/-- `template % args` for a tuple of strings, from a position in the template (CPython 3.7 to 3.13, `unicode_format_arg_parse` and
`unicode_format_arg_format`): the letter `%` gives `%` whatever stands before it, other letters take an argument. Running out of arguments
or leaving some over is `TypeError`, an incomplete conversion `ValueError`. Memory is not limited. -/
def formatFrom (U : PyUni) : FormatPos → Str → List Str → Except PyErr Str
  | .text, [], [] => .ok []
  | .text, [], _ :: _ => .error .TypeError
  | .text, c :: cs, args =>
    if c = '%' then formatFrom U .percent cs args else (formatFrom U .text cs args).map (c :: ·)
  | _, [], _ => .error .ValueError
  | pos, c :: cs, args => match formatStep pos c with
    | .error e => .error e
    | .ok (some pos', _) => formatFrom U pos' cs args
    | .ok (none, v) =>
      if c = '%' then (formatFrom U .text cs args).map ('%' :: ·)
      else match args with
        | [] => .error .TypeError
        | a :: args => match convertText U v c a with
          | .error e => .error e
          | .ok s => (formatFrom U .text cs args).map (padText v s ++ ·)

/-- `template % args` for a tuple of strings. -/
def pyFormat (U : PyUni) (template : Str) (args : List Str) : Except PyErr Str := formatFrom U .text template args

/-- The white space `int(s)` skips at both ends: space, tabs and line ends, and the non-ASCII white space of Unicode. (`str.strip` also
removes the characters 0x1c to 0x1f; `int` does not.) -/
def isIntBlank (c : Char) : Bool :=
  [0x9, 0xa, 0xb, 0xc, 0xd, 0x20, 0x85, 0xa0, 0x1680, 0x2000, 0x2001, 0x2002, 0x2003, 0x2004, 0x2005, 0x2006, 0x2007, 0x2008, 0x2009, 0x200a,
   0x2028, 0x2029, 0x202f, 0x205f, 0x3000].contains c.toNat

/-- The digits zero of Unicode 14 (`unicodedata.decimal(c) == 0`); the digits one to nine of the same script follow each of them. -/
def decimalZeros : List Nat :=
  [0x30, 0x660, 0x6f0, 0x7c0, 0x966, 0x9e6, 0xa66, 0xae6, 0xb66, 0xbe6, 0xc66, 0xce6, 0xd66, 0xde6, 0xe50, 0xed0, 0xf20, 0x1040, 0x1090,
   0x17e0, 0x1810, 0x1946, 0x19d0, 0x1a80, 0x1a90, 0x1b50, 0x1bb0, 0x1c40, 0x1c50, 0xa620, 0xa8d0, 0xa900, 0xa9d0, 0xa9f0, 0xaa50, 0xabf0,
   0xff10, 0x104a0, 0x10d30, 0x11066, 0x110f0, 0x11136, 0x111d0, 0x112f0, 0x11450, 0x114d0, 0x11650, 0x116c0, 0x11730, 0x118e0, 0x11950,
   0x11c50, 0x11d50, 0x11da0, 0x16a60, 0x16ac0, 0x16b50, 0x1d7ce, 0x1d7d8, 0x1d7e2, 0x1d7ec, 0x1d7f6, 0x1e140, 0x1e2f0, 0x1e950, 0x1fbf0]

/-- The value of a decimal digit of any script, as `int(s)` sees it. -/
def decimalValue (c : Char) : Option Nat :=
  (decimalZeros.find? fun zero => decide (zero ≤ c.toNat) && decide (c.toNat ≤ zero + 9)).map fun zero => c.toNat - zero

/-- The digits in `int(s)`, with single underscores between them; the flag says that the last character was a digit. -/
def digitsToNat : Bool → Nat → Str → Option Nat
  | true, acc, [] => some acc
  | false, _, [] => none
  | afterDigit, acc, c :: cs =>
    if c = '_' then (if afterDigit then digitsToNat false acc cs else none)
    else match decimalValue c with
      | some d => digitsToNat true (acc * 10 + d) cs
      | none => none

/-- White space at both ends removed. -/
def intStrip (s : Str) : Str := ((s.dropWhile isIntBlank).reverse.dropWhile isIntBlank).reverse

/-- The sign and the digits in `int(s)`. -/
def signedDigits : Str → Option Int
  | '-' :: cs => (digitsToNat false 0 cs).map fun n : Nat => -(n : Int)
  | '+' :: cs => (digitsToNat false 0 cs).map fun n : Nat => (n : Int)
  | cs => (digitsToNat false 0 cs).map fun n : Nat => (n : Int)

/-- `int(s)`. The limit on the number of digits in newer versions of CPython is not modelled. -/
def pyInt (s : Str) : Except PyErr Int :=
  match signedDigits (intStrip s) with
  | some n => .ok n
  | none => .error .ValueError

/-- Decimal digits of a natural number, most significant first. -/
def natDigits (n : Nat) : Str :=
  if n < 10 then [Char.ofNat ('0'.toNat + n)] else natDigits (n / 10) ++ [Char.ofNat ('0'.toNat + n % 10)]
termination_by n

/-- `str(n)` for an integer. -/
def pyStr (n : Int) : Str := if n < 0 then '-' :: natDigits n.natAbs else natDigits n.natAbs

/-- `s[0]`. -/
def first (s : Str) : Except PyErr Char :=
  match s with
  | [] => .error .IndexError
  | c :: _ => .ok c

/-- `s[-1]`. -/
def last (s : Str) : Except PyErr Char :=
  match s.getLast? with
  | none => .error .IndexError
  | some c => .ok c

/-- `a < b` for strings: lexicographic by code point. -/
def strLt : Str → Str → Bool
  | [], [] => false
  | [], _ :: _ => true
  | _ :: _, [] => false
  | a :: as, b :: bs => if a.toNat < b.toNat then true else if b.toNat < a.toNat then false else strLt as bs

/-- `a < b` for lists of strings: the first differing element decides. -/
def strListLt : List Str → List Str → Bool
  | [], [] => false
  | [], _ :: _ => true
  | _ :: _, [] => false
  | a :: as, b :: bs => if a = b then strListLt as bs else strLt a b

end Py
