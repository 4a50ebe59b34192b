import Verif.Model.Interval

/-!
# Text forms: printing and parsing of numbers and intervals

Strings are `List Char`.  `str(int)`, `str(Fraction)` and `Fraction(str)` are python library
behaviour, restated here (trusted): the decimal/exponent/underscore forms accepted by
`Fraction(str)` are not modelled (they give `ValueError` in the model), and only ASCII whitespace
is stripped.
-/

namespace Expdb

/-- The digit character of `d % 10`. Library: `str(int)`. -/
def digitChar (d : Nat) : Char := Char.ofNat (48 + d % 10)

/-- `str(n)` for a natural number (python library). -/
def natChars (n : Nat) : List Char :=
  if n < 10 then [digitChar n] else natChars (n / 10) ++ [digitChar (n % 10)]
  decreasing_by omega

/-- `str(n)` for an integer (python library). -/
def intChars (n : Int) : List Char :=
  if n < 0 then '-' :: natChars n.natAbs else natChars n.natAbs

/-- `str(Fraction)` (python library): `"n"` if the denominator is 1, else `"n/d"`. -/
def ratChars (q : ℚ) : List Char :=
  if q.den = 1 then intChars q.num else intChars q.num ++ '/' :: natChars q.den

/-- Value of a digit character. -/
def digitVal? (c : Char) : Option Nat :=
  if 48 ≤ c.toNat ∧ c.toNat ≤ 57 then some (c.toNat - 48) else none

/-- Reads the longest prefix of digits, returning the number read so far, the count of digits
and the rest (the `\d*` groups of python's fraction regular expression). -/
def readDigits (acc cnt : Nat) : List Char → Nat × Nat × List Char
  | [] => (acc, cnt, [])
  | c :: cs =>
    match digitVal? c with
    | some d => readDigits (acc * 10 + d) (cnt + 1) cs
    | none => (acc, cnt, c :: cs)

/-- ASCII whitespace removed by `str.strip()` (python library, ASCII part only). -/
def isSpace (c : Char) : Bool :=
  c == ' ' || c == '\t' || c == '\n' || c == '\r' || c == '\x0b' || c == '\x0c'

/-- `str.strip()` (python library). -/
def strip (s : List Char) : List Char :=
  ((s.dropWhile isSpace).reverse.dropWhile isSpace).reverse

/-- Optional sign, then the rest. -/
def readSign : List Char → Bool × List Char
  | '-' :: cs => (true, cs)
  | '+' :: cs => (false, cs)
  | cs => (false, cs)

/-- `Fraction(s)` for a string (python library): optional whitespace, sign, digits, optional
`/digits`.  `ValueError` for other text, `ZeroDivisionError` for denominator 0. -/
def parseFrac (s : List Char) : Py ℚ :=
  let (neg, r) := readSign (strip s)
  match readDigits 0 0 r with
  | (_, 0, _) => .error .valueError
  | (n, _, rest) =>
    let num : Int := if neg then -(n : Int) else n
    match rest with
    | [] => .ok num
    | '/' :: r2 =>
      match readDigits 0 0 r2 with
      | (_, 0, _) => .error .valueError
      | (d, _, []) => if d = 0 then .error .zeroDivision else .ok (mkRat num d)
      | (_, _, _ :: _) => .error .valueError
    | _ :: _ => .error .valueError

/-- `s.split(",")` for a one-character separator (python library). -/
def splitOn (sep : Char) : List Char → List (List Char)
  | [] => [[]]
  | c :: cs =>
    if c = sep then [] :: splitOn sep cs
    else match splitOn sep cs with
      | [] => [[c]]          -- not reached: `splitOn` is never empty
      | w :: ws => (c :: w) :: ws

namespace Interval

/-- `__repr__` (functions.py:50-53). -/
def repr (I : Interval) : List Char :=
  (if I.incL then '[' else '(') :: (ratChars I.x0 ++ ',' :: (ratChars I.x1 ++
    [if I.incU then ']' else ')']))

/-- `Interval.parse` (functions.py:68-72): `s[1:-1].split(",")`, fractions of the stripped first
two parts, flags from the first and last characters. The constructor may raise. -/
def parse (s : List Char) : Py Interval := do
  let inner := splitOn ',' (s.drop 1).dropLast
  let a ← match inner[0]? with
    | some w => parseFrac (strip w)
    | none => .error .indexError
  let b ← match inner[1]? with
    | some w => parseFrac (strip w)
    | none => .error .indexError
  let l ← match s.head? with
    | some c => .ok (c == '[')
    | none => .error .indexError
  let u ← match s.getLast? with
    | some c => .ok (c == ']')
    | none => .error .indexError
  make a b l u

end Interval
end Expdb
