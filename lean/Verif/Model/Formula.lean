import Verif.Model.Printing
import Verif.Model.Rational
import Mathlib.Analysis.SpecialFunctions.Pow.Real

/-!
# Formulas given as strings

`RationalFunction.parse` hands its string to `sympy.parsing.sympy_parser.parse_expr`. The part of the language used in the
repository is restated here (library, trusted): decimal numbers, the variable `x`, `+ - * / **`, unary minus, parentheses and blanks,
with the precedence of python. As in `parse_expr` with its default transformations a number may not be followed directly by a name:
there is no implicit multiplication. sympy's normal form and the splitting into numerator and denominator (`sympy.fraction`) do not
change the value and are left out.
-/

namespace Expdb
namespace Formula
open Printing (Str)

/-- Tokens. -/
inductive Tok
  | num (q : ℚ) | x | plus | minus | times | over | pow | lp | rp
  deriving DecidableEq

/-- Characters that can continue a name. -/
def isName (c : Char) : Bool := c.isAlphanum || c == '_'

/-- A number literal that starts with the digit `d`: its value and the rest of the text (python library, tokenizer). -/
def lexNum (d : ℕ) (s : Str) : ℚ × Str :=
  match readDigits d 0 s with
  | (n, _, '.' :: r) => match readDigits 0 0 r with
    | (m, k, r') => (n + m / 10 ^ k, r')
  | (n, _, r) => (n, r)

/-- The tokenizer (library). `fuel` bounds the number of characters. `none` is an exception. -/
def lex : ℕ → Str → Option (List Tok)
  | _, [] => some []
  | 0, _ :: _ => none
  | n + 1, c :: s =>
    match digitVal? c with
    | some d =>
      match lexNum d s with
      | (q, r) => if (r.head?.map isName).getD false then none else (lex n r).map (fun t => Tok.num q :: t)
    | none =>
      if c == ' ' then lex n s
      else if c == 'x' then if (s.head?.map isName).getD false then none else (lex n s).map (fun t => Tok.x :: t)
      else if c == '+' then (lex n s).map (fun t => Tok.plus :: t)
      else if c == '-' then (lex n s).map (fun t => Tok.minus :: t)
      else if c == '/' then (lex n s).map (fun t => Tok.over :: t)
      else if c == '(' then (lex n s).map (fun t => Tok.lp :: t)
      else if c == ')' then (lex n s).map (fun t => Tok.rp :: t)
      else if c == '*' then
        match s with
        | '*' :: s' => (lex n s').map (fun t => Tok.pow :: t)
        | _ => (lex n s).map (fun t => Tok.times :: t)
      else none

/-- The parsed expression. -/
inductive Fml
  | num (q : ℚ) | x
  | add (a b : Fml) | sub (a b : Fml) | mul (a b : Fml) | div (a b : Fml) | pow (a b : Fml) | neg (a : Fml)
  deriving DecidableEq

/-- What is being parsed: a sum, the rest of a sum after `a`, a product, the rest of a product after `a`, a signed power, an atom. -/
inductive Goal
  | expr | exprRest (a : Fml) | term | termRest (a : Fml) | factor | atom

/-- The grammar of python arithmetic (library). -/
def parseAux : ℕ → Goal → List Tok → Option (Fml × List Tok)
  | 0, _, _ => none
  | n + 1, .expr, ts => (parseAux n .term ts).bind (fun p => parseAux n (.exprRest p.1) p.2)
  | n + 1, .exprRest a, .plus :: ts => (parseAux n .term ts).bind (fun p => parseAux n (.exprRest (.add a p.1)) p.2)
  | n + 1, .exprRest a, .minus :: ts => (parseAux n .term ts).bind (fun p => parseAux n (.exprRest (.sub a p.1)) p.2)
  | _ + 1, .exprRest a, ts => some (a, ts)
  | n + 1, .term, ts => (parseAux n .factor ts).bind (fun p => parseAux n (.termRest p.1) p.2)
  | n + 1, .termRest a, .times :: ts => (parseAux n .factor ts).bind (fun p => parseAux n (.termRest (.mul a p.1)) p.2)
  | n + 1, .termRest a, .over :: ts => (parseAux n .factor ts).bind (fun p => parseAux n (.termRest (.div a p.1)) p.2)
  | _ + 1, .termRest a, ts => some (a, ts)
  | n + 1, .factor, .minus :: ts => (parseAux n .factor ts).map (fun p => (.neg p.1, p.2))
  | n + 1, .factor, ts => (parseAux n .atom ts).bind (fun p =>
      match p.2 with
      | .pow :: us => (parseAux n .factor us).map (fun q => (.pow p.1 q.1, q.2))
      | _ => some p)
  | _ + 1, .atom, .num q :: ts => some (.num q, ts)
  | _ + 1, .atom, .x :: ts => some (.x, ts)
  | n + 1, .atom, .lp :: ts => (parseAux n .expr ts).bind (fun p =>
      match p.2 with
      | .rp :: us => some (p.1, us)
      | _ => none)
  | _ + 1, .atom, _ => none

/-- `RationalFunction.parse(expr)` (functions.py:795-801), up to the splitting into numerator and denominator. The error stands for
the exception of the tokenizer or the parser (`SyntaxError` or `TokenError`), for which the model has no name of its own. -/
def parse (s : Str) : Py Fml :=
  match lex s.length s with
  | none => .error .valueError
  | some ts =>
    match parseAux (8 * ts.length + 8) .expr ts with
    | some (f, []) => .ok f
    | _ => .error .valueError

/-- The value at a point. -/
noncomputable def Fml.eval : Fml → ℝ → ℝ
  | .num q, _ => (q : ℝ)
  | .x, t => t
  | .add a b, t => a.eval t + b.eval t
  | .sub a b, t => a.eval t - b.eval t
  | .mul a b, t => a.eval t * b.eval t
  | .div a b, t => a.eval t / b.eval t
  | .pow a b, t => a.eval t ^ b.eval t
  | .neg a, t => - a.eval t

end Formula
end Expdb
