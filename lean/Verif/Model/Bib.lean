import Verif.Model.Text

/-!
# Reading a bibliography (reference.py)

Characters and strings as in `Model/Text`. `str.lower()` and `int(str)` are python library behaviour, restated for ASCII
(underscores and non-ASCII digits accepted by `int` are not modelled: `ValueError`).
-/

namespace Expdb
namespace Bib

/-- A field value: `_parse_year` gives an integer, the other fields are strings (reference.py:174-182). -/
inductive FieldVal where
  | str (s : List Char)
  | int (n : ℤ)
  deriving DecidableEq

/-- A `Reference` object (reference.py:4-8); `entries` is a dictionary, here an association list with distinct keys. -/
structure Ref where
  label : List Char
  reftype : List Char
  entries : List (List Char × FieldVal)

/-- `_extract(item, open_brace, close_brace)` with the current `level` (reference.py:112-122). -/
def extractGo (level : ℤ) : List Char → List Char
  | [] => []
  | c :: cs =>
    let l1 := if c = '}' then level - 1 else level
    let l2 := if c = '{' then l1 + 1 else l1
    if l1 ≥ 1 then c :: extractGo l2 cs else extractGo l2 cs

/-- `_extract(item, "{", "}")` (reference.py:112-122). -/
def extract (item : List Char) : List Char := extractGo 0 item

/-- The loop of `_split_level(item, "{", "}", delim, 0)` with current nesting `l` and word `chs` (reference.py:128-143). -/
def splitGo (delim : Char) (l : ℤ) (chs : List Char) : List Char → List (List Char)
  | [] => if chs = [] then [] else [chs]
  | c :: cs =>
    let l1 := if c = '}' then l - 1 else l
    let l2 := if c = '{' then l1 + 1 else l1
    if l1 = 0 ∧ c = delim then
      if chs = [] then splitGo delim l2 [] cs else chs :: splitGo delim l2 [] cs
    else splitGo delim l2 (chs ++ [c]) cs

/-- `_split_level(item, "{", "}", delim, 0)` (reference.py:125-143). -/
def splitLevel (item : List Char) (delim : Char) : List (List Char) := splitGo delim 0 [] item

/-- `int(s)` for a string (python library). -/
def parseInt (s : List Char) : Py ℤ :=
  let (neg, r) := readSign (strip s)
  match readDigits 0 0 r with
  | (_, 0, _) => .error .valueError
  | (n, _, []) => .ok (if neg then -(n : ℤ) else n)
  | (_, _, _ :: _) => .error .valueError

/-- `_parse_year(s)` (reference.py:145-146). -/
def parseYear (s : List Char) : Py ℤ :=
  match splitOn '/' s with
  | [] => .error .indexError
  | w :: _ => parseInt w

/-- `s.split(sep)` for a separator of any length (python library), reading `w` so far. -/
def splitStrGo (sep : List Char) (w : List Char) : ℕ → List Char → List (List Char)
  | _, [] => [w]
  | n + 1, _ :: cs => splitStrGo sep w n cs
  | 0, c :: cs => if sep.isPrefixOf (c :: cs) then w :: splitStrGo sep [] (sep.length - 1) cs else splitStrGo sep (w ++ [c]) 0 cs

/-- `s.split(sep)` (python library). -/
def splitStr (sep s : List Char) : List (List Char) := splitStrGo sep [] 0 s

/-- The separator of the authors (reference.py:149). -/
def andSep : List Char := [' ', 'a', 'n', 'd', ' ']

/-- The name kept of one author (reference.py:152-155). `a.split(",")[0]` and `a.split(" ")[-1]` always exist. -/
def surname (a : List Char) : List Char :=
  if ',' ∈ a then (splitOn ',' a).headD [] else (splitOn ' ' a).getLastD []

/-- `"--".join(authors)` (python library). -/
def joinDash : List (List Char) → List Char
  | [] => []
  | [a] => a
  | a :: b :: rest => a ++ '-' :: '-' :: joinDash (b :: rest)

/-- `_parse_authors(s)` (reference.py:148-156). -/
def parseAuthors (s : List Char) : List Char := joinDash ((splitStr andSep s).map (fun p => surname (strip p)))

/-- `str.lower()` (python library, ASCII part). -/
def lower (s : List Char) : List Char := s.map Char.toLower

/-- `fields[key] = value`: an existing key keeps its place. -/
def setField {α : Type} (d : List (List Char × α)) (key : List Char) (v : α) : List (List Char × α) :=
  match d with
  | [] => [(key, v)]
  | e :: es => if e.1 = key then (key, v) :: es else e :: setField es key v

/-- `d[key]` as an option. -/
def getField {α : Type} (d : List (List Char × α)) (key : List Char) : Option α :=
  match d with
  | [] => none
  | e :: es => if e.1 = key then some e.2 else getField es key

/-- The value stored for a key (reference.py:177-180). -/
def fieldValue (key value : List Char) : Py FieldVal :=
  if key = ['y', 'e', 'a', 'r'] then
    match parseYear value with
    | .error e => .error e
    | .ok n => .ok (.int n)
  else if key = ['a', 'u', 't', 'h', 'o', 'r'] then .ok (.str (parseAuthors value))
  else .ok (.str value)

/-- One round of the loop over `entries[1:]` (reference.py:168-182). -/
def parseField (fields : List (List Char × FieldVal)) (entry : List Char) : Py (List (List Char × FieldVal)) :=
  let e := strip entry
  if e = [] then .ok fields
  else
    match splitLevel e '=' with
    | k :: v :: _ =>
      let key := lower (strip k)
      let value := extract (strip v)
      if key = [] ∨ value = [] then .ok fields
      else
        match fieldValue key value with
        | .error x => .error x
        | .ok fv => .ok (setField fields key fv)
    | _ => .ok fields

/-- The loop over `entries[1:]` (reference.py:166-182). -/
def parseFields (fields : List (List Char × FieldVal)) : List (List Char) → Py (List (List Char × FieldVal))
  | [] => .ok fields
  | e :: es =>
    match parseField fields e with
    | .error x => .error x
    | .ok f => parseFields f es

/-- `_parse(item)` (reference.py:159-184). `entries[0]` raises `IndexError` when there is nothing between braces. -/
def parse (item : List Char) : Py Ref :=
  match splitLevel (extract item) ',' with
  | [] => .error .indexError
  | l :: es =>
    match parseFields [] es with
    | .error x => .error x
    | .ok fields => .ok ⟨strip l, lower ((splitOn '{' item).headD []), fields⟩

/-- The loop over the items (reference.py:85-90). -/
def loadItems (refs : List (List Char × Ref)) : List (List Char) → Py (List (List Char × Ref))
  | [] => .ok refs
  | item :: items =>
    if item = [] then loadItems refs items
    else
      match parse item with
      | .error x => .error x
      | .ok r => loadItems (if r.label = [] then refs else setField refs r.label r) items

/-- `" ".join(ls)` (python library). -/
def joinSpace : List (List Char) → List Char
  | [] => []
  | [a] => a
  | a :: b :: rest => a ++ ' ' :: joinSpace (b :: rest)

/-- `load()` on a file with the given lines, the references loaded before being `refs` (reference.py:76-90). -/
def load (refs : List (List Char × Ref)) (lines : List (List Char)) : Py (List (List Char × Ref)) :=
  loadItems refs (splitOn '@' (joinSpace (lines.map strip)))

/-- `get(label)` (reference.py:103-106). -/
def get (refs : List (List Char × Ref)) (label : List Char) : Py Ref :=
  match getField refs label with
  | some r => .ok r
  | none => .error .valueError

/-- `author in ref.entries["author"]` for a given author, and true for `"Any"` (reference.py:96); `KeyError` without author. -/
def matchesAuthor (author : Option (List Char)) (r : Ref) : Py Bool :=
  match author with
  | none => .ok true
  | some a =>
    match getField r.entries ['a', 'u', 't', 'h', 'o', 'r'] with
    | none => .error .keyError
    | some (.int _) => .error .typeError
    | some (.str s) => .ok (decide (a <:+: s))

/-- `ref.entries["year"] == year` for a given year, and true for `"Any"` (reference.py:97); `KeyError` without year. -/
def matchesYear (year : Option ℤ) (r : Ref) : Py Bool :=
  match year with
  | none => .ok true
  | some y =>
    match getField r.entries ['y', 'e', 'a', 'r'] with
    | none => .error .keyError
    | some (.int z) => .ok (decide (z = y))
    | some (.str _) => .ok false

/-- `find_all(author, year)` (reference.py:92-100); `none` stands for `"Any"`. The year is looked up only if the author
matches. -/
def findAll (author : Option (List Char)) (year : Option ℤ) : List (List Char × Ref) → Py (List Ref)
  | [] => .ok []
  | (_, r) :: refs =>
    match matchesAuthor author r with
    | .error x => .error x
    | .ok false => findAll author year refs
    | .ok true =>
      match matchesYear year r with
      | .error x => .error x
      | .ok b =>
        match findAll author year refs with
        | .error x => .error x
        | .ok out => .ok (if b then r :: out else out)

end Bib
end Expdb
