import Mathlib.Computability.RegularExpressions
import Verif.Model.Expand

/-!
# The text of a configuration file

Model of `_write_yaml_config_to_file` (`pyDeltaRCM/preprocessor.py` 1168-1190) and of loading such a file
with `custom_yaml_loader` (`pyDeltaRCM/shared_tools.py` 484-519; `pyDeltaRCM/preprocessor.py` 183-206).

Of YAML the model has what the writer needs: one `key: value` per line, with plain scalars of printable
ASCII characters. Everything else (quotes, brackets, comments, indentation, the values of dates and of
infinities) gives `none`. The rules that turn a plain scalar into a value are those of PyYAML's `SafeLoader` in their order
(bool, float, int, merge, null, timestamp, value), followed by the rule that `custom_yaml_loader` adds.
A float is the exact decimal number that its text denotes.
-/

namespace Verif.Model

/-- `[-+]?` -/
def dropSign : List Char → List Char
  | [] => []
  | c :: t => if c = '-' ∨ c = '+' then t else c :: t

/-- `value[0] == '-'` -/
def hasMinus : List Char → Bool
  | [] => false
  | c :: _ => c == '-'

/-- `[0-9_]` -/
def digU (c : Char) : Bool := c.isDigit || c == '_'

/-- `[0-9]+` up to the end. -/
def digits1 (t : List Char) : Bool := !t.isEmpty && t.all Char.isDigit

/-- The exponent up to the end: `[eE][-+]?[0-9]+` in the rule of `custom_yaml_loader`
(pyDeltaRCM/shared_tools.py 509-511), `[eE][-+][0-9]+` in the one of PyYAML. -/
def expo (custom : Bool) : List Char → Bool
  | [] => false
  | c :: t => (c == 'e' || c == 'E') && digits1 (dropSign t) &&
      (custom || hasMinus t || (t.head? == some '+'))

/-- `(?::[0-5]?[0-9])+` from the beginning: what is left, if it is there at least once. -/
def sexTail : List Char → Option (List Char)
  | ':' :: a :: b :: t =>
    if a.isDigit && decide (a.toNat ≤ '5'.toNat) && b.isDigit then
      match sexTail t with
      | some r => some r
      | none => some t
    else if a.isDigit then
      match sexTail (b :: t) with
      | some r => some r
      | none => some (b :: t)
    else none
  | [':', a] => if a.isDigit then some [] else none
  | _ => none

/-- The alternative of the rules for floats that begins with a point. -/
def mPoint (custom : Bool) : List Char → Bool
  | '.' :: c :: u => (if custom then digU c else c.isDigit) &&
      ((u.dropWhile digU).isEmpty || expo custom (u.dropWhile digU))
  | _ => false

/-- The rule for floats (pyDeltaRCM/shared_tools.py 505-518), and that of PyYAML. The second alternative
is only in the former. -/
def mFloat (custom : Bool) (t : List Char) : Bool :=
  let alt1 := match dropSign t with
    | [] => false
    | c :: r => c.isDigit && (match r.dropWhile digU with
      | '.' :: u => (u.dropWhile digU).isEmpty || expo custom (u.dropWhile digU)
      | _ => false)
  let alt2 := custom && (match dropSign t with
    | [] => false
    | c :: r => c.isDigit && expo true (r.dropWhile digU))
  let alt3 := mPoint custom t
  let alt4 := match dropSign t with
    | [] => false
    | c :: r => c.isDigit && (match sexTail (r.dropWhile digU) with
      | some ('.' :: u) => u.all digU
      | _ => false)
  let alt5 := decide (dropSign t ∈ [['.', 'i', 'n', 'f'], ['.', 'I', 'n', 'f'], ['.', 'I', 'N', 'F']])
  let alt6 := decide (t ∈ [['.', 'n', 'a', 'n'], ['.', 'N', 'a', 'N'], ['.', 'N', 'A', 'N']])
  alt1 || alt2 || alt3 || alt4 || alt5 || alt6

/-- `[0-9a-fA-F_]` -/
def hexU (c : Char) : Bool :=
  digU c || (decide ('a'.toNat ≤ c.toNat) && decide (c.toNat ≤ 'f'.toNat)) ||
    (decide ('A'.toNat ≤ c.toNat) && decide (c.toNat ≤ 'F'.toNat))

/-- PyYAML's rule for integers. -/
def mInt (t : List Char) : Bool :=
  match dropSign t with
  | [] => false
  | '0' :: 'b' :: u => !u.isEmpty && u.all (fun c => c == '0' || c == '1' || c == '_')
  | '0' :: 'x' :: u => !u.isEmpty && u.all hexU
  | '0' :: u => u.all (fun c => (c.isDigit && decide (c.toNat ≤ '7'.toNat)) || c == '_')
  | c :: u => c.isDigit && (u.all digU || (sexTail (u.dropWhile digU) == some []))

/-- The value of a digit (also of `a` to `f`). -/
def charVal (c : Char) : ℕ :=
  if c.isDigit then c.toNat - '0'.toNat
  else if 'a'.toNat ≤ c.toNat then c.toNat - 'a'.toNat + 10 else c.toNat - 'A'.toNat + 10

/-- `int(value, base)` of digits. -/
def natOf (base : ℕ) (t : List Char) : ℕ := t.foldl (fun n c => n * base + charVal c) 0

/-- `value.split(':')` -/
def splitColon : List Char → List (List Char)
  | [] => [[]]
  | c :: t =>
    if c = ':' then [] :: splitColon t
    else match splitColon t with
      | [] => [[c]]
      | p :: ps => (c :: p) :: ps

/-- `construct_yaml_int` of PyYAML. -/
def intVal (t : List Char) : Option Val :=
  let u := t.filter (· ≠ '_')
  let s : ℤ := if hasMinus u then -1 else 1
  match dropSign u with
  | ['0'] => some (.int 0)
  | '0' :: 'b' :: v => if v = [] then none else some (.int (s * (natOf 2 v : ℕ)))
  | '0' :: 'x' :: v => if v = [] then none else some (.int (s * (natOf 16 v : ℕ)))
  | '0' :: v => some (.int (s * (natOf 8 ('0' :: v) : ℕ)))
  | v => some (.int (s * ((splitColon v).foldl (fun n p => n * 60 + natOf 10 p) 0 : ℕ)))

/-- The exponent of `float(value)`. -/
def expOf : List Char → Option ℤ
  | [] => some 0
  | c :: t => if c = 'e' ∨ c = 'E' then
      some ((if hasMinus t then -1 else 1) * (natOf 10 (dropSign t) : ℕ))
    else none

/-- `float(value)` of a text without sign. -/
def decOf (t : List Char) : Option ℚ :=
  let ip := t.takeWhile Char.isDigit
  match t.dropWhile Char.isDigit with
  | '.' :: u =>
    let fp := u.takeWhile Char.isDigit
    if ip = [] ∧ fp = [] then none
    else match expOf (u.dropWhile Char.isDigit) with
      | some e => some ((natOf 10 (ip ++ fp) : ℚ) * (10 : ℚ) ^ (e - (fp.length : ℤ)))
      | none => none
  | u =>
    if ip = [] then none
    else match expOf u with
      | some e => some ((natOf 10 ip : ℚ) * (10 : ℚ) ^ e)
      | none => none

/-- `construct_yaml_float` of PyYAML. Infinities and base 60 are left out. -/
def floatVal (t : List Char) : Option Val :=
  let u := t.filter (· ≠ '_')
  match decOf (dropSign u) with
  | some q => some (.float (if hasMinus u then -q else q))
  | none => none

/-- The words for truth values. -/
def trueWords : List (List Char) :=
  [['y', 'e', 's'], ['Y', 'e', 's'], ['Y', 'E', 'S'], ['t', 'r', 'u', 'e'], ['T', 'r', 'u', 'e'],
    ['T', 'R', 'U', 'E'], ['o', 'n'], ['O', 'n'], ['O', 'N']]

/-- The words for truth values. -/
def falseWords : List (List Char) :=
  [['n', 'o'], ['N', 'o'], ['N', 'O'], ['f', 'a', 'l', 's', 'e'], ['F', 'a', 'l', 's', 'e'],
    ['F', 'A', 'L', 'S', 'E'], ['o', 'f', 'f'], ['O', 'f', 'f'], ['O', 'F', 'F']]

/-- The words for nothing. -/
def nullWords : List (List Char) :=
  [[], ['~'], ['n', 'u', 'l', 'l'], ['N', 'u', 'l', 'l'], ['N', 'U', 'L', 'L']]

/-- `[...]` in a pattern. -/
def classR (cs : List Char) : RegularExpression Char := cs.foldr (fun c r => .char c + r) 0

/-- PyYAML's pattern for times. -/
def dateRule : RegularExpression Char :=
  let d := classR ['0', '1', '2', '3', '4', '5', '6', '7', '8', '9']
  let blank := classR [' ', '\t']
  let zone : RegularExpression Char :=
    .char 'Z' + classR ['-', '+'] * (d * (1 + d)) * (1 + .char ':' * (d * d))
  (d * (d * (d * d))) * .char '-' * (d * d) * .char '-' * (d * d) +
  (d * (d * (d * d))) * .char '-' * (d * (1 + d)) * .char '-' * (d * (1 + d)) *
    (classR ['T', 't'] + blank * blank.star) * (d * (1 + d)) * .char ':' * (d * d) * .char ':' * (d * d) *
    (1 + .char '.' * d.star) * (1 + blank.star * zone)

/-- Whether the text is a time. -/
def mDate (t : List Char) : Bool := dateRule.rmatch t

/-- The value of a plain scalar. -/
def resolveText (t : List Char) : Option Val :=
  if t ∈ trueWords then some (.bool true)
  else if t ∈ falseWords then some (.bool false)
  else if mFloat false t then floatVal t
  else if mInt t then intVal t
  else if t = ['<', '<'] then none
  else if t ∈ nullWords then some .null
  else if mDate t then none
  else if t = ['='] then none
  else if mFloat true t then floatVal t
  else some (.str (String.ofList t))

/-- Characters that cannot begin a plain scalar. -/
def indicators : List Char :=
  ['-', '?', ':', ',', '[', ']', '{', '}', '#', '&', '*', '!', '|', '>', '\'', '"', '%', '@', '`', ' ']

/-- Whether `c` is printable ASCII. -/
def printable (c : Char) : Bool := decide (32 ≤ c.toNat) && decide (c.toNat < 127)

/-- A text that has neither `: ` nor ` #` nor a colon at the end. -/
def plainInside : List Char → Bool
  | [] => true
  | [c] => printable c && c ≠ ':' && c ≠ ' '
  | c :: d :: t => printable c && !(c == ':' && d == ' ') && !(c == ' ' && d == '#') && plainInside (d :: t)

/-- Whether the text is a plain scalar. `-`, `?` and `:` may begin one if no space follows. -/
def plainScalar (t : List Char) : Bool :=
  match t with
  | [] => false
  | [c] => decide (c ∉ indicators) && plainInside t
  | c :: d :: _ => (decide (c ∉ indicators) || (decide (c ∈ ['-', '?', ':']) && d ≠ ' ')) && plainInside t

/-- Split a line at the first `: `, or at a colon at its end. -/
def splitKey : List Char → Option (List Char × List Char)
  | [] => none
  | [c] => if c = ':' then some ([], []) else none
  | c :: d :: t =>
    if c = ':' ∧ d = ' ' then some ([], t)
    else match splitKey (d :: t) with
      | some (k, v) => some (c :: k, v)
      | none => none

/-- A key: a plain scalar of at most 1024 characters that does not begin like the end of a document and
is a string. -/
def keyOf (k : List Char) : Option String :=
  if plainScalar k && decide (k.length ≤ 1024) && decide (k.head? ≠ some '-') then
    match resolveText k with
    | some (.str s) => some s
    | _ => none
  else none

/-- Spaces at both ends are no part of a value. -/
def trimSpaces (t : List Char) : List Char :=
  ((t.dropWhile (· = ' ')).reverse.dropWhile (· = ' ')).reverse

/-- The value after a key. -/
def valueOf (t : List Char) : Option Val :=
  let u := trimSpaces t
  if u = [] ∨ plainScalar u = true then resolveText u else none

/-- One line of the file. -/
def loadLine (l : List Char) : Option (String × Val) :=
  match splitKey l with
  | none => none
  | some (k, v) =>
    match keyOf k, valueOf v with
    | some k', some v' => some (k', v')
    | _, _ => none

/-- The lines of a text. Each ends with a line break. -/
def linesOf : List Char → List (List Char)
  | [] => []
  | c :: t =>
    if c = '\n' then [] :: linesOf t
    else match linesOf t with
      | [] => [[c]]
      | l :: ls => (c :: l) :: ls

/-- The lines are put into the dictionary one after the other. -/
def loadLines : Dict Val → List (List Char) → Option (Dict Val)
  | d, [] => some d
  | d, l :: ls =>
    match loadLine l with
    | none => none
    | some (k, v) => loadLines (dset d k v) ls

/-- `yaml.load` of the text (pyDeltaRCM/preprocessor.py 200-204). -/
def loadText (t : List Char) : Option (Dict Val) := loadLines [] (linesOf t)

/-- `str(i)` -/
def strInt (i : ℤ) : List Char := if i < 0 then '-' :: strNat i.natAbs else strNat i.natAbs

/-- What is written for a value (pyDeltaRCM/preprocessor.py 1180-1185); `repr` is the text of a float.
Lists, dictionaries and other objects are left out. -/
def textOf (repr : ℚ → List Char) : Val → Option (List Char)
  | .null => some ['n', 'u', 'l', 'l']
  | .bool true => some ['T', 'r', 'u', 'e']
  | .bool false => some ['F', 'a', 'l', 's', 'e']
  | .int i => some (strInt i)
  | .float q => some (repr q)
  | .str s => some s.toList
  | .other => none

/-- The lines that `_write_yaml_config_to_file` adds to the file (pyDeltaRCM/preprocessor.py
1187-1190). -/
def writeConfig (repr : ℚ → List Char) : Dict Val → Option (List Char)
  | [] => some []
  | (k, v) :: d =>
    match textOf repr v, writeConfig repr d with
    | some t, some r => some (k.toList ++ [':', ' '] ++ t ++ ['\n'] ++ r)
    | _, _ => none

end Verif.Model
