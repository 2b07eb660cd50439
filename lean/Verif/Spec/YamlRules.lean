import Mathlib.Computability.Language
import Verif.Spec.YamlText

/-!
# Specification: what a text means in a YAML file

The rules by which plain scalars get a type, as sets of texts, transcribed from the patterns of PyYAML's
resolver and of `custom_yaml_loader` (pyDeltaRCM/shared_tools.py 505-518), and which texts are plain
scalars at all.
-/

namespace Verif.Spec

open Computability

/-- `[...]`: one character out of a list. -/
def oneOf (cs : String) : Language Char := {t | ∃ c ∈ cs.toList, t = [c]}

/-- A word. -/
def lit (s : String) : Language Char := {s.toList}

/-- `...?` -/
def maybe (l : Language Char) : Language Char := 1 + l

/-- `...+` -/
def some1 (l : Language Char) : Language Char := l * l∗

/-- `[-+]?` -/
def signL : Language Char := maybe (oneOf "-+")

/-- `[0-9]` -/
def digL : Language Char := oneOf "0123456789"

/-- `[0-9_]` -/
def digUL : Language Char := oneOf "0123456789_"

/-- `(?::[0-5]?[0-9])+` -/
def baseSixty : Language Char := some1 (lit ":" * (maybe (oneOf "012345") * digL))

/-- `\.(?:inf|Inf|INF)` with a sign or none, or `\.(?:nan|NaN|NAN)`. -/
def noNumber : Language Char :=
  signL * (lit ".inf" + lit ".Inf" + lit ".INF") + (lit ".nan" + lit ".NaN" + lit ".NAN")

/-- PyYAML's rule for floats: `[-+]?(?:[0-9][0-9_]*)\.[0-9_]*(?:[eE][-+][0-9]+)?`,
`\.[0-9][0-9_]*(?:[eE][-+][0-9]+)?`, `[-+]?[0-9][0-9_]*(?::[0-5]?[0-9])+\.[0-9_]*`, or no number. -/
def floatRule : Language Char :=
  let ex := maybe (oneOf "eE" * (oneOf "-+" * some1 digL))
  signL * (digL * (digUL∗ * (lit "." * (digUL∗ * ex)))) +
  lit "." * (digL * (digUL∗ * ex)) +
  signL * (digL * (digUL∗ * (baseSixty * (lit "." * digUL∗)))) +
  noNumber

/-- The rule that `custom_yaml_loader` adds: `[-+]?(?:[0-9][0-9_]*)\.[0-9_]*(?:[eE][-+]?[0-9]+)?`,
`[-+]?(?:[0-9][0-9_]*)(?:[eE][-+]?[0-9]+)`, `\.[0-9_]+(?:[eE][-+]?[0-9]+)?`,
`[-+]?[0-9][0-9_]*(?::[0-5]?[0-9])+\.[0-9_]*`, or no number. -/
def addedRule : Language Char :=
  let ex := oneOf "eE" * (signL * some1 digL)
  signL * (digL * (digUL∗ * (lit "." * (digUL∗ * maybe ex)))) +
  signL * (digL * (digUL∗ * ex)) +
  lit "." * (digUL * (digUL∗ * maybe ex)) +
  signL * (digL * (digUL∗ * (baseSixty * (lit "." * digUL∗)))) +
  noNumber

/-- PyYAML's rule for whole numbers: `[-+]?0b[0-1_]+`, `[-+]?0[0-7_]+`, `[-+]?(?:0|[1-9][0-9_]*)`,
`[-+]?0x[0-9a-fA-F_]+`, `[-+]?[1-9][0-9_]*(?::[0-5]?[0-9])+`. -/
def intRule : Language Char :=
  signL * (lit "0b" * some1 (oneOf "01_")) +
  signL * (lit "0" * some1 (oneOf "01234567_")) +
  signL * (lit "0" + oneOf "123456789" * digUL∗) +
  signL * (lit "0x" * some1 (oneOf "0123456789abcdefABCDEF_")) +
  signL * (oneOf "123456789" * (digUL∗ * baseSixty))

/-- PyYAML's rule for times: `[0-9][0-9][0-9][0-9]-[0-9][0-9]-[0-9][0-9]`, or the same with one digit for the
month or the day allowed, followed by `(?:[Tt]|[ \t]+)[0-9][0-9]?:[0-9][0-9]:[0-9][0-9](?:\.[0-9]*)?` and
`(?:[ \t]*(?:Z|[-+][0-9][0-9]?(?::[0-9][0-9])?))?`. -/
def timeRule : Language Char :=
  let year := digL * (digL * (digL * digL))
  let two := digL * digL
  let oneOrTwo := digL * maybe digL
  let zone := lit "Z" + oneOf "-+" * (oneOrTwo * maybe (lit ":" * two))
  year * (lit "-" * (two * (lit "-" * two))) +
  year * (lit "-" * (oneOrTwo * (lit "-" * (oneOrTwo * ((oneOf "Tt" + some1 (oneOf " \t")) *
    (oneOrTwo * (lit ":" * (two * (lit ":" * (two * (maybe (lit "." * digL∗) *
      maybe ((oneOf " \t")∗ * zone))))))))))))

/-- The other texts with a meaning: truth values, nothing, and the signs for merging and for a default. -/
def wordRule : Language Char :=
  {t | t ∈ (reserved ++ ["", "~", "<<", "="]).map String.toList}

/-- The text is read as a string: no rule is about it. -/
def NoOtherMeaning (t : List Char) : Prop :=
  t ∉ wordRule ∧ t ∉ floatRule ∧ t ∉ intRule ∧ t ∉ timeRule ∧ t ∉ addedRule

/-- The characters that begin something else than a plain scalar. -/
def beginnings : String := ",[]{}#&*!|>'\"%@` "

/-- A plain scalar on one line, of printable ASCII characters: it does not begin with a character of
another meaning (where `-`, `?` and `:` have one only before a space or at the end), has no space at the end,
no comment and no key in it. -/
structure PlainText (t : List Char) : Prop where
  chars : ∀ c ∈ t, 32 ≤ c.toNat ∧ c.toNat ≤ 126
  first : ∃ c u, t = c :: u ∧ c ∉ beginnings.toList ∧
    (c = '-' ∨ c = '?' ∨ c = ':' → ∃ d v, u = d :: v ∧ d ≠ ' ')
  last : t.getLast? ≠ some ' ' ∧ t.getLast? ≠ some ':'
  key : ∀ a b, t ≠ a ++ ':' :: ' ' :: b
  comment : ∀ a b, t ≠ a ++ ' ' :: '#' :: b

/-- A string that survives: a plain scalar without another meaning. -/
def Survives (s : String) : Prop := PlainText s.toList ∧ NoOtherMeaning s.toList

end Verif.Spec
