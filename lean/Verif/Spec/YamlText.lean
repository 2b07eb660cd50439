import Mathlib.Algebra.Order.Field.Rat
import Mathlib.Algebra.Field.Rat

/-!
# Specification: values as text

How numbers are written, and which words and names are safe to write without quotes.
-/

namespace Verif.Spec

/-- The number that decimal digits stand for. -/
def decimal : List Char → ℕ
  | [] => 0
  | c :: t => (c.toNat - 48) * 10 ^ t.length + decimal t

/-- The number that digits stand for with base eight. -/
def octal : List Char → ℕ
  | [] => 0
  | c :: t => (c.toNat - 48) * 8 ^ t.length + octal t

/-- One or more decimal digits. -/
def Digits (t : List Char) : Prop := t ≠ [] ∧ ∀ c ∈ t, c.isDigit = true

/-- A sign, or none. -/
inductive SignText : List Char → ℤ → Prop
  | none : SignText [] 1
  | plus : SignText ['+'] 1
  | minus : SignText ['-'] (-1)

/-- An exponent: `e` or `E`, a sign or none, digits. -/
inductive ExpText : List Char → ℤ → Prop
  | mk {x : Char} {s d : List Char} {z : ℤ} (hx : x = 'e' ∨ x = 'E') (hs : SignText s z) (hd : Digits d) :
      ExpText (x :: (s ++ d)) (z * decimal d)

/-- A whole number: a sign or none, digits without a zero in front. -/
inductive IntText : List Char → ℤ → Prop
  | mk {s d : List Char} {z : ℤ} (hs : SignText s z) (hd : Digits d) (h0 : d = ['0'] ∨ d.head? ≠ some '0') :
      IntText (s ++ d) (z * decimal d)

/-- A real number: a sign or none, digits, and a point with or without further digits, or an exponent, or
both. -/
inductive RealText : List Char → ℚ → Prop
  | point {s d f : List Char} {z : ℤ} (hs : SignText s z) (hd : Digits d) (hf : ∀ c ∈ f, c.isDigit = true) :
      RealText (s ++ (d ++ '.' :: f)) (z * (decimal (d ++ f) / 10 ^ f.length))
  | exp {s d x : List Char} {z e : ℤ} (hs : SignText s z) (hd : Digits d) (hx : ExpText x e) :
      RealText (s ++ (d ++ x)) (z * (decimal d * (10 : ℚ) ^ e))
  | both {s d f x : List Char} {z e : ℤ} (hs : SignText s z) (hd : Digits d)
      (hf : ∀ c ∈ f, c.isDigit = true) (hx : ExpText x e) :
      RealText (s ++ (d ++ '.' :: (f ++ x))) (z * (decimal (d ++ f) / 10 ^ f.length * (10 : ℚ) ^ e))

/-- Words that YAML reads as a truth value or as nothing. -/
def reserved : List String :=
  ["yes", "Yes", "YES", "no", "No", "NO", "true", "True", "TRUE", "false", "False", "FALSE", "on", "On",
    "ON", "off", "Off", "OFF", "null", "Null", "NULL"]

/-- A name: letters, digits and underscores, not beginning with a digit, at most 1024 of them, and not a
word with another meaning. -/
def SafeKey (k : String) : Prop :=
  (∃ c t, k.toList = c :: t ∧ (c.isAlpha = true ∨ c = '_')) ∧
    (∀ c ∈ k.toList, c.isAlphanum = true ∨ c = '_') ∧ k.toList.length ≤ 1024 ∧ k ∉ reserved

/-- A word, a phrase or a path: it begins with a letter, an underscore or a slash, or with a dot if it has
a slash; has only letters, digits, underscores, slashes, dots, hyphens and spaces, no space at the end;
and is not a word with another meaning. -/
def SafeString (s : String) : Prop :=
  (∃ c t, s.toList = c :: t ∧ (c.isAlpha = true ∨ c = '_' ∨ c = '/' ∨ (c = '.' ∧ '/' ∈ t))) ∧
    (∀ c ∈ s.toList, c.isAlphanum = true ∨ c ∈ ['_', '/', '.', '-', ' ']) ∧
    s.toList.getLast? ≠ some ' ' ∧ s ∉ reserved

end Verif.Spec
