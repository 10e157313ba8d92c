import Verif.Seq.Base
/-!
# SESAM file names (specification)
-/

namespace Verif.Conv
open Verif Verif.Seq

/-- a letter, digit, underscore or hyphen -/
def PrefixChar (c : Char) : Prop :=
  ('a' ≤ c ∧ c ≤ 'z') ∨ ('A' ≤ c ∧ c ≤ 'Z') ∨ ('0' ≤ c ∧ c ≤ '9') ∨ c = '_' ∨ c = '-'

/-- the file letters -/
def FileLetter (c : Char) : Prop := c ∈ ['R', 'T', 'G', 'L', 'r', 't', 'g', 'l']

/-- a positive number without leading zeros -/
def IsNumber (n : Str) : Prop :=
  ∃ d ds, n = d :: ds ∧ ('1' ≤ d ∧ d ≤ '9') ∧ ∀ x ∈ ds, '0' ≤ x ∧ x ≤ '9'

/-- a file extension: `sif`, `siu`, `sin` or `fem`, in any letter case -/
def IsExt (e : Str) : Prop :=
  ∃ x y z, e = [x, y, z] ∧
    ((x ∈ ['s', 'S'] ∧ y ∈ ['i', 'I'] ∧ z ∈ ['f', 'F', 'u', 'U', 'n', 'N']) ∨
     (x ∈ ['f', 'F'] ∧ y ∈ ['e', 'E'] ∧ z ∈ ['m', 'M']))

/-- the hierarchy index of a file name: absent, or `H` and a number -/
def IsIndex (h : Str) : Prop := h = [] ∨ ∃ c n, h = c :: n ∧ (c = 'H' ∨ c = 'h') ∧ IsNumber n

/-- `name` is prefix, letter, number, index, a separator, extension and anything -/
def Splits (name pre : Str) (l : Char) (no : Str) (sep : Char) (ext : Str) : Prop :=
  ∃ h rest, name = pre ++ l :: no ++ h ++ sep :: ext ++ rest ∧
    (∀ c ∈ pre, PrefixChar c) ∧ FileLetter l ∧ IsNumber no ∧ IsIndex h ∧ IsExt ext

/-- a SESAM file name: the separator is a dot, and the prefix does not hold an extension -/
def SesamName (name pre : Str) (l : Char) (no ext : Str) : Prop :=
  Splits name pre l no '.' ext ∧ ∀ e, IsExt e → ¬ e <:+: pre

/-- a path: a directory with its final slash (or none), and a name -/
def PathOf (filename dir name : Str) : Prop :=
  filename = dir ++ name ∧ (dir = [] ∨ ∃ d, dir = d ++ ['/']) ∧ '/' ∉ name

end Verif.Conv
