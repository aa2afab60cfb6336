import Mathlib.Data.List.Basic

/-! File names and web addresses, written as lists of characters. -/
namespace Spec

/-- The file name has this extension (without the dot): in `dir/stem.ext` the last dot of the last component separates
the two, and the stem is not made of dots only. -/
def HasExtension (name ext : List Char) : Prop :=
  ∃ dir stem, name = dir ++ stem ++ '.' :: ext ∧ (dir = [] ∨ dir.getLast? = some '/') ∧ '/' ∉ stem ∧ ∃ c ∈ stem, c ≠ '.'

/-- `url` is `scheme://host/dirs/name;parameters?query#fragment`, all parts after the name being optional. -/
structure AddressOf (url name : List Char) where
  scheme : List Char
  host : List Char
  dirs : List Char
  parameters : List Char
  rest : List Char
  whole : url = scheme ++ "://".toList ++ host ++ dirs ++ '/' :: name ++ parameters ++ rest
  scheme_plain : ':' ∉ scheme
  host_plain : ∀ c ∈ host, c ≠ '/' ∧ c ≠ '?' ∧ c ≠ '#'
  dirs_plain : ∀ c ∈ dirs, c ≠ '?' ∧ c ≠ '#'
  dirs_rooted : dirs = [] ∨ dirs.head? = some '/'
  name_plain : ∀ c ∈ name, c ≠ '/' ∧ c ≠ '?' ∧ c ≠ '#' ∧ c ≠ ';'
  parameters_plain : ∀ c ∈ parameters, c ≠ '/' ∧ c ≠ '?' ∧ c ≠ '#'
  parameters_marked : parameters = [] ∨ parameters.head? = some ';'
  rest_marked : rest = [] ∨ rest.head? = some '?' ∨ rest.head? = some '#'

end Spec
