import Mathlib.Algebra.Order.Field.Basic

/-
Independent specification of UTC.  A leap second table is the list `L` of day numbers at whose
start (midnight) TAI−UTC has just grown by one second; before the first of them TAI−UTC is `b`.
-/
namespace Spec

variable {K : Type*} [Field K] [LinearOrder K]

/-- TAI−UTC throughout day `D`: the base plus one for every leap second inserted before `D`. -/
def taiMinusUtc (L : List ℤ) (b : ℤ) (D : ℤ) : ℤ := b + (L.filter (· ≤ D)).length

/-- TAI, in seconds since Julian date 0.0, of second `s` of minute `mi` of hour `h` of day `D`.
Day `D` begins at Julian date `D - 1/2`. -/
def taiOf (L : List ℤ) (b : ℤ) (D h mi : ℤ) (s : K) : K :=
  (D * 86400 - 43200 + 3600 * h + 60 * mi : ℤ) + s + (taiMinusUtc L b D : ℤ)

/-- `h:mi:s` is a UTC time of day that exists on day `D`: the last minute of a day that ends in a
leap second has 61 seconds, every other minute has 60. -/
def ValidUtc (L : List ℤ) (D h mi : ℤ) (s : K) : Prop :=
  0 ≤ h ∧ h ≤ 23 ∧ 0 ≤ mi ∧ mi ≤ 59 ∧ 0 ≤ s ∧
    (s < 60 ∨ (h = 23 ∧ mi = 59 ∧ s < 61 ∧ D + 1 ∈ L))

/-- Chronological order of UTC readings. -/
def UtcLt (D h mi : ℤ) (s : K) (D' h' mi' : ℤ) (s' : K) : Prop :=
  D < D' ∨ (D = D' ∧ (h < h' ∨ (h = h' ∧ (mi < mi' ∨ (mi = mi' ∧ s < s')))))

/-- The instant `x` (TAI seconds since Julian date 0.0) lies in an inserted leap second: the
second just before the start of some day `n ∈ L`. -/
def InLeapSecond (L : List ℤ) (b : ℤ) (x : K) : Prop :=
  ∃ n ∈ L, (taiOf L b n 0 0 (0 : K)) - 1 ≤ x ∧ x < taiOf L b n 0 0 (0 : K)

end Spec
