import Verif.Model.Basic
import Mathlib.Data.Int.Order.Basic
import Mathlib.Analysis.Real.Pi.Bounds
import Mathlib.Algebra.Order.Archimedean.Real.Basic

/-
Model of `skyfield/units.py`.  Arrays are modelled elementwise (`_to_array` is the identity on values);
AstroPy conversion (`to`) is not modelled.
-/
namespace Skyfield

variable {K : Type*} [Field K] [LinearOrder K] [FloorRing K]

/-! ### Constants and the `getset` descriptor -/

/-- `AU_M` — skyfield/constants.py:4. -/
def auM : K := 149597870700
/-- `AU_KM` — skyfield/constants.py:5. -/
def auKm : K := 1495978707 / 10
/-- `DAY_S` — skyfield/constants.py:7. -/
def daySeconds : K := 86400
/-- `C` — skyfield/constants.py:17. -/
def lightSpeed : K := 299792458

/-- A class whose units are `getset` descriptors: the core unit, and for the others the conversion
factor from the core unit — skyfield/units.py:50-72. -/
structure UnitClass (U K : Type*) where
  core : U
  factor : U → K

/-- The `__dict__` of an instance: the units that have been stored so far. Used at skyfield/units.py:56-69. -/
abbrev UnitDict (U K : Type*) := U → Option K

/-- `setattr(obj, name, value)`. Used at skyfield/units.py:56-69. -/
def UnitDict.set {U K : Type*} [DecidableEq U] (d : UnitDict U K) (u : U) (x : K) : UnitDict U K :=
  fun u' => if u' = u then some x else d u'

/-- `_constructor(cls, value)` of a `getset` unit — skyfield/units.py:56-69. -/
def UnitClass.construct {U : Type*} [DecidableEq U] (c : UnitClass U K) (u : U) (value : K) : UnitDict U K :=
  if u = c.core then UnitDict.set (fun _ => none) u value
  else (UnitDict.set (fun _ => none) u value).set c.core (value / c.factor u)

/-- Reading an attribute: the instance's own `__dict__` wins over the descriptor, whose `__get__`
computes the value from the core unit and stores it; `none` is the exception raised when the core unit
is not there — skyfield/units.py:74-79. -/
def UnitClass.read {U : Type*} [DecidableEq U] (c : UnitClass U K) (d : UnitDict U K) (u : U) :
    Option (K × UnitDict U K) :=
  match d u with
  | some v => some (v, d)
  | none =>
    match d c.core with
    | none => none
    | some v => some (v * c.factor u, d.set u (v * c.factor u))

/-- Reading several attributes one after another. Used at skyfield/units.py:50-72. -/
def UnitClass.readAll {U : Type*} [DecidableEq U] (c : UnitClass U K) : UnitDict U K → List U →
    Option (List K)
  | _, [] => some []
  | d, u :: us =>
    match c.read d u with
    | none => none
    | some (v, d') => (c.readAll d' us).map (v :: ·)

/-! ### Distance and velocity -/

/-- The units of a distance. Used at skyfield/units.py:116-119. -/
inductive DistanceUnit | au | km | m
deriving DecidableEq

/-- The units of `Distance` — skyfield/units.py:116-119. -/
def distanceClass : UnitClass DistanceUnit K where
  core := .au
  factor | .au => 1 | .km => auKm | .m => auM

/-- `Distance.__init__(au, km, m)`; `none` is its `ValueError` — skyfield/units.py:100-110. -/
def distanceInit (au km m : Option K) : Option (UnitDict DistanceUnit K) :=
  match au with
  | some au => some (UnitDict.set (fun _ => none) .au au)
  | none =>
    match km with
    | some km => some ((UnitDict.set (fun _ => none) .km km).set .au (km / auKm))
    | none =>
      match m with
      | some m => some ((UnitDict.set (fun _ => none) .m m).set .au (m / auM))
      | none => none

/-- `Distance.light_seconds()` on a distance — skyfield/units.py:142-144. -/
def lightSeconds (d : UnitDict DistanceUnit K) : Option K :=
  (distanceClass.read d .m).map fun r => r.1 / lightSpeed

/-- The units of a velocity. Used at skyfield/units.py:170-174. -/
inductive VelocityUnit | auPerD | kmPerS | mPerS
deriving DecidableEq

/-- The units of `Velocity` — skyfield/units.py:170-174. -/
def velocityClass : UnitClass VelocityUnit K where
  core := .auPerD
  factor | .auPerD => 1 | .kmPerS => auKm / daySeconds | .mPerS => auM / daySeconds

/-- `Velocity.__init__(au_per_d, km_per_s)` — skyfield/units.py:160-168. -/
def velocityInit (auPerD kmPerS : Option K) : Option (UnitDict VelocityUnit K) :=
  match kmPerS with
  | some v => some ((UnitDict.set (fun _ => none) .kmPerS v).set .auPerD (v * daySeconds / auKm))
  | none =>
    match auPerD with
    | some v => some (UnitDict.set (fun _ => none) .auPerD v)
    | none => none

/-! ### Numbers with signed zero -/

/-- A Python number with its sign bit: floats distinguish `-0.0` from `0.0`, and `copysign` looks at it.
Used at skyfield/units.py:460-482. -/
structure SignedNum (K : Type*) where
  neg : Bool
  mag : K

/-- The number without the sign bit of zero. Used at skyfield/units.py:464-480. -/
def SignedNum.val (x : SignedNum K) : K := if x.neg then -x.mag else x.mag

/-- A Python integer: there is no integer `-0`. Used at skyfield/units.py:540-547. -/
def SignedNum.ofInt (n : ℤ) : SignedNum K := ⟨n < 0, |(n : K)|⟩

/-- A float that is not `-0.0`. Used at skyfield/units.py:321-331, 356-437. -/
def SignedNum.ofNum (x : K) : SignedNum K := ⟨x < 0, |x|⟩

/-- `copysign(a, b)` — `numpy.copysign`. Used at skyfield/units.py:515-519. -/
def copysign (a b : SignedNum K) : SignedNum K := ⟨b.neg, a.mag⟩

/-- `a + b`: the sign of a zero sum is negative only if both are. Used at skyfield/units.py:515-519. -/
def SignedNum.add (a b : SignedNum K) : SignedNum K :=
  if a.neg = b.neg then ⟨a.neg, a.mag + b.mag⟩
  else if a.mag = b.mag then ⟨false, 0⟩
  else if b.mag < a.mag then ⟨a.neg, a.mag - b.mag⟩
  else ⟨b.neg, b.mag - a.mag⟩

/-- `a * b`. Used at skyfield/units.py:364-365, 403-404. -/
def SignedNum.mul (a b : SignedNum K) : SignedNum K := ⟨xor a.neg b.neg, a.mag * b.mag⟩

/-- `a / c` for a positive number `c`. Used at skyfield/units.py:515-519. -/
def SignedNum.divPos (a : SignedNum K) (c : K) : SignedNum K := ⟨a.neg, a.mag / c⟩

/-- `np.sign(x)` of a float: `+0.0` for either zero. Used at skyfield/units.py:460-482. -/
def SignedNum.sign (x : SignedNum K) : SignedNum K :=
  if x.mag = 0 then ⟨false, 0⟩ else ⟨x.neg, 1⟩

/-! ### Sexagesimal -/

/-- A decomposed quantity, `(sign, units, minutes, seconds)`. Used at skyfield/units.py:460-482. -/
structure Sexagesimal (K : Type*) where
  sign : SignedNum K
  units : K
  minutes : K
  seconds : K

/-- `_sexagesimalize_to_float(value)` — skyfield/units.py:460-482. -/
def sexagesimalizeToFloat (value : SignedNum K) : Sexagesimal K :=
  let sign := value.sign
  let n := value.mag
  let (minutes, seconds) := pyDivmod (n * 3600) 60
  let (units, minutes) := pyDivmod minutes 60
  ⟨sign, units, minutes, seconds⟩

/-- `(sign * units, sign * minutes, sign * seconds)` — skyfield/units.py:364-365, 403-404. -/
def signedTuple (s : Sexagesimal K) : List (SignedNum K) :=
  [s.sign.mul ⟨false, s.units⟩, s.sign.mul ⟨false, s.minutes⟩, s.sign.mul ⟨false, s.seconds⟩]

/-- `_sexagesimalize_to_int(value, places)`: `(sign, units, minutes, seconds, fraction)` —
skyfield/units.py:484-505. -/
def sexagesimalizeToInt (value : K) (places : ℕ) : ℤ × ℤ × ℤ × ℤ × ℤ :=
  let power : ℤ := 10 ^ places
  let n : ℤ := astypeInt (pyFloorDiv (power * 3600 * value + 1 / 2) 1)
  let sign := Int.sign n
  let fraction := |n| % power
  let n := |n| / power
  let seconds := n % 60
  let n := n / 60
  let minutes := n % 60
  let n := n / 60
  (sign, n, minutes, seconds, fraction)

/-- `'{:0w}'.format(n)` for a non-negative integer: decimal digits, padded with zeros to `w`.  Python's
formatting: part of the trusted base. Used at skyfield/units.py:507-513. -/
def zeroPad (w : ℕ) (n : ℤ) : List Char :=
  let d := Nat.toDigits 10 n.toNat
  List.replicate (w - d.length) '0' ++ d

/-- The three format strings — skyfield/units.py:12-14. -/
inductive SexaFormat | dfmt | dsgn | hfmt
deriving DecidableEq

/-- The sign field: `{0}`, or `{0:+>1}` which pads an empty sign to `+`. Used at skyfield/units.py:460-482. -/
def SexaFormat.sign (f : SexaFormat) (negative : Bool) : List Char :=
  if negative then ['-'] else match f with | .dsgn => ['+'] | _ => []

/-- The text after units, after minutes and after seconds. Used at skyfield/units.py:507-513. -/
def SexaFormat.marks : SexaFormat → List Char × List Char × List Char
  | .hfmt => (['h', ' '], ['m', ' '], ['s'])
  | _ => (['d', 'e', 'g', ' '], ['\'', ' '], ['"'])

/-- `_sfmt(fmt, value, places)` on a number (for `nan` it returns `'nan'`) — skyfield/units.py:507-513. -/
def sfmt (f : SexaFormat) (value : K) (places : ℕ) : List Char :=
  let (sgn, h, m, s, fraction) := sexagesimalizeToInt value places
  f.sign (sgn < 0) ++ zeroPad 2 h ++ f.marks.1 ++ zeroPad 2 m ++ f.marks.2.1 ++ zeroPad 2 s ++ ['.'] ++
    zeroPad places fraction ++ f.marks.2.2

/-- `wms(whole, minutes, seconds)` — skyfield/units.py:515-519. -/
def wms (whole minutes seconds : SignedNum K) : SignedNum K :=
  (whole.add ((copysign minutes whole).divPos 60)).add ((copysign seconds whole).divPos 3600)

/-- The loop of `_unsexagesimalize` — skyfield/units.py:540-547. -/
def unsexagesimalizeGo (value : SignedNum K) (factor : K) : List (SignedNum K) → SignedNum K
  | [] => value
  | c :: cs =>
    let factor := factor * 60
    unsexagesimalizeGo (value.add ((copysign c value).divPos factor)) factor cs

/-- `_unsexagesimalize(value)` of a tuple; `none` is the exception for an empty tuple —
skyfield/units.py:521-548. -/
def unsexagesimalize : List (SignedNum K) → Option (SignedNum K)
  | [] => none
  | v :: cs => some (unsexagesimalizeGo v 1 cs)

/-! ### Angles -/

/-- The value of `preference`. Used at skyfield/units.py:272-291. -/
inductive Preference | hours | degrees
deriving DecidableEq

/-- `tau` — skyfield/constants.py:14.  Modelled as exactly 2π. -/
noncomputable def tau : ℝ := 2 * Real.pi

/-- An `Angle` instance: what is in its `__dict__`. `none` means that the attribute was never set.
Used at skyfield/units.py:272-291. -/
structure AngleObj where
  radians : Option ℝ
  hours : Option ℝ
  degrees : Option ℝ
  preference : Option Preference
  signed : Option Bool

/-- `Angle.__init__(angle, radians, degrees, hours, preference, signed)`; sexagesimal tuples have gone
through `_unsexagesimalize` already — skyfield/units.py:272-291. -/
noncomputable def angleInit (angle : Option AngleObj) (radians degrees hours : Option ℝ)
    (preference : Option Preference) (signed : Bool) : AngleObj :=
  let pref := match preference with
    | some p => p
    | none => if hours.isSome then .hours else .degrees
  match angle with
  | some a => ⟨a.radians, none, none, some pref, some signed⟩
  | none =>
    match radians with
    | some r => ⟨some r, none, none, some pref, some signed⟩
    | none =>
      match degrees with
      | some d => ⟨some (d / 360 * tau), none, some d, some pref, some signed⟩
      | none =>
        match hours with
        | some h => ⟨some (h / 24 * tau), some h, none, some pref, some signed⟩
        | none => ⟨none, none, none, some pref, some signed⟩

/-- `Angle.from_degrees(degrees, signed)` — skyfield/units.py:293-301. -/
noncomputable def angleFromDegrees (degrees : ℝ) (signed : Bool) : AngleObj :=
  ⟨some (degrees / 360 * tau), none, some degrees, some .degrees, some signed⟩

/-- `Angle.radians(value)`, the `getset` constructor, which sets nothing else —
skyfield/units.py:56-61, 303. -/
def angleFromRadians (value : ℝ) : AngleObj := ⟨some value, none, none, none, none⟩

/-- What a user can ask of an angle. Used at skyfield/units.py:321-331, 356-437. -/
inductive AngleAccess
  | radians | hours | degrees | arcminutes | arcseconds | mas
  | hms (warn : Bool) | signedHms (warn : Bool) | hstr (places : ℕ) (warn : Bool)
  | dms (warn : Bool) | signedDms (warn : Bool) | dstr (places : ℕ) (warn : Bool)

/-- The exceptions of an angle. Used at skyfield/units.py:311-314. -/
inductive AngleError | wrongUnit | missingAttribute
deriving DecidableEq

/-- What comes back. Used at skyfield/units.py:321-331, 356-437. -/
inductive AngleResult
  | number (x : ℝ)
  | tuple (t : List (SignedNum ℝ))
  | text (t : List Char)

/-- `angle.hours`, a `reify` attribute — skyfield/units.py:311-314. -/
noncomputable def AngleObj.getHours (a : AngleObj) : Except AngleError (ℝ × AngleObj) :=
  match a.hours with
  | some h => .ok (h, a)
  | none => match a.radians with
    | none => .error .missingAttribute
    | some r => .ok (r * 24 / tau, { a with hours := some (r * 24 / tau) })

/-- `angle.degrees` — skyfield/units.py:316-319. -/
noncomputable def AngleObj.getDegrees (a : AngleObj) : Except AngleError (ℝ × AngleObj) :=
  match a.degrees with
  | some d => .ok (d, a)
  | none => match a.radians with
    | none => .error .missingAttribute
    | some r => .ok (r * 360 / tau, { a with degrees := some (r * 360 / tau) })

/-- `if warn and self.preference != wanted: raise WrongUnitError` — skyfield/units.py:362, 374, 386, 401, 413, 425. -/
def AngleObj.check (a : AngleObj) (warn : Bool) (wanted : Preference) : Except AngleError Unit :=
  if warn then
    match a.preference with
    | none => .error .missingAttribute
    | some p => if p ≠ wanted then .error .wrongUnit else .ok ()
  else .ok ()

/-- One access, with the instance as it is afterwards — skyfield/units.py:321-331, 356-437.  Scalars
only; the default formats.  A float returned by `signed_hms()` has its sign as first entry. -/
noncomputable def AngleObj.access (a : AngleObj) : AngleAccess → Except AngleError (AngleResult × AngleObj)
  | .radians => match a.radians with
    | none => .error .missingAttribute
    | some r => .ok (.number r, a)
  | .hours => a.getHours.map fun r => (.number r.1, r.2)
  | .degrees => a.getDegrees.map fun r => (.number r.1, r.2)
  | .arcminutes => a.getDegrees.map fun r => (.number (r.1 * 60), r.2)
  | .arcseconds => a.getDegrees.map fun r => (.number (r.1 * 3600), r.2)
  | .mas => a.getDegrees.map fun r => (.number (r.1 * 3600000), r.2)
  | .hms warn => do
    a.check warn .hours
    let r ← a.getHours
    return (.tuple (signedTuple (sexagesimalizeToFloat (SignedNum.ofNum r.1))), r.2)
  | .signedHms warn => do
    a.check warn .hours
    let r ← a.getHours
    let s := sexagesimalizeToFloat (SignedNum.ofNum r.1)
    return (.tuple [s.sign, ⟨false, s.units⟩, ⟨false, s.minutes⟩, ⟨false, s.seconds⟩], r.2)
  | .hstr places warn => do
    a.check warn .hours
    let r ← a.getHours
    return (.text (sfmt .hfmt r.1 places), r.2)
  | .dms warn => do
    a.check warn .degrees
    let r ← a.getDegrees
    return (.tuple (signedTuple (sexagesimalizeToFloat (SignedNum.ofNum r.1))), r.2)
  | .signedDms warn => do
    a.check warn .degrees
    let r ← a.getDegrees
    let s := sexagesimalizeToFloat (SignedNum.ofNum r.1)
    return (.tuple [s.sign, ⟨false, s.units⟩, ⟨false, s.minutes⟩, ⟨false, s.seconds⟩], r.2)
  | .dstr places warn => do
    a.check warn .degrees
    let r ← a.getDegrees
    match a.signed with
    | none => .error .missingAttribute
    | some signed => return (.text (sfmt (if signed then .dsgn else .dfmt) r.1 places), r.2)

/-- Several accesses in a row: each result, an exception being caught and the next access made on the
same object. Used at skyfield/units.py:311-435. -/
noncomputable def AngleObj.accessAll : AngleObj → List AngleAccess → List (Except AngleError AngleResult)
  | _, [] => []
  | a, x :: xs =>
    match a.access x with
    | .error e => .error e :: a.accessAll xs
    | .ok (r, a') => .ok r :: a'.accessAll xs

/-- `_interpret_angle(name, angle_object, angle_float)`; the object is known to be an `Angle` —
skyfield/units.py:550-566. -/
noncomputable def interpretAngle (angle : Option AngleObj) (degrees : Option ℝ) : Option ℝ :=
  match angle with
  | some a => a.radians
  | none => degrees.map fun d => d / 360 * tau

/-! ### Rates -/

/-- The units of an angle rate. Used at skyfield/units.py:200-223. -/
inductive AngleRateUnit | radians | degrees | arcminutes | arcseconds | mas
deriving DecidableEq
/-- The units of a rate. Used at skyfield/units.py:227-256. -/
inductive RateUnit | perDay | perHour | perMinute | perSecond
deriving DecidableEq

/-- `AngleRate.radians` ... `AngleRate.mas` — skyfield/units.py:200-223. -/
noncomputable def angleRatePerDay (radiansPerDay : ℝ) : AngleRateUnit → ℝ
  | .radians => radiansPerDay
  | .degrees => radiansPerDay / tau * 360
  | .arcminutes => radiansPerDay / tau * 21600
  | .arcseconds => radiansPerDay / tau * 1296000
  | .mas => radiansPerDay / tau * 1296000000

/-- `Rate.per_day` ... `Rate.per_second` — skyfield/units.py:227-256. -/
noncomputable def rateIn (perDay : ℝ) : RateUnit → ℝ
  | .perDay => perDay
  | .perHour => perDay / 24
  | .perMinute => perDay / 1440
  | .perSecond => perDay / 86400

end Skyfield
