import Verif.Model.Almanac
import Verif.Model.Search
import Verif.Model.Kepler

/-
`find_risings`, `find_settings` and `find_transits` — skyfield/almanac.py:348-569.

The apparent place of the target (its hour angle, declination, distance, altitude and rate of altitude as seen by the observer) is
a function of the TT Julian date.  Every array of the code is a list here, and the arithmetic, which numpy does element by
element, is done for each event by itself.  `none` stands for a nan or an infinity, and for the whole search for the `ValueError` of
`numpy.linspace`.  Exact real arithmetic; `_fastify` and the reuse of the nutation of `previous_t` (almanac.py:312, 485-486), which
change the apparent place by less than the accuracy promised, are left out.
-/
namespace Skyfield
open Real

/-- What `apparent.hadec()` and `apparent.frame_latlon_and_rates(v)` give for one time: radians, meters, radians per day.
Used at skyfield/almanac.py:331-332, 402, 444. -/
structure SkyPlace where
  ha : ℝ
  dec : ℝ
  distance : ℝ
  altitude : ℝ
  rate : ℝ

/-- `_MICROSECOND`, in days — skyfield/almanac.py:16. -/
noncomputable def microsecond : ℝ := 1 / 24 / 3600 / 1000000

/-- The choices of horizon that `_find` distinguishes: the Sun, the Moon, any other target, or the altitude the caller gives —
skyfield/almanac.py:366-380. -/
inductive HorizonChoice
  | sun
  | moon
  | other
  | degrees (altitude : ℝ)

/-- `build_horizon_function` and the constants it uses, and the `else` branch of `_find` — skyfield/almanac.py:350-352, 366-380.
`none`: the infinity of a Moon at distance zero. -/
noncomputable def horizonRadians (c : HorizonChoice) (distance : ℝ) : Option ℝ :=
  open Classical in
  match c with
  | .sun => some (-50 / 21600 * tau)
  | .moon => if distance = 0 then none else some (-34 / 21600 * tau - 1.7374e6 / distance)
  | .other => some (-34 / 21600 * tau)
  | .degrees a => some (a / 360 * tau)

/-- `f(latitude, dec, h(distance))` for risings — skyfield/almanac.py:331-332, 402, 444. -/
noncomputable def wantRising (latitude : ℝ) (c : HorizonChoice) (p : SkyPlace) : Option ℝ :=
  (horizonRadians c p.distance).bind (risingHourAngle latitude p.dec)

/-- `f(latitude, dec, h(distance))` for settings — skyfield/almanac.py:315-329, 402, 444. -/
noncomputable def wantSetting (latitude : ℝ) (c : HorizonChoice) (p : SkyPlace) : Option ℝ :=
  (horizonRadians c p.distance).bind (settingHourAngle latitude p.dec)

/-- `_transit_ha` — skyfield/almanac.py:334-335. -/
def wantTransit (_ : SkyPlace) : Option ℝ := some 0

/-- `sample_count` and the sample times — skyfield/almanac.py:385-391. -/
noncomputable def findSamples (tt0 tt1 : ℝ) : Option (List ℝ) :=
  open Classical in
  let sampleCount : ℤ := ⌈(tt1 - tt0) / 0.8⌉ + 1
  if sampleCount < 0 then none else some (npLinspace tt0 tt1 sampleCount.toNat)

/-- `desired_ha_radians - ha.radians` at one time — skyfield/almanac.py:402-407. -/
noncomputable def haDifference (sky : ℝ → SkyPlace) (want : SkyPlace → Option ℝ) (t : ℝ) : Option ℝ :=
  (want (sky t)).map (· - (sky t).ha)

/-- One pair of neighbouring samples, if it is kept, as `old_t` and the time interpolated between the two; a comparison with nan is
false — skyfield/almanac.py:407-424. -/
noncomputable def guessBetween (sky : ℝ → SkyPlace) (want : SkyPlace → Option ℝ) (a b : ℝ) : Option (ℝ × ℝ) :=
  match haDifference sky want a, haDifference sky want b with
  | some d0, some d1 => (risingCandidate d0 d1 a b).map fun t => (a, t)
  | _, _ => none

/-- The pairs of neighbouring samples that are kept — skyfield/almanac.py:412-424. -/
noncomputable def findGuesses (sky : ℝ → SkyPlace) (want : SkyPlace → Option ℝ) (samples : List ℝ) : List (ℝ × ℝ) :=
  (adjacent samples).filterMap fun p => guessBetween sky want p.1 p.2

/-- `ha_per_day` — skyfield/almanac.py:451-454.  At equal times both differences are zero: 0/0. -/
noncomputable def haPerDay (sky : ℝ → SkyPlace) (normalize : ℝ → ℝ) (oldT t : ℝ) : Option ℝ :=
  open Classical in
  if t - oldT = 0 then none else some (normalize ((sky t).ha - (sky oldT).ha) / (t - oldT))

/-- `timebump` — skyfield/almanac.py:444-446, 461-462. -/
noncomputable def timeBump (sky : ℝ → SkyPlace) (want : SkyPlace → Option ℝ) (rate t : ℝ) : Option ℝ :=
  open Classical in
  if rate = 0 then none
  else (haDifference sky want t).map fun d =>
    let bump := normpi d / rate
    if bump = 0 then microsecond else bump

/-- The three turns of the loop, giving `previous_t` and `t` — skyfield/almanac.py:426-467. -/
noncomputable def refineEvent (sky : ℝ → SkyPlace) (want : SkyPlace → Option ℝ) (oldT t0 : ℝ) : Option (ℝ × ℝ) := do
  let rate0 ← haPerDay sky (fun r => pyMod r tau) oldT t0
  let bump0 ← timeBump sky want rate0 t0
  let t1 := t0 + bump0
  let rate1 ← haPerDay sky normpi t0 t1
  let bump1 ← timeBump sky want rate1 t1
  let t2 := t1 + bump1
  let bump2 ← timeBump sky want rate1 t2
  let t3 := t2 + bump2
  return (t2, t3)

/-- `t_scaled_offset` — skyfield/almanac.py:341-346, 353-354, 494-504.  A division by zero gives an infinity, which the
clip turns into one of the two limits (a zero divisor is taken to be positive zero), or nan for 0/0. -/
noncomputable def clippedOffset (y0 y1 v0 v1 : ℝ) : Option ℝ :=
  open Classical in
  match intersectionOf y0 y1 v0 v1 with
  | some x => some (clip x (-1) 2)
  | none => if y0 = 0 then none else if y0 < 0 then some 2 else some (-1)

/-- The last step for risings and settings: the time and whether the target is reported as crossing the horizon —
skyfield/almanac.py:477-513. -/
noncomputable def settleEvent (sky : ℝ → SkyPlace) (want : SkyPlace → Option ℝ) (c : HorizonChoice) (previousT t : ℝ) :
    Option (ℝ × Bool) :=
  open Classical in do
  let p0 := sky previousT
  let p1 := sky t
  let h0 ← horizonRadians c p0.distance
  let h1 ← horizonRadians c p1.distance
  let desired ← want p0
  let tdiff := t - previousT
  let offset ← clippedOffset (p0.altitude - h0) (p1.altitude - h1) (p0.rate * tdiff) (p1.rate * tdiff)
  return (previousT + offset * tdiff, decide (pyMod desired π ≠ 0) || (decide (-1 < offset) && decide (offset < 2)))

/-- `_find` up to the end of the loop — skyfield/almanac.py:375-467. -/
noncomputable def findApproaches (sky : ℝ → SkyPlace) (want : SkyPlace → Option ℝ) (tt0 tt1 : ℝ) : Option (List (Option (ℝ × ℝ))) :=
  (findSamples tt0 tt1).map fun samples => (findGuesses sky want samples).map fun g => refineEvent sky want g.1 g.2

/-- `find_transits` — skyfield/almanac.py:469-470, 555-569. -/
noncomputable def findTransits (sky : ℝ → SkyPlace) (tt0 tt1 : ℝ) : Option (List (Option ℝ)) :=
  (findApproaches sky wantTransit tt0 tt1).map fun l => l.map fun r => r.map (·.2)

/-- `find_risings` — skyfield/almanac.py:515-533. -/
noncomputable def findRisings (sky : ℝ → SkyPlace) (latitude : ℝ) (c : HorizonChoice) (tt0 tt1 : ℝ) :
    Option (List (Option (ℝ × Bool))) :=
  (findApproaches sky (wantRising latitude c) tt0 tt1).map fun l =>
    l.map fun r => r.bind fun p => settleEvent sky (wantRising latitude c) c p.1 p.2

/-- `find_settings` — skyfield/almanac.py:535-553. -/
noncomputable def findSettings (sky : ℝ → SkyPlace) (latitude : ℝ) (c : HorizonChoice) (tt0 tt1 : ℝ) :
    Option (List (Option (ℝ × Bool))) :=
  (findApproaches sky (wantSetting latitude c) tt0 tt1).map fun l =>
    l.map fun r => r.bind fun p => settleEvent sky (wantSetting latitude c) c p.1 p.2

end Skyfield
