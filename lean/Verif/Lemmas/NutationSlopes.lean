import Verif.Lemmas.NutationRate

/-
Sums over the bundled tables of nutation terms, evaluated by the kernel.
-/
namespace Skyfield

/-- Rates of the five arguments of Moon and Sun, in tenths of a milliarcsecond per century. -/
def lunisolarRates : List ℤ := [17179159232178, 1295965810481, 17395272628478, 16029616012090, -69628905431]

/-- Rates of the fourteen arguments of the planetary series, in units of 1e-10 radian per century. -/
def planetaryRates : List ℤ :=
  [83286914269554, 6283019550000, 84334661581310, 77713771468121, -337570450000, 26087903141574, 10213285546211,
   6283075849991, 3340612426700, 529690962641, 213299104960, 74781598567, 38127774000, 243817500]

theorem lunisolarRows_width : ∀ r ∈ lunisolarRows, r.length ≤ 5 := by
  have : lunisolarRows.all (fun r => decide (r.length ≤ 5)) = true := by decide +kernel
  simpa using this

theorem planetaryRows_width : ∀ r ∈ planetaryRows, r.length ≤ 14 := by
  have : planetaryRows.all (fun r => decide (r.length ≤ 14)) = true := by decide +kernel
  simpa using this

theorem equinoxRows_width : ∀ r ∈ equinoxRows, r.length ≤ 14 := by
  have : equinoxRows.all (fun r => decide (r.length ≤ 14)) = true := by decide +kernel
  simpa using this

theorem slope_psi0 : slopeSum lunisolarRows lunisolarLongitude0 lunisolarRates ≤ 201713298713507959563 := by decide +kernel
theorem slope_psi1 : slopeSum lunisolarRows lunisolarLongitude1 lunisolarRates ≤ 61706191005021120 := by decide +kernel
theorem slope_psi2 : slopeSum lunisolarRows lunisolarLongitude2 lunisolarRates ≤ 309722493473415247 := by decide +kernel
theorem slope_eps0 : slopeSum lunisolarRows lunisolarObliquity0 lunisolarRates ≤ 80883642253128295170 := by decide +kernel
theorem slope_eps1 : slopeSum lunisolarRows lunisolarObliquity1 lunisolarRates ≤ 35512434216857379 := by decide +kernel
theorem slope_eps2 : slopeSum lunisolarRows lunisolarObliquity2 lunisolarRates ≤ 136574938359352224 := by decide +kernel
theorem slope_ppsi0 : slopeSum planetaryRows planetaryLongitude0 planetaryRates ≤ 215198527619386772 := by decide +kernel
theorem slope_ppsi1 : slopeSum planetaryRows planetaryLongitude1 planetaryRates ≤ 103937746257261243 := by decide +kernel
theorem slope_peps0 : slopeSum planetaryRows planetaryObliquity0 planetaryRates ≤ 41789429718639903 := by decide +kernel
theorem slope_peps1 : slopeSum planetaryRows planetaryObliquity1 planetaryRates ≤ 73148913780111873 := by decide +kernel
theorem slope_eq0 : slopeSum equinoxRows equinoxes0 planetaryRates ≤ 243060488356005198 := by decide +kernel
theorem slope_eq1 : slopeSum equinoxRows equinoxes1 planetaryRates ≤ 52657773693565 := by decide +kernel
theorem weight_psi0 : weightSum lunisolarRows lunisolarLongitude0 ≤ 280154347 := by decide +kernel
theorem weight_psi1 : weightSum lunisolarRows lunisolarLongitude1 ≤ 206193 := by decide +kernel
theorem weight_psi2 : weightSum lunisolarRows lunisolarLongitude2 ≤ 175609 := by decide +kernel
theorem weight_eps0 : weightSum lunisolarRows lunisolarObliquity0 ≤ 137886762 := by decide +kernel
theorem weight_eps1 : weightSum lunisolarRows lunisolarObliquity1 ≤ 38317 := by decide +kernel
theorem weight_eps2 : weightSum lunisolarRows lunisolarObliquity2 ≤ 71383 := by decide +kernel
theorem weight_ppsi0 : weightSum planetaryRows planetaryLongitude0 ≤ 333019 := by decide +kernel
theorem weight_ppsi1 : weightSum planetaryRows planetaryLongitude1 ≤ 264450 := by decide +kernel
theorem weight_peps0 : weightSum planetaryRows planetaryObliquity0 ≤ 100865 := by decide +kernel
theorem weight_peps1 : weightSum planetaryRows planetaryObliquity1 ≤ 107487 := by decide +kernel
theorem weight_eq0 : weightSum equinoxRows equinoxes0 ≤ 299532 := by decide +kernel
theorem weight_eq1 : weightSum equinoxRows equinoxes1 ≤ 445 := by decide +kernel

theorem lengths_psi0 : lunisolarRows.length = lunisolarLongitude0.length := by decide +kernel
theorem lengths_psi1 : lunisolarRows.length = lunisolarLongitude1.length := by decide +kernel
theorem lengths_psi2 : lunisolarRows.length = lunisolarLongitude2.length := by decide +kernel
theorem lengths_eps0 : lunisolarRows.length = lunisolarObliquity0.length := by decide +kernel
theorem lengths_eps1 : lunisolarRows.length = lunisolarObliquity1.length := by decide +kernel
theorem lengths_eps2 : lunisolarRows.length = lunisolarObliquity2.length := by decide +kernel
theorem lengths_ppsi0 : planetaryRows.length = planetaryLongitude0.length := by decide +kernel
theorem lengths_ppsi1 : planetaryRows.length = planetaryLongitude1.length := by decide +kernel
theorem lengths_peps0 : planetaryRows.length = planetaryObliquity0.length := by decide +kernel
theorem lengths_peps1 : planetaryRows.length = planetaryObliquity1.length := by decide +kernel
theorem lunisolarRows_length : lunisolarRows.length = 678 := by decide +kernel
theorem planetaryRows_length : planetaryRows.length = 687 := by decide +kernel

end Skyfield
