import Verif.Model.DataFiles
import Verif.Model.Constellation

/-
Model of `load_constellation_names()` — skyfield/constellationlib.py:67-88, with the lines of skyfield/data/constellations.gz
(decompressed and cut at the newlines by a script).
-/
namespace Skyfield

/-- The lines of skyfield/data/constellations.gz: `data.splitlines()` — skyfield/constellationlib.py:85-88. -/
def constellationLines : List String :=
  ["Aql Aquila", "And Andromeda", "Scl Sculptor", "Ara Ara", "Lib Libra", "Cet Cetus", "Ari Aries", "Pyx Pyxis",
   "Boo Bootes", "Cae Caelum", "Cha Chamaeleon", "Cnc Cancer", "Cap Capricornus", "Car Carina",
   "Cas Cassiopeia", "Cen Centaurus", "Cep Cepheus", "Com Coma Berenices", "CVn Canes Venatici", "Aur Auriga",
   "Col Columba", "Cir Circinus", "Crt Crater", "CrA Corona Australis", "CrB Corona Borealis", "Crv Corvus",
   "Cru Crux", "Cyg Cygnus", "Del Delphinus", "Dor Dorado", "Dra Draco", "Nor Norma", "Eri Eridanus",
   "Sge Sagitta", "For Fornax", "Gem Gemini", "Cam Camelopardalis", "CMa Canis Major", "UMa Ursa Major",
   "Gru Grus", "Her Hercules", "Hor Horologium", "Hya Hydra", "Hyi Hydrus", "Ind Indus", "Lac Lacerta",
   "Mon Monoceros", "Lep Lepus", "Leo Leo", "Lup Lupus", "Lyn Lynx", "Lyr Lyra", "Ant Antlia",
   "Mic Microscopium", "Mus Musca", "Oct Octans", "Aps Apus", "Oph Ophiuchus", "Ori Orion", "Pav Pavo",
   "Peg Pegasus", "Pic Pictor", "Per Perseus", "Equ Equuleus", "CMi Canis Minor", "LMi Leo Minor",
   "Vul Vulpecula", "UMi Ursa Minor", "Phe Phoenix", "Psc Pisces", "PsA Piscis Austrinus", "Vol Volans",
   "Pup Puppis", "Ret Reticulum", "Sgr Sagittarius", "Sco Scorpius", "Sct Scutum", "Ser Serpens", "Sex Sextans",
   "Men Mensa", "Tau Taurus", "Tel Telescopium", "Tuc Tucana", "Tri Triangulum", "TrA Triangulum Australe",
   "Aqr Aquarius", "Vir Virgo", "Vel Vela"]

/-- `line.split(' ', 1)`: the list of the text before and after the first blank, or of the whole line.
Used at skyfield/constellationlib.py:67-88. -/
def splitOnce (line : List Char) : List (List Char) :=
  match line.dropWhile (· ≠ ' ') with
  | [] => [line]
  | _ :: rest => [line.takeWhile (· ≠ ' '), rest]

/-- `load_constellation_names()` — skyfield/constellationlib.py:67-88. -/
def loadConstellationNames : List (List (List Char)) := constellationLines.map fun line => splitOnce line.toList

end Skyfield
